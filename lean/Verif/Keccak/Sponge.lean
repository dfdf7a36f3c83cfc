import Verif.Keccak.Permute
import Mathlib.Data.List.GetD

/-! # Absorbing and squeezing bytes -/

namespace Verif.Keccak
open Verif.Fips202

/-! ## Bit strings of byte strings -/

theorem bitsOf_append (a b : Bytes) : bitsOf (a ++ b) = bitsOf a ++ bitsOf b := by
  unfold bitsOf; rw [List.flatMap_append]

theorem bitsOf_cons (a : UInt8) (b : Bytes) : bitsOf (a :: b) = (List.range 8).map (fun j => a.toNat.testBit j) ++ bitsOf b := rfl

theorem bitsOf_length (a : Bytes) : (bitsOf a).length = 8 * a.length := by
  induction a with
  | nil => rfl
  | cons x a ih => rw [bitsOf_cons, List.length_append, List.length_map, List.length_range, ih, List.length_cons]; omega

theorem bitsOf_take (a : Bytes) (n : Nat) : bitsOf (a.take n) = (bitsOf a).take (8 * n) := by
  induction a generalizing n with
  | nil => simp [bitsOf]
  | cons x a ih =>
    cases n with
    | zero => rfl
    | succ n =>
      rw [List.take_succ_cons, bitsOf_cons, bitsOf_cons, ih, show 8 * (n + 1) = 8 + 8 * n by omega, List.take_append,
        List.length_map, List.length_range, Nat.add_sub_cancel_left, List.take_of_length_le (i := 8 + 8 * n) (by rw [List.length_map, List.length_range]; omega)]

theorem bitsOf_drop (a : Bytes) (n : Nat) : bitsOf (a.drop n) = (bitsOf a).drop (8 * n) := by
  induction a generalizing n with
  | nil => simp [bitsOf]
  | cons x a ih =>
    cases n with
    | zero => rfl
    | succ n =>
      rw [List.drop_succ_cons, bitsOf_cons, ih, show 8 * (n + 1) = 8 + 8 * n by omega, List.drop_append,
        List.length_map, List.length_range, Nat.add_sub_cancel_left, List.drop_of_length_le (i := 8 + 8 * n) (by rw [List.length_map, List.length_range]; omega), List.nil_append]

theorem bitsOf_getD (a : Bytes) (k : Nat) : (bitsOf a).getD k false = (a.getD (k / 8) 0).toNat.testBit (k % 8) := by
  induction a generalizing k with
  | nil => simp [bitsOf]
  | cons x a ih =>
    rw [bitsOf_cons]
    by_cases h : k < 8
    · rw [List.getD_append _ _ _ _ (by simpa using h), show k / 8 = 0 by omega, Nat.mod_eq_of_lt h]
      simp [List.getD_eq_getElem?_getD, h]
    · rw [List.getD_append_right _ _ _ _ (by simp; omega), List.length_map, List.length_range, ih, show k / 8 = (k - 8) / 8 + 1 by omega,
        List.getD_cons_succ, show k % 8 = (k - 8) % 8 by omega]

/-! ## Exclusive or of bytes into a state -/

/-- The bit index of `A[x, y, z]`. -/
def ix (x y : Fin 5) (z : Fin 64) : Nat := 64 * (5 * y.1 + x.1) + z.1

/-- The bytes `bs` are xored into the state from byte `p` on. -/
def xorStr (A : State) (p : Nat) (bs : Bytes) : State := fun x y z =>
  A x y z ^^ (if 8 * p ≤ ix x y z then (bitsOf bs).getD (ix x y z - 8 * p) false else false)

theorem xorStr_nil (A : State) (p : Nat) : xorStr A p [] = A := by
  funext x y z; simp [xorStr, bitsOf]

theorem xorStr_append (A : State) (p : Nat) (a b : Bytes) : xorStr A p (a ++ b) = xorStr (xorStr A p a) (p + a.length) b := by
  funext x y z
  unfold xorStr
  rw [bitsOf_append]
  generalize ix x y z = i
  have hl := bitsOf_length a
  by_cases h1 : 8 * p ≤ i
  · rw [if_pos h1, if_pos h1]
    by_cases h2 : 8 * (p + a.length) ≤ i
    · rw [if_pos h2, List.getD_append_right _ _ _ _ (by omega), List.getD_eq_default (l := bitsOf a) _ (by omega), Bool.xor_false, hl]
      congr 2
      omega
    · rw [if_neg h2, List.getD_append _ _ _ _ (by omega), Bool.xor_false]
  · rw [if_neg h1, if_neg h1, if_neg (by omega), Bool.xor_false, Bool.xor_false]

theorem xorString_bitsOf (A : State) (bs : Bytes) : xorString A (bitsOf bs) = xorStr A 0 bs := by
  funext x y z
  unfold xorString xorStr
  rw [Nat.mul_zero, if_pos (Nat.zero_le _), Nat.sub_zero]; rfl

theorem toU64_bit (b : UInt8) (k : Nat) : (toU64 b).getLsbD k = b.toNat.testBit k := by
  unfold toU64
  rw [BitVec.getLsbD_setWidth]
  have : b.toBitVec.getLsbD k = b.toNat.testBit k := rfl
  rw [this]
  by_cases h : k < 64
  · simp [h]
  · simp only [h, decide_false, Bool.false_and]
    rw [Nat.testBit_lt_two_pow]
    exact Nat.lt_of_lt_of_le b.toNat_lt (Nat.pow_le_pow_right (n := 2) (by omega) (show 8 ≤ k by omega))

theorem testBit_ge (b : UInt8) (k : Nat) (h : 8 ≤ k) : b.toNat.testBit k = false := by
  rw [Nat.testBit_lt_two_pow]
  exact Nat.lt_of_lt_of_le b.toNat_lt (Nat.pow_le_pow_right (n := 2) (by omega) h)

theorem xorAt_abs (O : Oob) (s : Lanes) (i : Nat) (h : i < 25) (v : U64) (x y : Fin 5) (z : Fin 64) :
    abs (xorAt O s i v) x y z = (abs s x y z ^^ (if ix x y z / 64 = i then v.getLsbD z.1 else false)) := by
  have hz := z.2
  have e : ix x y z / 64 = 5 * y.1 + x.1 := by unfold ix; omega
  rw [e]
  unfold xorAt abs
  rw [dif_pos h]
  by_cases hi : 5 * y.1 + x.1 = i
  · subst hi
    rw [if_pos rfl, Vector.getElem_set_self, BitVec.getLsbD_xor]
  · rw [if_neg hi, Vector.getElem_set_ne _ _ (by omega), Bool.xor_false]

/-- One byte. -/
theorem xorByte_abs (O : Oob) (s : Lanes) (p : Nat) (h : p < 200) (b : UInt8) :
    abs (xorAt O s (p / 8) (toU64 b <<< (8 * (p % 8)))) = xorStr (abs s) p [b] := by
  funext x y z
  have hz := z.2
  rw [xorAt_abs O s _ (by omega)]
  unfold xorStr
  congr 1
  rw [bitsOf_getD]
  have hz2 : ix x y z % 64 = z.1 := by unfold ix; omega
  rw [BitVec.getLsbD_shiftLeft, toU64_bit, ← hz2]
  generalize ix x y z = i
  have d : decide (i % 64 < 64) = true := by simp; omega
  rw [d, Bool.true_and]
  by_cases h1 : i / 8 = p
  · subst h1
    rw [if_pos (by omega), if_pos (by omega), show (i - 8 * (i / 8)) / 8 = 0 by omega]
    simp only [List.getD_cons_zero]
    rw [decide_eq_false (by omega)]
    simp only [Bool.not_false, Bool.true_and]
    congr 1
    omega
  · by_cases h2 : 8 * p ≤ i
    · rw [if_pos h2, show (i - 8 * p) / 8 = (i - 8 * p) / 8 - 1 + 1 by omega, List.getD_cons_succ, List.getD_nil]
      split
      · rw [testBit_ge _ _ (by omega)]; simp
      · simp
    · rw [if_neg h2]
      split
      · rw [decide_eq_true (by omega)]; simp
      · rfl

theorem rdByte_lt (O : Oob) (m : Bytes) (i : Nat) (h : i < m.length) : rdByte O m i = m[i] := by
  unfold rdByte; rw [dif_pos h]

theorem xorBytesAt_abs (O : Oob) (s : Lanes) (cnt : Nat) (m : Bytes) (n : Nat) (hn : n ≤ m.length) (h : cnt + n ≤ 200) :
    abs (xorBytesAt O s cnt m n) = xorStr (abs s) cnt (m.take n) := by
  unfold xorBytesAt
  induction n with
  | zero => rw [List.take_zero, xorStr_nil]; rfl
  | succ n ih =>
    rw [List.range_succ, List.foldl_append, List.foldl_cons, List.foldl_nil, xorByte_abs O _ _ (by omega), ih (by omega) (by omega),
      rdByte_lt O m n (by omega), List.take_succ_eq_append_getElem (by omega), xorStr_append, List.length_take, Nat.min_eq_left (by omega)]

/-! ## Words -/

theorem load64_bit (O : Oob) (m : Bytes) (off : Nat) (h : off + 8 ≤ m.length) (k : Nat) (hk : k < 64) :
    (load64 O m off).getLsbD k = (m.getD (off + k / 8) 0).toNat.testBit (k % 8) := by
  have : ∀ n ≤ 8, ((List.range n).foldl (fun r i => r ||| (toU64 (rdByte O m (off + i)) <<< (8 * i))) (0 : U64)).getLsbD k =
      if k < 8 * n then (m.getD (off + k / 8) 0).toNat.testBit (k % 8) else false := by
    intro n
    induction n with
    | zero => intro _; simp
    | succ n ih =>
      intro hn
      rw [List.range_succ, List.foldl_append, List.foldl_cons, List.foldl_nil, BitVec.getLsbD_or, ih (by omega), BitVec.getLsbD_shiftLeft, toU64_bit,
        rdByte_lt O m _ (by omega), decide_eq_true hk, Bool.true_and]
      by_cases h1 : k < 8 * n
      · rw [if_pos h1, if_pos (by omega), decide_eq_true h1]; simp
      · rw [if_neg h1, decide_eq_false h1, Bool.not_false, Bool.true_and, Bool.false_or]
        by_cases h2 : k < 8 * (n + 1)
        · rw [if_pos h2, show k / 8 = n by omega, show k - 8 * n = k % 8 by omega, List.getD_eq_getElem _ _ (by omega)]
        · rw [if_neg h2, testBit_ge _ _ (by omega)]
  have h8 := this 8 (by omega)
  rw [if_pos hk] at h8
  exact h8

theorem xorWord_abs (O : Oob) (s : Lanes) (i : Nat) (hi : i < 25) (m : Bytes) (h : 8 * i + 8 ≤ m.length) :
    abs (xorAt O s i (load64 O m (8 * i))) = xorStr (abs s) (8 * i) ((m.drop (8 * i)).take 8) := by
  funext x y z
  have hz := z.2
  rw [xorAt_abs O s _ hi]
  unfold xorStr
  congr 1
  have hz2 : ix x y z % 64 = z.1 := by unfold ix; omega
  rw [bitsOf_getD, load64_bit O m _ h _ hz, ← hz2]
  generalize ix x y z = k
  by_cases h1 : k / 64 = i
  · subst h1
    rw [if_pos rfl, if_pos (by omega), List.getD_eq_getElem _ _ (by omega),
      List.getD_eq_getElem _ _ (by rw [List.length_take, List.length_drop]; omega), List.getElem_take, List.getElem_drop]
    have e1 : 8 * (k / 64) + k % 64 / 8 = 8 * (k / 64) + (k - 8 * (8 * (k / 64))) / 8 := by omega
    have e2 : k % 64 % 8 = (k - 8 * (8 * (k / 64))) % 8 := by omega
    simp only [e1, e2]
  · rw [if_neg h1]
    split
    · rw [List.getD_eq_default _ _ (by rw [List.length_take, List.length_drop]; omega)]; simp
    · rfl

theorem xorWords_abs (O : Oob) (r : Nat) (hr : r % 8 = 0) (hr2 : r ≤ 200) (s : Lanes) (m : Bytes) (h : r ≤ m.length) :
    abs (xorWords O r s m) = xorStr (abs s) 0 (m.take r) := by
  have : ∀ n ≤ r / 8, abs ((List.range n).foldl (fun s i => xorAt O s i (load64 O m (8 * i))) s) = xorStr (abs s) 0 (m.take (8 * n)) := by
    intro n
    induction n with
    | zero => intro _; rw [Nat.mul_zero, List.take_zero, xorStr_nil]; rfl
    | succ n ih =>
      intro hn
      rw [List.range_succ, List.foldl_append, List.foldl_cons, List.foldl_nil, xorWord_abs O _ _ (by omega) _ (by omega), ih (by omega),
        show 8 * (n + 1) = 8 * n + 8 by omega, List.take_add, xorStr_append, List.length_take, Nat.min_eq_left (by omega), Nat.zero_add]
  unfold xorWords
  rw [this _ (Nat.le_refl _), show 8 * (r / 8) = r by omega]

/-! ## Feeding bytes one at a time -/

/-- Absorb one byte; permute when the block of `r` bytes is full. -/
def feed (r : Nat) (a : State × Nat) (b : UInt8) : State × Nat :=
  let A := xorStr a.1 a.2 [b]
  if a.2 + 1 = r then (keccakF A, 0) else (A, a.2 + 1)

theorem feed_lt (r : Nat) (bs : Bytes) (A : State) (c : Nat) (h : c + bs.length < r) : bs.foldl (feed r) (A, c) = (xorStr A c bs, c + bs.length) := by
  induction bs generalizing A c with
  | nil => rw [xorStr_nil]; rfl
  | cons b bs ih =>
    rw [List.length_cons] at h
    rw [List.foldl_cons]
    unfold feed
    dsimp only
    rw [if_neg (by omega)]
    have := ih (xorStr A c [b]) (c + 1) (by omega)
    unfold feed at this
    rw [this, List.length_cons, show b :: bs = [b] ++ bs from rfl, xorStr_append, List.length_singleton]
    congr 1
    omega

theorem feed_block (r : Nat) (bs : Bytes) (A : State) (c : Nat) (h0 : bs ≠ []) (h : c + bs.length = r) :
    bs.foldl (feed r) (A, c) = (keccakF (xorStr A c bs), 0) := by
  obtain ⟨bs, b, rfl⟩ : ∃ l x, bs = l ++ [x] := ⟨bs.dropLast, bs.getLast h0, (List.dropLast_append_getLast h0).symm⟩
  rw [List.length_append, List.length_singleton] at h
  rw [List.foldl_append, feed_lt r bs A c (by omega), List.foldl_cons, List.foldl_nil]
  unfold feed
  dsimp only
  rw [if_pos (by omega), xorStr_append]

/-- The state array all of whose bits are zero. -/
def zero : State := fun _ _ _ => false

theorem abs_zero : abs (Vector.replicate 25 0) = zero := by
  funext x y z; unfold abs zero; rw [Vector.getElem_replicate]; simp

theorem incAbsorbLoop_spec (O : Oob) (r : Nat) (hr : 0 < r) (hr2 : r ≤ 200) (fuel : Nat) (c : Inc) (m : Bytes) (hf : m.length + 1 ≤ fuel) (hc : c.cnt < r) :
    ∃ c', incAbsorbLoop O r fuel c m = some c' ∧ (abs c'.s, c'.cnt) = m.foldl (feed r) (abs c.s, c.cnt) ∧ c'.cnt < r := by
  induction fuel generalizing c m with
  | zero => omega
  | succ fuel ih =>
    unfold incAbsorbLoop
    by_cases h : m.length + c.cnt ≥ r
    · rw [if_pos h]
      obtain ⟨c', h1, h2, h3⟩ := ih ⟨permute (xorBytesAt O c.s c.cnt m (r - c.cnt)), 0⟩ (m.drop (r - c.cnt))
        (by rw [List.length_drop]; omega) hr
      refine ⟨c', h1, ?_, h3⟩
      rw [h2]
      dsimp only
      rw [abs_permute, xorBytesAt_abs O _ _ _ _ (by omega) (by omega)]
      conv_rhs => rw [← List.take_append_drop (r - c.cnt) m, List.foldl_append]
      rw [feed_block r (m.take (r - c.cnt)) _ _ (by
        intro h0
        have := congrArg List.length h0
        rw [List.length_take, List.length_nil] at this
        omega) (by rw [List.length_take]; omega)]
    · rw [if_neg h]
      refine ⟨_, rfl, ?_, by dsimp only; omega⟩
      dsimp only
      rw [feed_lt r m _ _ (by omega), xorBytesAt_abs O _ _ _ _ (Nat.le_refl _) (by omega), List.take_length]

theorem incAbsorb_spec (O : Oob) (r : Nat) (hr : 0 < r) (hr2 : r ≤ 200) (c : Inc) (m : Bytes) (hc : c.cnt < r) :
    ∃ c', incAbsorb O r c m = some c' ∧ (abs c'.s, c'.cnt) = m.foldl (feed r) (abs c.s, c.cnt) ∧ c'.cnt < r :=
  incAbsorbLoop_spec O r hr hr2 _ c m (by omega) hc

theorem absorbLoop_spec (O : Oob) (r : Nat) (hr : 0 < r) (hr8 : r % 8 = 0) (hr2 : r ≤ 200) (fuel : Nat) (s : Lanes) (m : Bytes) (hf : m.length + 1 ≤ fuel) :
    ∃ s' m', absorbLoop O r fuel s m = some (s', m') ∧ (xorStr (abs s') 0 m', m'.length) = m.foldl (feed r) (abs s, 0) ∧ m'.length < r := by
  induction fuel generalizing s m with
  | zero => omega
  | succ fuel ih =>
    unfold absorbLoop
    by_cases h : m.length ≥ r
    · rw [if_pos h]
      obtain ⟨s', m', h1, h2, h3⟩ := ih (permute (xorWords O r s m)) (m.drop r) (by rw [List.length_drop]; omega)
      refine ⟨s', m', h1, ?_, h3⟩
      rw [h2, abs_permute, xorWords_abs O r hr8 hr2 _ _ h]
      conv_rhs => rw [← List.take_append_drop r m, List.foldl_append]
      rw [feed_block r (m.take r) _ _ (by
        intro h0
        have := congrArg List.length h0
        rw [List.length_take, List.length_nil] at this
        omega) (by rw [List.length_take]; omega)]
    · rw [if_neg h]
      refine ⟨_, _, rfl, ?_, by omega⟩
      rw [feed_lt r m _ _ (by omega), Nat.zero_add]

end Verif.Keccak
