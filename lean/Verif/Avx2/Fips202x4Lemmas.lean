import Verif.Avx2.Fips202x4
import Verif.Avx2.F1600Lemmas
import Verif.Keccak.Hash

/-! # Lemmas about fips202x4.c: each lane is the sponge of its input -/

namespace Verif.Avx2.X4

open Verif.Keccak (U64 Lanes Oob toU64 store64 xorAt abs permute xorStr ix byteOf rd streamSlice feed)
open Verif.Avx2.F1600
open Verif.Fips202 (bitsOf keccakF State)

theorem roundConstants_eq : roundConstants = Keccak.roundConstants := by decide +kernel

theorem laneOf_f1600 (R : Regs) (s : Nat → Q4) (l : Fin 4) : laneOf (f1600 R s) l = permute (laneOf s l) := by
  unfold f1600
  exact f1600x4_permute _ (fun c _ => by rw [roundConstants_eq]) _ _ _

theorem laneOf_xorV (O : Oob) (s : Nat → Q4) (i : Nat) (hi : i < 25) (t : Q4) (l : Fin 4) :
    laneOf (xorV s i t) l = xorAt O (laneOf s l) i (t l) := by
  apply Vector.ext
  intro j hj
  unfold laneOf xorV xorAt
  rw [dif_pos hi, Vector.getElem_ofFn]
  by_cases h : j = i
  · subst h
    rw [Vector.getElem_set_self, Vector.getElem_ofFn]
    unfold upd
    rw [show Nat.beq (32 * j) (32 * j) = true from Nat.beq_refl _]
    rfl
  · rw [Vector.getElem_set_ne _ _ (by omega), Vector.getElem_ofFn]
    unfold upd
    have : Nat.beq (32 * j) (32 * i) = false := by
      cases e : Nat.beq (32 * j) (32 * i) with
      | false => rfl
      | true => exact absurd (Nat.eq_of_beq_eq_true e) (by omega)
    rw [this]
    rfl

/-- The `n` bytes at `pos`. -/
def bytesOf (m : Nat → UInt8) (pos n : Nat) : Bytes := (List.range' pos n).map m

theorem bytesOf_length (m : Nat → UInt8) (pos n : Nat) : (bytesOf m pos n).length = n := by simp [bytesOf]

theorem bytesOf_add (m : Nat → UInt8) (pos a b : Nat) : bytesOf m pos (a + b) = bytesOf m pos a ++ bytesOf m (pos + a) b := by
  unfold bytesOf; rw [← List.range'_append_1, List.map_append]

theorem bytesOf_getD (m : Nat → UInt8) (pos n k : Nat) : (bytesOf m pos n).getD k 0 = if k < n then m (pos + k) else 0 := by
  unfold bytesOf
  split
  · rename_i h
    rw [List.getD_eq_getElem _ _ (by simpa using h), List.getElem_map, List.getElem_range', Nat.one_mul]
  · rename_i h
    rw [List.getD_eq_default _ _ (by simp; omega)]

theorem le64_bit (m : Nat → UInt8) (pos : Nat) (k : Nat) (hk : k < 64) : (le64 m pos).getLsbD k = (m (pos + k / 8)).toNat.testBit (k % 8) := by
  have : ∀ n ≤ 8, ((List.range n).foldl (fun r i => r ||| (toU64 (m (pos + i)) <<< (8 * i))) (0 : U64)).getLsbD k =
      if k < 8 * n then (m (pos + k / 8)).toNat.testBit (k % 8) else false := by
    intro n
    induction n with
    | zero => intro _; simp
    | succ n ih =>
      intro hn
      rw [List.range_succ, List.foldl_append, List.foldl_cons, List.foldl_nil, BitVec.getLsbD_or, ih (by omega), BitVec.getLsbD_shiftLeft,
        Keccak.toU64_bit, decide_eq_true hk, Bool.true_and]
      by_cases h1 : k < 8 * n
      · rw [if_pos h1, if_pos (by omega), decide_eq_true h1]; simp
      · rw [if_neg h1, decide_eq_false h1, Bool.not_false, Bool.true_and, Bool.false_or]
        by_cases h2 : k < 8 * (n + 1)
        · rw [if_pos h2, show k / 8 = n by omega, show k - 8 * n = k % 8 by omega]
        · rw [if_neg h2, Keccak.testBit_ge _ _ (by omega)]
  have h8 := this 8 (by omega)
  rw [if_pos hk] at h8
  exact h8

theorem mask_bit (n : Nat) (hn : n < 8) (k : Nat) (hk : k < 64) : (((1 : U64) <<< (8 * n)) - 1).getLsbD k = decide (k < 8 * n) := by
  have : ∀ n : Fin 8, ∀ k : Fin 64, (((1 : U64) <<< (8 * n.1)) - 1).getLsbD k.1 = decide (k.1 < 8 * n.1) := by decide +kernel
  exact this ⟨n, hn⟩ ⟨k, hk⟩

/-- Xoring a word whose bits are the bits of the `n` bytes at `pos`. -/
theorem xorBits_abs (O : Oob) (s : Lanes) (i : Nat) (hi : i < 25) (v : U64) (m : Nat → UInt8) (pos n : Nat) (hn : n ≤ 8)
    (hv : ∀ k < 64, v.getLsbD k = if k < 8 * n then (m (pos + k / 8)).toNat.testBit (k % 8) else false) :
    abs (xorAt O s i v) = xorStr (abs s) (8 * i) (bytesOf m pos n) := by
  funext x y z
  have hz := z.2
  rw [Keccak.xorAt_abs O s _ hi]
  unfold xorStr
  congr 1
  have hz2 : ix x y z % 64 = z.1 := by unfold ix; omega
  rw [Keccak.bitsOf_getD, bytesOf_getD, hv _ hz, ← hz2]
  generalize ix x y z = k
  by_cases h1 : k / 64 = i
  · subst h1
    rw [if_pos rfl, if_pos (show 8 * (8 * (k / 64)) ≤ k by omega)]
    have e1 : (k - 8 * (8 * (k / 64))) / 8 = k % 64 / 8 := by omega
    have e2 : (k - 8 * (8 * (k / 64))) % 8 = k % 64 % 8 := by omega
    rw [e1, e2]
    by_cases h2 : k % 64 < 8 * n
    · rw [if_pos h2, if_pos (by omega)]
    · rw [if_neg h2, if_neg (by omega)]; simp
  · rw [if_neg h1]
    split
    · rw [if_neg (by omega)]; simp
    · rfl

theorem xorWords_abs (inp : Fin 4 → Nat → UInt8) (n : Nat) (hn : n ≤ 25) (s : Nat → Q4) (pos : Nat) (l : Fin 4) :
    abs (laneOf (xorWords inp n s pos) l) = xorStr (abs (laneOf s l)) 0 (bytesOf (inp l) pos (8 * n)) := by
  let O : Oob := ⟨fun _ _ => 0, fun s _ _ => s, fun _ _ => 0⟩
  unfold xorWords
  induction n with
  | zero => rw [Nat.mul_zero]; exact (Keccak.xorStr_nil _ _).symm
  | succ n ih =>
    rw [List.range_succ, List.foldl_append, List.foldl_cons, List.foldl_nil, laneOf_xorV O _ _ (by omega),
      xorBits_abs O _ n (by omega) _ (inp l) (pos + 8 * n) 8 (by omega) (fun k hk => by
        rw [if_pos (by omega)]; exact le64_bit _ _ _ hk),
      ih (by omega), Nat.mul_succ, bytesOf_add, Keccak.xorStr_append, bytesOf_length, Nat.zero_add]

theorem abs_clear (s : Nat → Q4) (l : Fin 4) : abs (laneOf (clear s) l) = Keccak.zero := by
  rw [← Keccak.abs_zero]
  refine congrArg abs ?_
  have : ∀ n j, (List.range n).foldl (fun s i => upd s (32 * i) fun _ => (0 : U64)) s (32 * j) = if j < n then (fun _ => 0) else s (32 * j) := by
    intro n j
    induction n with
    | zero => simp
    | succ n ih =>
      rw [List.range_succ, List.foldl_append, List.foldl_cons, List.foldl_nil]
      unfold upd
      by_cases h : j = n
      · subst h
        rw [show Nat.beq (32 * j) (32 * j) = true from Nat.beq_refl _, if_pos (by omega)]
        rfl
      · have : Nat.beq (32 * j) (32 * n) = false := by
          cases e : Nat.beq (32 * j) (32 * n) with
          | false => rfl
          | true => exact absurd (Nat.eq_of_beq_eq_true e) (by omega)
        rw [this]
        refine Eq.trans ih ?_
        by_cases h2 : j < n
        · rw [if_pos h2, if_pos (by omega)]
        · rw [if_neg h2, if_neg (by omega)]
  apply Vector.ext
  intro j hj
  unfold laneOf clear
  rw [Vector.getElem_ofFn, Vector.getElem_replicate, this, if_pos hj]

theorem absorbLoop_spec (R : Regs) (r : Nat) (hr : 0 < r) (hr8 : r % 8 = 0) (hr2 : r ≤ 200) (inp : Fin 4 → Nat → UInt8) (inlen : Nat) :
    ∀ (s : Nat → Q4) (pos : Nat), ∃ s' pos' inlen', absorbLoop R r inp s pos inlen = some (s', pos', inlen') ∧ inlen' < r ∧
      ∀ l, (xorStr (abs (laneOf s' l)) 0 (bytesOf (inp l) pos' inlen'), inlen') = (bytesOf (inp l) pos inlen).foldl (feed r) (abs (laneOf s l), 0) := by
  induction inlen using Nat.strongRecOn with
  | _ inlen ih =>
    intro s pos
    rw [absorbLoop]
    by_cases h : inlen ≥ r
    · rw [if_pos h]
      obtain ⟨s', pos', inlen', h1, h2, h3⟩ := ih (inlen - r) (by omega) (f1600 R (xorWords inp (r / 8) s pos)) (pos + 8 * (r / 8))
      refine ⟨s', pos', inlen', h1, h2, fun l => ?_⟩
      have e8 : 8 * (r / 8) = r := by omega
      rw [h3, laneOf_f1600, Keccak.abs_permute, xorWords_abs inp _ (by omega), e8]
      conv_rhs => rw [show inlen = r + (inlen - r) by omega, bytesOf_add, List.foldl_append]
      rw [Keccak.feed_block r (bytesOf (inp l) pos r) _ _ (by
        intro h0
        have := congrArg List.length h0
        rw [bytesOf_length, List.length_nil] at this
        omega) (by rw [bytesOf_length, Nat.zero_add])]
    · rw [if_neg h]
      refine ⟨_, _, _, rfl, by omega, fun l => ?_⟩
      rw [Keccak.feed_lt r _ _ _ (by rw [bytesOf_length]; omega), bytesOf_length, Nat.zero_add]

theorem absorbTail_abs (r : Nat) (hr : 0 < r) (hr8 : r % 8 = 0) (hr2 : r ≤ 200) (inp : Fin 4 → Nat → UInt8) (p : UInt8) (s : Nat → Q4) (pos inlen : Nat)
    (hin : inlen < r) (l : Fin 4) :
    abs (laneOf (absorbTail r inp p s pos inlen) l) =
      xorStr (xorStr (xorStr (abs (laneOf s l)) 0 (bytesOf (inp l) pos inlen)) inlen [p]) (r - 1) [128] := by
  let O : Oob := ⟨fun _ _ => 0, fun s _ _ => s, fun _ _ => 0⟩
  unfold absorbTail
  dsimp only
  have h1 : abs (laneOf (if inlen - 8 * (inlen / 8) ≠ 0 then xorV (xorWords inp (inlen / 8) s pos) (inlen / 8)
      fun l => gather inp (pos + 8 * (inlen / 8)) l &&& (((1 : U64) <<< (8 * (inlen - 8 * (inlen / 8)))) - 1)
      else xorWords inp (inlen / 8) s pos) l) = xorStr (abs (laneOf s l)) 0 (bytesOf (inp l) pos inlen) := by
    by_cases h : inlen - 8 * (inlen / 8) ≠ 0
    · rw [if_pos h, laneOf_xorV O _ _ (by omega),
        xorBits_abs O _ _ (by omega) _ (inp l) (pos + 8 * (inlen / 8)) (inlen - 8 * (inlen / 8)) (by omega) (fun k hk => by
          rw [BitVec.getLsbD_and, mask_bit _ (by omega) _ hk]
          show ((le64 _ _).getLsbD k && _) = _
          rw [le64_bit _ _ _ hk]
          split
          · rename_i h; rw [decide_eq_true h, Bool.and_true]
          · rename_i h; rw [decide_eq_false h, Bool.and_false]),
        xorWords_abs inp _ (by omega)]
      conv_rhs => rw [show inlen = 8 * (inlen / 8) + (inlen - 8 * (inlen / 8)) by omega, bytesOf_add, Keccak.xorStr_append, bytesOf_length, Nat.zero_add]
    · rw [if_neg h, xorWords_abs inp _ (by omega)]
      rw [show 8 * (inlen / 8) = inlen by omega]
  have h63 : (1 : U64) <<< 63 = toU64 128 <<< (8 * ((r - 1) % 8)) := by
    rw [show (r - 1) % 8 = 7 by omega]; decide
  rw [laneOf_xorV O _ _ (by omega), laneOf_xorV O _ _ (by omega), h63, show r / 8 - 1 = (r - 1) / 8 by omega, Keccak.xorByte_abs O _ _ (by omega),
    show inlen - 8 * (inlen / 8) = inlen % 8 by omega, Keccak.xorByte_abs O _ _ (by omega)]
  rw [show inlen - 8 * (inlen / 8) = inlen % 8 by omega] at h1
  rw [h1]

/-- After absorbing, the next permutation gives FIPS 202's state for each of the four inputs. -/
theorem absorbOnce_spec {p : UInt8} {suf : List Bool} (hp : Keccak.Domain p suf) (R : Regs) (s : Nat → Q4) (r : Nat) (hr : 0 < r) (hr8 : r % 8 = 0)
    (hr2 : r ≤ 200) (inp : Fin 4 → Nat → UInt8) (inlen : Nat) :
    ∃ s', absorbOnce R s r inp inlen p = some s' ∧
      ∀ l, keccakF (abs (laneOf s' l)) = Fips202.absorbed (8 * r) (bitsOf (bytesOf (inp l) 0 inlen) ++ suf) := by
  obtain ⟨s', pos', inlen', h1, h2, h3⟩ := absorbLoop_spec R r hr hr8 hr2 inp inlen (clear s) 0
  unfold absorbOnce
  rw [h1]
  refine ⟨_, rfl, fun l => ?_⟩
  rw [absorbTail_abs r hr hr8 hr2 inp p s' pos' inlen' h2]
  refine Keccak.final_absorbed hp r hr _ _ _ ?_
  rw [h3, abs_clear]

theorem squeezeBlocks_eq (O : Oob) (R : Regs) (r : Nat) (hr2 : r ≤ 200) (n : Nat) : ∀ s : Nat → Q4, ∀ l,
    ((squeezeBlocks R r n s).1 l, laneOf (squeezeBlocks R r n s).2 l) = Keccak.squeezeBlocks O r n (laneOf s l) := by
  induction n with
  | zero => intro s l; rfl
  | succ n ih =>
    intro s l
    unfold squeezeBlocks Keccak.squeezeBlocks
    dsimp only
    rw [← laneOf_f1600 R, ← ih (f1600 R s) l]
    have e : (List.range (r / 8)).flatMap (fun i => store64 (f1600 R s (32 * i) l)) =
        (List.range (r / 8)).flatMap fun i => store64 (rd O (laneOf (f1600 R s) l) i) := by
      apply List.flatMap_congr
      intro i hi
      rw [List.mem_range] at hi
      rw [Keccak.rd_lt O _ _ (by omega)]
      unfold laneOf
      rw [Vector.getElem_ofFn]
    rw [e]

/-- A state from which `b` blocks have been squeezed since it was `s0`. -/
def After (s0 : Fin 4 → Lanes) (b : Nat) (s : Nat → Q4) : Prop := ∀ l, laneOf s l = permute^[b] (s0 l)

theorem After.squeeze {s0 : Fin 4 → Lanes} {b : Nat} {s : Nat → Q4} (h : After s0 b s) (O : Oob) (R : Regs) (r : Nat) (hr8 : r % 8 = 0) (hr2 : r ≤ 200)
    (n : Nat) : (∀ l, (squeezeBlocks R r n s).1 l = streamSlice O r (s0 l) (b * r) (n * r)) ∧ After s0 (b + n) (squeezeBlocks R r n s).2 := by
  have := fun l => squeezeBlocks_eq O R r hr2 n s l
  simp only [h _, Keccak.squeezeBlocks_spec O r hr8, Prod.mk.injEq] at this
  exact ⟨fun l => (this l).1, fun l => (this l).2⟩

/-- The four streams that the calls of `squeezeblocks` after `absorb_once` produce. -/
theorem streams_spec (O : Oob) {p : UInt8} {suf : List Bool} (hp : Keccak.Domain p suf) (R : Regs) (s : Nat → Q4) (r : Nat) (hr : 0 < r) (hr8 : r % 8 = 0)
    (hr2 : r ≤ 200) (inp : Fin 4 → Nat → UInt8) (inlen : Nat) :
    ∃ s' s0, absorbOnce R s r inp inlen p = some s' ∧ After s0 0 s' ∧
      ∀ l n, bitsOf (streamSlice O r (s0 l) 0 n) = Fips202.sponge (8 * r) (bitsOf (bytesOf (inp l) 0 inlen) ++ suf) (8 * n) := by
  obtain ⟨s', h1, h2⟩ := absorbOnce_spec hp R s r hr hr8 hr2 inp inlen
  exact ⟨s', laneOf s', h1, fun _ => rfl, fun l n => Keccak.streamSlice_sponge O r hr hr2 _ _ (h2 l) n⟩

end Verif.Avx2.X4
