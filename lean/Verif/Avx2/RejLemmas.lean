import Verif.Avx2.Rej
import Verif.Avx2.PolyInt
import Verif.Dilithium.SampleTotal

/-! # What the vectorised rejection sampling returns -/

namespace Verif.Avx2

open Verif.Dilithium

/-! ## The table -/

/-- The set bits of an 8-bit mask, ascending. -/
def bitsOf (b : Nat) : List Nat := (List.range 8).filter fun j => b.testBit j

theorem lut_spec : ∀ b : Fin 256, (bitsOf b.1 = (List.range (bitsOf b.1).length).map (lutAt b.1)) ∧ (∀ k : Fin 8, lutAt b.1 k.1 < 8) ∧
    popcnt b.1 = (bitsOf b.1).length := by decide +kernel

theorem bitsOf_length_le (b : Nat) : (bitsOf b).length ≤ 8 := by
  refine (List.length_filter_le _ _).trans ?_
  rw [List.length_range]

/-- What a compressing store does to a list: the lanes whose mask bit is set are appended, the rest of the array from `ctr + 8` is untouched. -/
theorem compact {α : Type} (b : Nat) (hb : b < 256) (v : Nat → α) (r r' : Nat → α) (ctr : Nat) (L : List α) (hL : L.length = ctr)
    (hr : ∀ k (h : k < L.length), r k = L[k]) (h1 : ∀ k, k < 8 → r' (ctr + k) = v (lutAt b k)) (h2 : ∀ n, n < ctr → r' n = r n) :
    (L ++ (bitsOf b).map v).length = ctr + popcnt b ∧ ∀ k (h : k < (L ++ (bitsOf b).map v).length), r' k = (L ++ (bitsOf b).map v)[k] := by
  obtain ⟨e1, e2, e3⟩ := lut_spec ⟨b, hb⟩
  simp only at e1 e2 e3
  have hl := bitsOf_length_le b
  refine ⟨by rw [List.length_append, List.length_map, e3, hL], fun k hk => ?_⟩
  rw [List.length_append, List.length_map] at hk
  by_cases h : k < L.length
  · rw [List.getElem_append_left h, h2 k (by omega), hr k h]
  · rw [List.getElem_append_right (by omega), List.getElem_map]
    have : (bitsOf b)[k - L.length]'(by omega) = lutAt b (k - L.length) := by
      have e4 : (bitsOf b)[k - L.length]? = ((List.range (bitsOf b).length).map (lutAt b))[k - L.length]? := congrArg (·[k - L.length]?) e1
      rw [List.getElem?_map, List.getElem?_range (by omega), List.getElem?_eq_getElem (by omega)] at e4
      simpa using e4
    rw [this, ← h1 _ (by omega)]
    congr 1; omega

/-! ## Bytes of registers -/

theorem ofBytes_toNat (b0 b1 b2 b3 : BitVec 8) : (ofBytes b0 b1 b2 b3).toNat = b0.toNat + 256 * b1.toNat + 65536 * b2.toNat + 16777216 * b3.toNat := by
  unfold ofBytes
  rw [BitVec.toNat_append, BitVec.toNat_append, BitVec.toNat_append]
  have h0 := b0.isLt; have h1 := b1.isLt; have h2 := b2.isLt; have h3 := b3.isLt
  rw [← Nat.shiftLeft_add_eq_or_of_lt (by omega), ← Nat.shiftLeft_add_eq_or_of_lt (by omega), ← Nat.shiftLeft_add_eq_or_of_lt (by omega)]
  simp only [Nat.shiftLeft_eq]
  omega

theorem byteOf_toNat (x : W32) (i : Nat) : (byteOf x i).toNat = x.toNat / 256 ^ i % 256 := by
  unfold byteOf
  rw [BitVec.extractLsb'_toNat, Nat.shiftRight_eq_div_pow, pow_mul]
  norm_num

theorem byteOf_ofBytes (b0 b1 b2 b3 : BitVec 8) : byteOf (ofBytes b0 b1 b2 b3) 0 = b0 ∧ byteOf (ofBytes b0 b1 b2 b3) 1 = b1 ∧
    byteOf (ofBytes b0 b1 b2 b3) 2 = b2 ∧ byteOf (ofBytes b0 b1 b2 b3) 3 = b3 := by
  have h0 := b0.isLt; have h1 := b1.isLt; have h2 := b2.isLt; have h3 := b3.isLt
  refine ⟨?_, ?_, ?_, ?_⟩ <;> apply BitVec.eq_of_toNat_eq <;> rw [byteOf_toNat, ofBytes_toNat] <;> omega

theorem byteY_ofByteY (f : Nat → BitVec 8) (k : Nat) (hk : k < 32) : byteY (ofByteY f) k = f k := by
  obtain ⟨q, m, hm, rfl⟩ : ∃ q m, m < 4 ∧ k = 4 * q + m := ⟨k / 4, k % 4, by omega, by omega⟩
  unfold byteY ofByteY
  have e1 : (Fin.ofNat 8 ((4 * q + m) / 4)).1 = q := by show (4 * q + m) / 4 % 8 = q; omega
  have e2 : (4 * q + m) % 4 = m := by omega
  rw [e1, e2]
  obtain ⟨c0, c1, c2, c3⟩ := byteOf_ofBytes (f (4 * q)) (f (4 * q + 1)) (f (4 * q + 2)) (f (4 * q + 3))
  match m, hm with
  | 0, _ => exact c0
  | 1, _ => exact c1
  | 2, _ => exact c2
  | 3, _ => exact c3

theorem byteX_ofByteX (f : Nat → BitVec 8) (k : Nat) (hk : k < 16) : byteX (ofByteX f) k = f k := by
  obtain ⟨q, m, hm, rfl⟩ : ∃ q m, m < 4 ∧ k = 4 * q + m := ⟨k / 4, k % 4, by omega, by omega⟩
  unfold byteX ofByteX
  have e1 : (Fin.ofNat 4 ((4 * q + m) / 4)).1 = q := by show (4 * q + m) / 4 % 4 = q; omega
  have e2 : (4 * q + m) % 4 = m := by omega
  rw [e1, e2]
  obtain ⟨c0, c1, c2, c3⟩ := byteOf_ofBytes (f (4 * q)) (f (4 * q + 1)) (f (4 * q + 2)) (f (4 * q + 3))
  match m, hm with
  | 0, _ => exact c0
  | 1, _ => exact c1
  | 2, _ => exact c2
  | 3, _ => exact c3

/-! ## rej_uniform_avx -/

theorem byteY_permute (a : Ymm) (imm k : Nat) (hk : k < 32) : byteY (permute4x64 a imm) k = byteY a (8 * (imm / 4 ^ (k / 8) % 4) + k % 8) := by
  unfold byteY permute4x64
  have e1 : (Fin.ofNat 8 (k / 4)).1 = k / 4 := by show k / 4 % 8 = k / 4; omega
  rw [e1, show k / 4 / 2 = k / 8 by omega]
  generalize imm / 4 ^ (k / 8) % 4 = t
  rw [show (2 * t + k / 4 % 2) = (8 * t + k % 8) / 4 by omega, show (8 * t + k % 8) % 4 = k % 4 by omega]

theorem idx8_spec : ∀ j : Fin 8, ∀ m : Fin 4, (byteY idx8 (4 * j.1 + m.1)).msb = decide (m = 3) ∧
    (m ≠ 3 → 8 * (0x94 / 4 ^ ((16 * ((4 * j.1 + m.1) / 16) + (byteY idx8 (4 * j.1 + m.1)).toNat % 16) / 8) % 4) +
      (16 * ((4 * j.1 + m.1) / 16) + (byteY idx8 (4 * j.1 + m.1)).toNat % 16) % 8 = 3 * j.1 + m.1) := by decide +kernel

/-- Lane `j` of the candidate vector is candidate `j` of the 24 bytes. -/
theorem candV_toNat (buf : Nat → UInt8) (p : Nat) (j : Fin 8) : ((candV buf (3 * p) j).toNat : Int) = cand buf (p + j.1) := by
  have hb : ∀ m : Fin 4, (if (byteY idx8 (4 * j.1 + m.1)).msb then 0 else
      byteY (permute4x64 (loadu (fun k => (buf k).toBitVec) (3 * p)) 0x94) (16 * ((4 * j.1 + m.1) / 16) + (byteY idx8 (4 * j.1 + m.1)).toNat % 16)) =
      if m = 3 then 0 else (buf (3 * p + (3 * j.1 + m.1))).toBitVec := by
    intro m
    obtain ⟨e1, e2⟩ := idx8_spec j m
    rw [e1]
    by_cases h : m = 3
    · rw [if_pos (by simpa using h), if_pos h]
    · rw [if_neg (by simpa using h), if_neg h, byteY_permute _ _ _ (by omega), e2 h]
      unfold loadu
      rw [byteY_ofByteY _ _ (by have := m.2; have : m.1 ≠ 3 := fun e => h (Fin.ext e); omega)]
  have e : candV buf (3 * p) j = ofBytes (buf (3 * p + (3 * j.1 + 0))).toBitVec (buf (3 * p + (3 * j.1 + 1))).toBitVec (buf (3 * p + (3 * j.1 + 2))).toBitVec 0 &&&
      BitVec.ofInt 32 0x7FFFFF := by
    show ofBytes _ _ _ _ &&& _ = _
    have b0 := hb 0; have b1 := hb 1; have b2 := hb 2; have b3 := hb 3
    have b0' := b0.trans (if_neg (by decide)); have b1' := b1.trans (if_neg (by decide)); have b2' := b2.trans (if_neg (by decide))
    have b3' := b3.trans (if_pos rfl)
    have key : ∀ x0 x1 x2 x3 y0 y1 y2 y3 : BitVec 8, x0 = y0 → x1 = y1 → x2 = y2 → x3 = y3 → ofBytes x0 x1 x2 x3 = ofBytes y0 y1 y2 y3 := by
      rintro _ _ _ _ _ _ _ _ rfl rfl rfl rfl; rfl
    exact congrArg (· &&& _) (key _ _ _ _ _ _ _ _ b0' b1' b2' b3')
  rw [e, BitVec.toNat_and, ofBytes_toNat]
  unfold cand
  have c : (BitVec.ofInt 32 0x7FFFFF).toNat = 2 ^ 23 - 1 := by decide
  rw [c, Nat.and_two_pow_sub_one_eq_mod, show 3 * (p + j.1) = 3 * p + (3 * j.1 + 0) by omega]
  rfl

theorem cand_range (s : Nat → UInt8) (k : Nat) : 0 ≤ cand s k ∧ cand s k < 8388608 := by unfold cand; omega

/-- The mask marks the candidates below `q`. -/
theorem good_testBit (buf : Nat → UInt8) (p : Nat) (j : Fin 8) :
    (movemaskPs (subEpi32 (candV buf (3 * p)) (set1 8380417))).testBit j.1 = decide (cand buf (p + j.1) < Q) := by
  rw [movemaskPs_testBit]
  show (candV buf (3 * p) j - BitVec.ofInt 32 8380417).msb = _
  have h := candV_toNat buf p j
  have hr := cand_range buf (p + j.1)
  rw [BitVec.msb_eq_decide, BitVec.toNat_sub]
  have c : (BitVec.ofInt 32 8380417).toNat = 8380417 := by decide
  rw [c]
  simp only [Q]
  generalize (candV buf (3 * p) j).toNat = x at *
  generalize cand buf (p + j.1) = y at *
  rw [decide_eq_decide]
  omega

/-- A list of candidates as stored. -/
def enc (l : List Int) : List W32 := l.map (BitVec.ofInt 32)

theorem range8_filter_map {α : Type} (f : Nat → α) (P : α → Bool) (b : Nat) (hb : ∀ j : Fin 8, b.testBit j.1 = P (f j.1)) :
    (bitsOf b).map f = ((List.range 8).map f).filter P := by
  unfold bitsOf
  rw [List.filter_map]
  congr 1
  apply List.filter_congr
  intro j hj
  rw [List.mem_range] at hj
  exact hb ⟨j, hj⟩

theorem accUniform_eight (s : Nat → UInt8) (p : Nat) : accUniform s p 8 = ((List.range 8).map fun j => cand s (p + j)).filter fun t => decide (t < Q) := by
  unfold accUniform
  rw [List.range'_eq_map_range, List.map_map]
  rfl

/-- The array holds the list, with nothing written from cell 256 on. -/
structure Holds (r0 r : Nat → W32) (ctr : Nat) (L : List Int) : Prop where
  len : L.length = ctr
  get : ∀ k (h : k < (enc L).length), r k = (enc L)[k]
  frame : ∀ n, 256 ≤ n → r n = r0 n

theorem enc_append (l m : List Int) : enc (l ++ m) = enc l ++ enc m := List.map_append
theorem enc_length (l : List Int) : (enc l).length = l.length := List.length_map _

theorem store8_get (r : Nat → W32) (c : Nat) (v : Ymm) (k : Nat) (hk : k < 8) : store8 r c v (c + k) = v ⟨k, hk⟩ := by
  unfold store8
  rw [dif_pos ⟨by omega, by omega⟩]
  congr 1
  apply Fin.ext
  show c + k - c = k
  omega

theorem store8_out (r : Nat → W32) (c : Nat) (v : Ymm) (n : Nat) (h : n < c ∨ c + 8 ≤ n) : store8 r c v n = r n := by
  unfold store8
  rw [dif_neg (by omega)]

theorem uniform_step (buf : Nat → UInt8) (r0 r : Nat → W32) (ctr p : Nat) (L : List Int) (hc : ctr ≤ 248) (H : Holds r0 r ctr L) :
    Holds r0 (store8 r ctr (permutevar (candV buf (3 * p)) (lutV (movemaskPs (subEpi32 (candV buf (3 * p)) (set1 8380417))))))
      (ctr + popcnt (movemaskPs (subEpi32 (candV buf (3 * p)) (set1 8380417)))) (L ++ accUniform buf p 8) := by
  generalize hg : movemaskPs (subEpi32 (candV buf (3 * p)) (set1 8380417)) = good
  have hlt : good < 256 := by rw [← hg]; exact movemaskPs_lt _
  have hbit : ∀ j : Fin 8, good.testBit j.1 = decide (cand buf (p + j.1) < Q) := fun j => by rw [← hg]; exact good_testBit buf p j
  have hacc : (bitsOf good).map (fun j => cand buf (p + j)) = accUniform buf p 8 := by
    rw [accUniform_eight]
    exact range8_filter_map (fun j => cand buf (p + j)) (fun t => decide (t < Q)) good hbit
  have hcell : ∀ k, k < 8 → store8 r ctr (permutevar (candV buf (3 * p)) (lutV good)) (ctr + k) = BitVec.ofInt 32 (cand buf (p + lutAt good k)) := by
    intro k hk
    rw [store8_get _ _ _ _ hk]
    have hl := (lut_spec ⟨good, hlt⟩).2.1 ⟨k, hk⟩
    simp only at hl
    show candV buf (3 * p) ⟨(BitVec.ofNat 32 (lutAt good k)).toNat % 8, _⟩ = _
    have e : (BitVec.ofNat 32 (lutAt good k)).toNat % 8 = lutAt good k := by rw [BitVec.toNat_ofNat]; omega
    rw [← candV_toNat buf p ⟨lutAt good k, hl⟩]
    simp only [e]
    apply BitVec.eq_of_toNat_eq
    rw [BitVec.toNat_ofInt]
    have := (candV buf (3 * p) ⟨lutAt good k, hl⟩).isLt
    omega
  obtain ⟨c1, c2⟩ := compact good hlt (fun j => BitVec.ofInt 32 (cand buf (p + j))) r _ ctr (enc L) (by rw [enc_length]; exact H.len) H.get hcell
    (fun n hn => store8_out _ _ _ _ (Or.inl hn))
  have e : enc L ++ (bitsOf good).map (fun j => BitVec.ofInt 32 (cand buf (p + j))) = enc (L ++ accUniform buf p 8) := by
    rw [enc_append, ← hacc, enc, enc, List.map_map]; rfl
  rw [e] at c1
  refine ⟨by rw [← enc_length]; exact c1, ?_, fun n hn => ?_⟩
  · intro k hk
    have := c2 k (by rw [e]; exact hk)
    rw [this]
    simp only [e]
  · rw [store8_out _ _ _ _ (Or.inr (by omega))]
    exact H.frame n hn

theorem popcnt_le (b : Nat) (hb : b < 256) : popcnt b ≤ 8 := by
  rw [(lut_spec ⟨b, hb⟩).2.2]
  exact bitsOf_length_le b

theorem rejUniformSimd_spec (buf : Nat → UInt8) (r0 : Nat → W32) (d : Nat) : ∀ (r : Nat → W32) (ctr p : Nat), 280 ≤ p + 8 * d → p ≤ 280 → p % 8 = 0 → ctr ≤ 248 →
    Holds r0 r ctr (accUniform buf 0 p) → ∃ p', p' ≤ 280 ∧ (rejUniformSimd buf r ctr (3 * p)).2.2 = 3 * p' ∧
      (rejUniformSimd buf r ctr (3 * p)).2.1 ≤ 256 ∧
      Holds r0 (rejUniformSimd buf r ctr (3 * p)).1 (rejUniformSimd buf r ctr (3 * p)).2.1 (accUniform buf 0 p') := by
  induction d with
  | zero =>
    intro r ctr p h1 h2 h8 hc H
    rw [rejUniformSimd, if_neg (by omega)]
    exact ⟨p, h2, rfl, by show ctr ≤ 256; omega, H⟩
  | succ d ih =>
    intro r ctr p h1 h2 h8 hc H
    rw [rejUniformSimd]
    by_cases h : 3 * p ≤ 840 - 24
    · rw [if_pos h]
      have S := uniform_step buf r0 r ctr p _ hc H
      rw [← accUniform_append] at S
      have hp := popcnt_le _ (movemaskPs_lt (subEpi32 (candV buf (3 * p)) (set1 8380417)))
      dsimp only
      split
      · refine ⟨p + 8, by omega, by show 3 * p + 24 = _; omega, ?_, S⟩
        show ctr + popcnt _ ≤ 256
        omega
      · rename_i hn
        have := ih _ _ (p + 8) (by omega) (by omega) (by omega) (by omega) S
        rw [show 3 * (p + 8) = 3 * p + 24 by omega] at this
        exact this
    · rw [if_neg h]
      exact ⟨p, h2, rfl, by show ctr ≤ 256; omega, H⟩

theorem writeAt_holds (r0 r : Nat → W32) (ctr : Nat) (L l : List Int) (h : ctr + l.length ≤ 256) (H : Holds r0 r ctr L) :
    Holds r0 (writeAt r ctr (l.map (BitVec.ofInt 32))) (ctr + l.length) (L ++ l) := by
  refine ⟨by rw [List.length_append, H.len], fun k hk => ?_, fun n hn => ?_⟩
  · have hk' := hk
    rw [enc_length, List.length_append, H.len] at hk'
    unfold writeAt
    by_cases hc : ctr ≤ k
    · rw [dif_pos ⟨hc, by rw [List.length_map]; omega⟩]
      simp only [enc_append]
      rw [List.getElem_append_right (by rw [enc_length, H.len]; exact hc)]
      simp only [enc, List.length_map, H.len]
    · rw [dif_neg (by omega)]
      simp only [enc_append]
      rw [List.getElem_append_left (by rw [enc_length, H.len]; omega)]
      exact H.get k _
  · unfold writeAt
    rw [dif_neg (by rw [List.length_map]; omega)]
    exact H.frame n hn

theorem take_length_le {α : Type} (l : List α) (n : Nat) : (l.take n).length ≤ n := by rw [List.length_take]; omega

/-- `rej_uniform_avx` leaves in the array the first 256 (or all, if fewer) accepted candidates of the 840 bytes, in order, and returns their
number; it writes no cell from 256 on. -/
theorem rejUniformAvx_spec (buf : Nat → UInt8) (r : Nat → W32) :
    Holds r (rejUniformAvx buf r).1 (rejUniformAvx buf r).2 ((accUniform buf 0 280).take 256) := by
  obtain ⟨p, hp, e, hc, H⟩ := rejUniformSimd_spec buf r 35 r 0 0 (by omega) (by omega) rfl (by omega)
    ⟨rfl, fun k h => absurd h (by simp [enc, accUniform]), fun _ _ => rfl⟩
  unfold rejUniformAvx
  rw [Nat.mul_zero] at *
  generalize rejUniformSimd buf r 0 0 = st at *
  obtain ⟨r', ctr, pos⟩ := st
  simp only at *
  subst e
  rw [show 840 - 3 * p = 3 * (280 - p) by omega, rejUniform_squeeze]
  have e : (accUniform buf 0 280).take 256 = accUniform buf 0 p ++ (accUniform buf p (280 - p)).take (256 - ctr) := by
    have := accUniform_append buf p (280 - p)
    rw [show p + (280 - p) = 280 by omega] at this
    rw [this, List.take_append, H.len, List.take_of_length_le (by rw [H.len]; exact hc)]
  rw [e]
  exact writeAt_holds _ _ _ _ _ (by have := take_length_le (accUniform buf p (280 - p)) (256 - ctr); omega) H

/-! ## rej_eta_avx -/

theorem sumBits (b : Nat → Bool) (n : Nat) : (((List.range n).map fun k => if b k then 2 ^ k else 0).sum < 2 ^ n) ∧
    ∀ k, (((List.range n).map fun k => if b k then 2 ^ k else 0).sum).testBit k = (decide (k < n) && b k) := by
  induction n with
  | zero => exact ⟨by simp, fun k => by simp⟩
  | succ n ih =>
    rw [List.range_succ, List.map_append, List.sum_append, List.map_singleton, List.sum_singleton]
    generalize ((List.range n).map fun k => if b k then 2 ^ k else 0).sum = S at *
    obtain ⟨h1, h2⟩ := ih
    have hp : 2 ^ (n + 1) = 2 ^ n + 2 ^ n := by rw [pow_succ]; omega
    cases hb : b n with
    | false =>
      simp only [Bool.false_eq_true, if_false, Nat.add_zero]
      refine ⟨by omega, fun k => ?_⟩
      rw [h2 k]
      by_cases hk : k = n
      · subst hk; simp [hb]
      · congr 1; rw [decide_eq_decide]; omega
    | true =>
      simp only [if_true]
      refine ⟨by omega, fun k => ?_⟩
      rw [Nat.add_comm]
      rcases Nat.lt_trichotomy k n with hk | hk | hk
      · rw [Nat.testBit_two_pow_add_gt hk, h2 k]
        congr 1; rw [decide_eq_decide]; omega
      · subst hk
        rw [Nat.testBit_two_pow_add_eq, h2 k]
        simp [hb]
      · rw [Nat.testBit_lt_two_pow (lt_of_lt_of_le (show 2 ^ n + S < 2 ^ (n + 1) by omega) (Nat.pow_le_pow_right (by omega) hk))]
        rw [decide_eq_false (by omega)]; rfl

theorem movemaskEpi8_testBit (v : Ymm) (k : Nat) (hk : k < 32) : (movemaskEpi8 v).testBit k = (byteY v k).msb := by
  unfold movemaskEpi8
  rw [(sumBits (fun k => (byteY v k).msb) 32).2 k, decide_eq_true hk, Bool.true_and]

theorem movemaskEpi8_lt (v : Ymm) : movemaskEpi8 v < 2 ^ 32 := (sumBits (fun k => (byteY v k).msb) 32).1

theorem and255_testBit (x j : Nat) (hj : j < 8) : (x &&& 0xFF).testBit j = x.testBit j := by
  rw [show 0xFF = 2 ^ 8 - 1 by rfl, Nat.and_two_pow_sub_one_eq_mod, Nat.testBit_mod_two_pow, decide_eq_true hj, Bool.true_and]

theorem and255_lt (x : Nat) : x &&& 0xFF < 256 := by
  rw [show 0xFF = 2 ^ 8 - 1 by rfl, Nat.and_two_pow_sub_one_eq_mod]; omega

theorem byteOf_onBytes (f : BitVec 8 → BitVec 8 → BitVec 8) (x y : Ymm) (k : Nat) (hk : k < 32) : byteY (onBytes f x y) k = f (byteY x k) (byteY y k) := by
  have hm : k % 4 < 4 := by omega
  unfold byteY onBytes
  generalize Fin.ofNat 8 (k / 4) = q
  obtain ⟨c0, c1, c2, c3⟩ := byteOf_ofBytes (f (byteOf (x q) 0) (byteOf (y q) 0)) (f (byteOf (x q) 1) (byteOf (y q) 1))
    (f (byteOf (x q) 2) (byteOf (y q) 2)) (f (byteOf (x q) 3) (byteOf (y q) 3))
  match k % 4, hm with
  | 0, _ => exact c0
  | 1, _ => exact c1
  | 2, _ => exact c2
  | 3, _ => exact c3

theorem byteY_set1b (x k : Nat) : byteY (set1b x) k = BitVec.ofNat 8 x := by
  have hm : k % 4 < 4 := by omega
  unfold byteY set1b
  obtain ⟨c0, c1, c2, c3⟩ := byteOf_ofBytes (BitVec.ofNat 8 x) (BitVec.ofNat 8 x) (BitVec.ofNat 8 x) (BitVec.ofNat 8 x)
  match k % 4, hm with
  | 0, _ => exact c0
  | 1, _ => exact c1
  | 2, _ => exact c2
  | 3, _ => exact c3

theorem byteOf_and (x y : W32) (i : Nat) : byteOf (x &&& y) i = byteOf x i &&& byteOf y i := by
  unfold byteOf; rw [BitVec.extractLsb'_and]
theorem byteOf_or (x y : W32) (i : Nat) : byteOf (x ||| y) i = byteOf x i ||| byteOf y i := by
  unfold byteOf; rw [BitVec.extractLsb'_or]

theorem byteOf_ofWords (a b : BitVec 16) : byteOf (ofWords a b) 0 = a.extractLsb' 0 8 ∧ byteOf (ofWords a b) 1 = a.extractLsb' 8 8 ∧
    byteOf (ofWords a b) 2 = b.extractLsb' 0 8 ∧ byteOf (ofWords a b) 3 = b.extractLsb' 8 8 := by
  have ha := a.isLt; have hb := b.isLt
  refine ⟨?_, ?_, ?_, ?_⟩ <;> apply BitVec.eq_of_toNat_eq <;> rw [byteOf_toNat, ofWords_toNat, BitVec.extractLsb'_toNat, Nat.shiftRight_eq_div_pow] <;> omega

theorem wordOf_ofWords (a b : BitVec 16) : wordOf (ofWords a b) 0 = a ∧ wordOf (ofWords a b) 1 = b := by
  have ha := a.isLt; have hb := b.isLt
  unfold wordOf
  refine ⟨?_, ?_⟩ <;> apply BitVec.eq_of_toNat_eq <;> rw [BitVec.extractLsb'_toNat, Nat.shiftRight_eq_div_pow, ofWords_toNat] <;> omega

theorem nib_table : ∀ b : Fin 256, let x := (BitVec.ofNat 8 b.1).setWidth 16
    ((x.extractLsb' 0 8 ||| (x <<< 4).extractLsb' 0 8) &&& 15#8 : BitVec 8) = BitVec.ofNat 8 (b.1 % 16) ∧
    ((x.extractLsb' 8 8 ||| (x <<< 4).extractLsb' 8 8) &&& 15#8 : BitVec 8) = BitVec.ofNat 8 (b.1 / 16) := by decide +kernel

/-- Byte `k` of the nibble vector is nibble `k`. -/
theorem nibV_byte (buf : Nat → UInt8) (p k : Nat) (hk : k < 32) : byteY (nibV buf p) k = BitVec.ofNat 8 (nib buf (2 * p + k)) := by
  obtain ⟨q, m, hm, rfl⟩ : ∃ q m, m < 4 ∧ k = 4 * q + m := ⟨k / 4, k % 4, by omega, by omega⟩
  unfold byteY
  have e1 : (Fin.ofNat 8 ((4 * q + m) / 4)).1 = q := by show (4 * q + m) / 4 % 8 = q; omega
  have e2 : (4 * q + m) % 4 = m := by omega
  generalize Fin.ofNat 8 ((4 * q + m) / 4) = j at *
  subst e1
  rw [e2]
  have hv : nibV buf p j = (ofWords ((buf (p + 2 * j.1)).toBitVec.setWidth 16) ((buf (p + (2 * j.1 + 1))).toBitVec.setWidth 16) |||
      ofWords ((buf (p + 2 * j.1)).toBitVec.setWidth 16 <<< 4) ((buf (p + (2 * j.1 + 1))).toBitVec.setWidth 16 <<< 4)) &&& set1b 15 j := by
    have w := wordOf_ofWords ((buf (p + 2 * j.1)).toBitVec.setWidth 16) ((buf (p + (2 * j.1 + 1))).toBitVec.setWidth 16)
    show (ofWords _ _ ||| ofWords (wordOf (ofWords _ _) 0 <<< 4) (wordOf (ofWords _ _) 1 <<< 4)) &&& _ = _
    rw [w.1, w.2]
  rw [hv, byteOf_and, byteOf_or]
  have cm : byteOf (set1b 15 j) m = 15#8 := by
    obtain ⟨c0, c1, c2, c3⟩ := byteOf_ofBytes (BitVec.ofNat 8 15) (BitVec.ofNat 8 15) (BitVec.ofNat 8 15) (BitVec.ofNat 8 15)
    match m, hm with
    | 0, _ => exact c0
    | 1, _ => exact c1
    | 2, _ => exact c2
    | 3, _ => exact c3
  rw [cm]
  have t0 := nib_table ⟨(buf (p + 2 * j.1)).toNat, (buf (p + 2 * j.1)).toNat_lt⟩
  have t1 := nib_table ⟨(buf (p + (2 * j.1 + 1))).toNat, (buf (p + (2 * j.1 + 1))).toNat_lt⟩
  have eb : ∀ x : UInt8, BitVec.ofNat 8 x.toNat = x.toBitVec := fun x => BitVec.eq_of_toNat_eq (by
    rw [BitVec.toNat_ofNat]; exact Nat.mod_eq_of_lt x.toNat_lt)
  simp only [eb] at t0 t1
  obtain ⟨o0, o1, o2, o3⟩ := byteOf_ofWords ((buf (p + 2 * j.1)).toBitVec.setWidth 16) ((buf (p + (2 * j.1 + 1))).toBitVec.setWidth 16)
  obtain ⟨s0, s1, s2, s3⟩ := byteOf_ofWords ((buf (p + 2 * j.1)).toBitVec.setWidth 16 <<< 4) ((buf (p + (2 * j.1 + 1))).toBitVec.setWidth 16 <<< 4)
  unfold nib
  match m, hm with
  | 0, _ =>
    rw [o0, s0, t0.1, if_pos (by omega), show (2 * p + (4 * j.1 + 0)) / 2 = p + 2 * j.1 by omega]
  | 1, _ =>
    rw [o1, s1, t0.2, if_neg (by omega), show (2 * p + (4 * j.1 + 1)) / 2 = p + 2 * j.1 by omega]
  | 2, _ =>
    rw [o2, s2, t1.1, if_pos (by omega), show (2 * p + (4 * j.1 + 2)) / 2 = p + (2 * j.1 + 1) by omega]
  | 3, _ =>
    rw [o3, s3, t1.2, if_neg (by omega), show (2 * p + (4 * j.1 + 3)) / 2 = p + (2 * j.1 + 1) by omega]

theorem nib_lt (s : Nat → UInt8) (k : Nat) : nib s k < 16 := by
  have := (s (k / 2)).toNat_lt
  unfold nib; split <;> omega

/-- One dword of `etaPart` from the byte `2 - nibble`. -/
def etaLane (x : BitVec 8) : W32 :=
  let f1 : W32 := x.signExtend 32
  let v : W32 := BitVec.ofInt 32 (-6560)
  let m : W32 := ofWords (BitVec.ofInt 16 (((wordOf f1 0).toInt * (wordOf v 0).toInt / 16384 + 1) / 2)) (BitVec.ofInt 16 (((wordOf f1 1).toInt * (wordOf v 1).toInt / 16384 + 1) / 2))
  let f : W32 := BitVec.ofInt 32 5
  f1 + ofWords (wordOf m 0 * wordOf f 0) (wordOf m 1 * wordOf f 1)

theorem eta_table : ∀ t : Fin 16, (((BitVec.ofNat 8 t.1 - 15#8).msb = decide (t.1 < 15)) ∧
    (t.1 < 15 → etaLane (2#8 - BitVec.ofNat 8 t.1) = BitVec.ofInt 32 (2 - ((t.1 % 5 : Nat) : Int)))) := by decide +kernel

theorem accEta_eight (s : Nat → UInt8) (p : Nat) : accEta s p 8 = (((List.range 8).map fun j => nib s (p + j)).filter fun t => decide (t < 15)).map
    fun t => 2 - ((t % 5 : Nat) : Int) := by
  unfold accEta
  rw [List.range'_eq_map_range, List.map_map]
  rfl

/-- One part: eight nibbles, in the low half of `g0`. -/
theorem eta_part (buf : Nat → UInt8) (r0 : Nat → W32) (st : (Nat → W32) × Nat) (p : Nat) (L : List Int) (g0 : Xmm) (good : Nat) (hc : st.2 ≤ 248)
    (hg : good < 256) (hb : ∀ j : Fin 8, good.testBit j.1 = decide (nib buf (p + j.1) < 15))
    (h0 : ∀ j, j < 8 → byteX g0 j = 2#8 - BitVec.ofNat 8 (nib buf (p + j))) (H : Holds r0 st.1 st.2 L) :
    Holds r0 (etaPart g0 good st).1 (etaPart g0 good st).2 (L ++ accEta buf p 8) ∧ (etaPart g0 good st).2 ≤ 256 := by
  obtain ⟨r, ctr⟩ := st
  simp only at hc H
  have hacc : (bitsOf good).map (fun j => 2 - ((nib buf (p + j) % 5 : Nat) : Int)) = accEta buf p 8 := by
    rw [accEta_eight, ← range8_filter_map (fun j => nib buf (p + j)) (fun t => decide (t < 15)) good hb, List.map_map]
    rfl
  refine ⟨?_, by have := popcnt_le good hg; show ctr + popcnt good ≤ 256; omega⟩
  show Holds r0 (store8 r ctr _) (ctr + popcnt good) _
  have hfull : ∀ k (hk : k < 8), addEpi32 (cvtepi8Epi32 (shuffleX g0 (lutX good))) (mulloEpi16 (mulhrsEpi16 (cvtepi8Epi32 (shuffleX g0 (lutX good))) (set1 (-6560))) (set1 5)) ⟨k, hk⟩
      = etaLane (2#8 - BitVec.ofNat 8 (nib buf (p + lutAt good k))) := by
    intro k hk
    have hl := (lut_spec ⟨good, hg⟩).2.1 ⟨k, hk⟩
    simp only at hl
    have e : byteX (shuffleX g0 (lutX good)) k = 2#8 - BitVec.ofNat 8 (nib buf (p + lutAt good k)) := by
      unfold shuffleX
      rw [byteX_ofByteX _ _ (by omega)]
      have el : byteX (lutX good) k = BitVec.ofNat 8 (lutAt good k) := by
        unfold lutX
        rw [byteX_ofByteX _ _ (by omega), if_pos hk]
      rw [el, BitVec.toNat_ofNat, show lutAt good k % 2 ^ 8 % 16 = lutAt good k by omega, h0 _ hl, if_neg]
      rw [BitVec.msb_eq_decide, BitVec.toNat_ofNat]
      simp only [decide_eq_true_eq]
      omega
    rw [← e]
    rfl
  have hcell : ∀ k, k < 8 → store8 r ctr (addEpi32 (cvtepi8Epi32 (shuffleX g0 (lutX good))) (mulloEpi16 (mulhrsEpi16 (cvtepi8Epi32 (shuffleX g0 (lutX good))) (set1 (-6560))) (set1 5)))
      (ctr + k) = (fun j => etaLane (2#8 - BitVec.ofNat 8 (nib buf (p + j)))) (lutAt good k) := by
    intro k hk
    rw [store8_get _ _ _ _ hk]
    exact hfull k hk
  obtain ⟨c1, c2⟩ := compact good hg (fun j => etaLane (2#8 - BitVec.ofNat 8 (nib buf (p + j)))) r _ ctr (enc L) (by rw [enc_length]; exact H.len) H.get hcell
    (fun n hn => store8_out _ _ _ _ (Or.inl hn))
  have e : enc L ++ (bitsOf good).map (fun j => etaLane (2#8 - BitVec.ofNat 8 (nib buf (p + j)))) = enc (L ++ accEta buf p 8) := by
    rw [enc_append, ← hacc]
    congr 1
    rw [enc, List.map_map]
    apply List.map_congr_left
    intro j hj
    rw [bitsOf, List.mem_filter, List.mem_range] at hj
    have hj2 : nib buf (p + j) < 15 := by
      obtain ⟨hj1, hj2⟩ := hj
      have := (hb ⟨j, hj1⟩).symm.trans hj2
      simpa using this
    exact (eta_table ⟨nib buf (p + j), nib_lt _ _⟩).2 hj2
  rw [e] at c1
  refine ⟨by rw [← enc_length]; exact c1, ?_, fun n hn => ?_⟩
  · intro k hk
    have := c2 k (by rw [e]; exact hk)
    rw [this]
    simp only [e]
  · rw [store8_out _ _ _ _ (Or.inr (by omega))]
    exact H.frame n hn

theorem byteX_cast (v : Ymm) (k : Nat) (hk : k < 16) : byteX (castSi128 v) k = byteY v k := by
  unfold byteX byteY castSi128
  congr 2
  apply Fin.ext
  show k / 4 % 4 = k / 4 % 8
  omega

theorem byteX_hi (v : Ymm) (k : Nat) (hk : k < 16) : byteX (extractHi v) k = byteY v (16 + k) := by
  unfold byteX byteY extractHi
  rw [show (16 + k) % 4 = k % 4 by omega]
  congr 2
  apply Fin.ext
  show 4 + k / 4 % 4 = (16 + k) / 4 % 8
  omega

theorem byteX_bsrli (v : Xmm) (k : Nat) (hk : k < 8) : byteX (bsrli8 v) k = byteX v (8 + k) := by
  unfold byteX bsrli8
  rw [dif_pos (show (Fin.ofNat 4 (k / 4)).1 < 2 by show k / 4 % 4 < 2; omega), show (8 + k) % 4 = k % 4 by omega]
  congr 2
  apply Fin.ext
  show k / 4 % 4 + 2 = (8 + k) / 4 % 4
  omega

theorem accEta_append' (s : Nat → UInt8) (p n m : Nat) (h : p = n) : accEta s 0 n ++ accEta s p m = accEta s 0 (n + m) := by
  rw [h, accEta_append]

theorem rejEtaSimd_spec (buf : Nat → UInt8) (r0 : Nat → W32) (d : Nat) : ∀ (r : Nat → W32) (ctr pos : Nat), 136 ≤ pos + 16 * d → pos ≤ 136 → ctr ≤ 256 →
    Holds r0 r ctr (accEta buf 0 (2 * pos)) → (rejEtaSimd buf r ctr pos).2.2 ≤ 136 ∧ (rejEtaSimd buf r ctr pos).2.1 ≤ 256 ∧
      Holds r0 (rejEtaSimd buf r ctr pos).1 (rejEtaSimd buf r ctr pos).2.1 (accEta buf 0 (2 * (rejEtaSimd buf r ctr pos).2.2)) := by
  induction d with
  | zero =>
    intro r ctr pos h1 h2 hc H
    rw [rejEtaSimd, if_neg (by omega)]
    exact ⟨h2, hc, H⟩
  | succ d ih =>
    intro r ctr pos h1 h2 hc H
    rw [rejEtaSimd]
    by_cases h : ctr ≤ 256 - 8 ∧ pos ≤ 136 - 16
    · rw [if_pos h]
      dsimp only
      generalize hm : movemaskEpi8 (subEpi8 (nibV buf pos) (set1b 15)) = good
      have hbit : ∀ k, k < 32 → good.testBit k = decide (nib buf (2 * pos + k) < 15) := by
        intro k hk
        rw [← hm, movemaskEpi8_testBit _ _ hk]
        unfold subEpi8
        rw [byteOf_onBytes _ _ _ _ hk, nibV_byte _ _ _ hk, byteY_set1b]
        exact (eta_table ⟨nib buf (2 * pos + k), nib_lt _ _⟩).1
      have hval : ∀ k, k < 32 → byteY (subEpi8 (set1b 2) (nibV buf pos)) k = 2#8 - BitVec.ofNat 8 (nib buf (2 * pos + k)) := by
        intro k hk
        unfold subEpi8
        rw [byteOf_onBytes _ _ _ _ hk, nibV_byte _ _ _ hk, byteY_set1b]
      have hlt : good < 2 ^ 32 := by rw [← hm]; exact movemaskEpi8_lt _
      generalize subEpi8 (set1b 2) (nibV buf pos) = f0 at *
      obtain ⟨A1, A2⟩ := eta_part buf r0 (r, ctr) (2 * pos) _ (castSi128 f0) (good &&& 0xFF) (by show ctr ≤ 248; omega) (and255_lt _)
        (fun j => by rw [and255_testBit _ _ j.2, hbit _ (by omega)]) (fun j hj => by rw [byteX_cast _ _ (by omega), hval _ (by omega)]) H
      rw [accEta_append' _ _ _ _ rfl] at A1
      generalize etaPart (castSi128 f0) (good &&& 0xFF) (r, ctr) = s1 at *
      split
      · refine ⟨by show pos + 4 ≤ 136; omega, A2, ?_⟩
        show Holds r0 s1.1 s1.2 (accEta buf 0 (2 * (pos + 4)))
        rw [show 2 * (pos + 4) = 2 * pos + 8 by omega]
        exact A1
      obtain ⟨B1, B2⟩ := eta_part buf r0 s1 (2 * pos + 8) _ (bsrli8 (castSi128 f0)) (good >>> 8 &&& 0xFF) (by omega) (and255_lt _)
        (fun j => by rw [and255_testBit _ _ j.2, Nat.testBit_shiftRight, hbit _ (by omega), show 2 * pos + (8 + j.1) = 2 * pos + 8 + j.1 by omega])
        (fun j hj => by rw [byteX_bsrli _ _ hj, byteX_cast _ _ (by omega), hval _ (by omega), show 2 * pos + (8 + j) = 2 * pos + 8 + j by omega]) A1
      rw [accEta_append' _ _ _ _ rfl] at B1
      generalize etaPart (bsrli8 (castSi128 f0)) (good >>> 8 &&& 0xFF) s1 = s2 at *
      split
      · refine ⟨by show pos + 8 ≤ 136; omega, B2, ?_⟩
        show Holds r0 s2.1 s2.2 (accEta buf 0 (2 * (pos + 8)))
        rw [show 2 * (pos + 8) = 2 * pos + 8 + 8 by omega]
        exact B1
      obtain ⟨C1, C2⟩ := eta_part buf r0 s2 (2 * pos + 8 + 8) _ (extractHi f0) (good >>> 8 >>> 8 &&& 0xFF) (by omega) (and255_lt _)
        (fun j => by rw [and255_testBit _ _ j.2, Nat.testBit_shiftRight, Nat.testBit_shiftRight, hbit _ (by omega), show 2 * pos + (8 + (8 + j.1)) = 2 * pos + 8 + 8 + j.1 by omega])
        (fun j hj => by rw [byteX_hi _ _ (by omega), hval _ (by omega), show 2 * pos + (16 + j) = 2 * pos + 8 + 8 + j by omega]) B1
      rw [accEta_append' _ _ _ _ rfl] at C1
      generalize etaPart (extractHi f0) (good >>> 8 >>> 8 &&& 0xFF) s2 = s3 at *
      split
      · refine ⟨by show pos + 12 ≤ 136; omega, C2, ?_⟩
        show Holds r0 s3.1 s3.2 (accEta buf 0 (2 * (pos + 12)))
        rw [show 2 * (pos + 12) = 2 * pos + 8 + 8 + 8 by omega]
        exact C1
      obtain ⟨D1, D2⟩ := eta_part buf r0 s3 (2 * pos + 8 + 8 + 8) _ (bsrli8 (extractHi f0)) (good >>> 8 >>> 8 >>> 8) (by omega)
        (by simp only [Nat.shiftRight_eq_div_pow]; omega)
        (fun j => by rw [Nat.testBit_shiftRight, Nat.testBit_shiftRight, Nat.testBit_shiftRight, hbit _ (by omega), show 2 * pos + (8 + (8 + (8 + j.1))) = 2 * pos + 8 + 8 + 8 + j.1 by omega])
        (fun j hj => by rw [byteX_bsrli _ _ hj, byteX_hi _ _ (by omega), hval _ (by omega), show 2 * pos + (16 + (8 + j)) = 2 * pos + 8 + 8 + 8 + j by omega]) C1
      rw [accEta_append' _ _ _ _ rfl] at D1
      exact ih _ _ (pos + 16) (by omega) (by omega) D2 (by rw [show 2 * (pos + 16) = 2 * pos + 8 + 8 + 8 + 8 by omega]; exact D1)
    · rw [if_neg h]
      exact ⟨h2, hc, H⟩

/-- `rej_eta_avx` leaves in the array the values of the first 256 (or all, if fewer) accepted nibbles of the 136 bytes, in order, and returns
their number; it writes no cell from 256 on. -/
theorem rejEtaAvx_spec (buf : Nat → UInt8) (r : Nat → W32) :
    Holds r (rejEtaAvx buf r).1 (rejEtaAvx buf r).2 ((accEta buf 0 272).take 256) := by
  obtain ⟨hp, hc, H⟩ := rejEtaSimd_spec buf r 9 r 0 0 (by omega) (by omega) (by omega)
    ⟨rfl, fun k h => absurd h (by simp [enc, accEta]), fun _ _ => rfl⟩
  unfold rejEtaAvx
  generalize rejEtaSimd buf r 0 0 = st at *
  obtain ⟨r', ctr, pos⟩ := st
  simp only at *
  rw [rejEta_squeeze]
  have e : (accEta buf 0 272).take 256 = accEta buf 0 (2 * pos) ++ (accEta buf (2 * pos) (2 * (136 - pos))).take (256 - ctr) := by
    have := accEta_append buf (2 * pos) (2 * (136 - pos))
    rw [show 2 * pos + 2 * (136 - pos) = 272 by omega] at this
    rw [this, List.take_append, H.len, List.take_of_length_le (by rw [H.len]; exact hc)]
  rw [e]
  exact writeAt_holds _ _ _ _ _ (by have := take_length_le (accEta buf (2 * pos) (2 * (136 - pos))) (256 - ctr); omega) H

end Verif.Avx2
