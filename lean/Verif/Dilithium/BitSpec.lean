import Verif.Dilithium.PackPoly

/-!
# The packings are little-endian bit fields

Coefficient `n` of a format with `w` bits per coefficient occupies bits `w·n … w·n + w - 1` of the byte string, where bit `m` of a byte string
is bit `m mod 8` of byte `m / 8`.
-/

namespace Verif.Dilithium

namespace Spec

/-- Bit `m` of a byte string. -/
def bitAt (b : Bytes) (m : Nat) : Bool := b[m / 8]!.toNat.testBit (m % 8)

/-- `v` is the `n`-th `w`-bit little-endian field of `b`. -/
def IsField (w : Nat) (b : Bytes) (n : Nat) (v : Int) : Prop :=
  0 ≤ v ∧ v < 2 ^ w ∧ ∀ t < w, v.toNat.testBit t = bitAt b (w * n + t)

end Spec

variable {C : CSem}

set_option maxHeartbeats 4000000 in
theorem z_bits (a : Fin 9 → U8) (k : Fin 4) (t : Nat) (ht : t < 32) :
    (zUnpackChunk a k).getLsbD t = (decide (t < 18) && if h : (18 * k.1 + t) / 8 < 9 then (a ⟨(18 * k.1 + t) / 8, h⟩).getLsbD ((18 * k.1 + t) % 8) else false) := by
  unfold zUnpackChunk
  match k with
  | 0 | 1 | 2 | 3 => dsimp only [Matrix.cons_val]; interval_cases t <;> simp

set_option maxHeartbeats 4000000 in
theorem t0_bits (a : Fin 13 → U8) (k : Fin 8) (t : Nat) (ht : t < 32) :
    (t0UnpackChunk a k).getLsbD t = (decide (t < 13) && if h : (13 * k.1 + t) / 8 < 13 then (a ⟨(13 * k.1 + t) / 8, h⟩).getLsbD ((13 * k.1 + t) % 8) else false) := by
  unfold t0UnpackChunk
  match k with
  | 0 | 1 | 2 | 3 | 4 | 5 | 6 | 7 => dsimp only [Matrix.cons_val]; interval_cases t <;> simp

set_option maxHeartbeats 4000000 in
theorem t1_bits (a : Fin 5 → U8) (k : Fin 4) (t : Nat) (ht : t < 32) :
    (t1UnpackChunk a k).getLsbD t = (decide (t < 10) && if h : (10 * k.1 + t) / 8 < 5 then (a ⟨(10 * k.1 + t) / 8, h⟩).getLsbD ((10 * k.1 + t) % 8) else false) := by
  unfold t1UnpackChunk
  match k with
  | 0 | 1 | 2 | 3 => dsimp only [Matrix.cons_val]; interval_cases t <;> simp

set_option maxHeartbeats 4000000 in
theorem eta_bits (a : Fin 3 → U8) (k : Fin 8) (t : Nat) (ht : t < 32) :
    (etaUnpackChunk a k).getLsbD t = (decide (t < 3) && if h : (3 * k.1 + t) / 8 < 3 then (a ⟨(3 * k.1 + t) / 8, h⟩).getLsbD ((3 * k.1 + t) % 8) else false) := by
  unfold etaUnpackChunk
  match k with
  | 0 | 1 | 2 | 3 | 4 | 5 | 6 | 7 => dsimp only [Matrix.cons_val]; interval_cases t <;> simp

set_option maxHeartbeats 4000000 in
theorem w1_bits (a : Fin 3 → U8) (k : Fin 4) (t : Nat) (ht : t < 32) :
    (w1UnpackChunk a k).getLsbD t = (decide (t < 6) && if h : (6 * k.1 + t) / 8 < 3 then (a ⟨(6 * k.1 + t) / 8, h⟩).getLsbD ((6 * k.1 + t) % 8) else false) := by
  unfold w1UnpackChunk
  match k with
  | 0 | 1 | 2 | 3 => dsimp only [Matrix.cons_val]; interval_cases t <;> simp

theorem field_of_bits (w : Nat) (hw : w < 31) (b : Bytes) (n : Nat) (x : W32) (hx : ∀ t < 32, x.getLsbD t = (decide (t < w) && Spec.bitAt b (w * n + t))) :
    Spec.IsField w b n x.toInt := by
  have hlt : x.toNat < 2 ^ w := by
    apply Nat.lt_pow_two_of_testBit
    intro i hi
    by_cases h : i < 32
    · have := hx i h
      rw [BitVec.getLsbD] at this
      rw [this]
      simp [Nat.not_lt.2 hi]
    · exact Nat.testBit_lt_two_pow (lt_of_lt_of_le x.isLt (Nat.pow_le_pow_right (by omega) (by omega)))
  have h31 : 2 ^ w < 2 ^ 31 := Nat.pow_lt_pow_right (by omega) hw
  have e : x.toInt = (x.toNat : Int) := by
    rw [BitVec.toInt_eq_toNat_cond, if_pos (by omega)]
  refine ⟨by rw [e]; omega, by rw [e]; exact_mod_cast hlt, ?_⟩
  intro t ht
  have := hx t (by omega)
  rw [BitVec.getLsbD] at this
  rw [e, Int.toNat_natCast, this]
  simp [ht]

/-- Reading chunk bytes as stream bits. -/
theorem chunk_bit (b : Bytes) (base : Nat) (N m : Nat) (hb : base + N ≤ b.length) (h : m / 8 < N) :
    (at8 C b (base + m / 8)).getLsbD (m % 8) = Spec.bitAt b (8 * base + m) := by
  unfold Spec.bitAt at8
  have e1 : (8 * base + m) / 8 = base + m / 8 := by omega
  have e2 : (8 * base + m) % 8 = m % 8 := by omega
  rw [e1, e2, List.getD_eq_getElem _ _ (by omega), getElem!_pos b _ (by omega)]
  rfl

theorem polyz_field (b : Bytes) (hb : 576 ≤ b.length) (i : Fin 256) : Spec.IsField 18 b i.1 (GAMMA1 - polyzUnpack C b i) := by
  have hi := i.2
  have hr := z_un_range (fun j => at8 C b (9 * (i.1 / 4) + j.1)) ⟨i.1 % 4, by omega⟩
  unfold polyzUnpack
  rw [C.i32_id _ (by simp only [GAMMA1]; omega) (by simp only [GAMMA1]; omega), Int.sub_sub_self]
  refine field_of_bits 18 (by omega) b i.1 _ fun t ht => ?_
  rw [z_bits _ _ t ht]
  by_cases h : t < 18
  · have hlt : (18 * (i.1 % 4) + t) / 8 < 9 := by omega
    rw [dif_pos hlt, chunk_bit b (9 * (i.1 / 4)) 9 _ (by omega) hlt, show 8 * (9 * (i.1 / 4)) + (18 * (i.1 % 4) + t) = 18 * i.1 + t by omega]
  · simp [h]

theorem polyt0_field (b : Bytes) (hb : 416 ≤ b.length) (i : Fin 256) : Spec.IsField 13 b i.1 (4096 - polyt0Unpack C b i) := by
  have hi := i.2
  have hr := t0_un_range (fun j => at8 C b (13 * (i.1 / 8) + j.1)) ⟨i.1 % 8, by omega⟩
  unfold polyt0Unpack
  rw [C.i32_id _ (by omega) (by omega), Int.sub_sub_self]
  refine field_of_bits 13 (by omega) b i.1 _ fun t ht => ?_
  rw [t0_bits _ _ t ht]
  by_cases h : t < 13
  · have hlt : (13 * (i.1 % 8) + t) / 8 < 13 := by omega
    rw [dif_pos hlt, chunk_bit b (13 * (i.1 / 8)) 13 _ (by omega) hlt, show 8 * (13 * (i.1 / 8)) + (13 * (i.1 % 8) + t) = 13 * i.1 + t by omega]
  · simp [h]

theorem polyt1_field (b : Bytes) (hb : 320 ≤ b.length) (i : Fin 256) : Spec.IsField 10 b i.1 (polyt1Unpack C b i) := by
  have hi := i.2
  unfold polyt1Unpack
  refine field_of_bits 10 (by omega) b i.1 _ fun t ht => ?_
  rw [t1_bits _ _ t ht]
  by_cases h : t < 10
  · have hlt : (10 * (i.1 % 4) + t) / 8 < 5 := by omega
    rw [dif_pos hlt, chunk_bit b (5 * (i.1 / 4)) 5 _ (by omega) hlt, show 8 * (5 * (i.1 / 4)) + (10 * (i.1 % 4) + t) = 10 * i.1 + t by omega]
  · simp [h]

theorem polyeta_field (b : Bytes) (hb : 96 ≤ b.length) (i : Fin 256) : Spec.IsField 3 b i.1 (ETA - polyetaUnpack C b i) := by
  have hi := i.2
  have hr := eta_un_range (fun j => at8 C b (3 * (i.1 / 8) + j.1)) ⟨i.1 % 8, by omega⟩
  unfold polyetaUnpack
  rw [C.i32_id _ (by simp only [ETA]; omega) (by simp only [ETA]; omega), Int.sub_sub_self]
  refine field_of_bits 3 (by omega) b i.1 _ fun t ht => ?_
  rw [eta_bits _ _ t ht]
  by_cases h : t < 3
  · have hlt : (3 * (i.1 % 8) + t) / 8 < 3 := by omega
    rw [dif_pos hlt, chunk_bit b (3 * (i.1 / 8)) 3 _ (by omega) hlt, show 8 * (3 * (i.1 / 8)) + (3 * (i.1 % 8) + t) = 3 * i.1 + t by omega]
  · simp [h]

theorem polyw1_field (a : Poly) (ha : ∀ i, 0 ≤ a i ∧ a i < 64) (i : Fin 256) : Spec.IsField 6 (polyw1Pack a) i.1 (a i) := by
  have hi := i.2
  have e := polyw1_un_pk (C := wrapSem) a [] ha
  rw [List.append_nil] at e
  conv => arg 4; rw [← e]
  have hb : (polyw1Pack a).length = 192 := polyw1Pack_len a
  unfold polyw1Unpack
  refine field_of_bits 6 (by omega) (polyw1Pack a) i.1 _ fun t ht => ?_
  rw [w1_bits _ _ t ht]
  by_cases h : t < 6
  · have hlt : (6 * (i.1 % 4) + t) / 8 < 3 := by omega
    rw [dif_pos hlt, chunk_bit (polyw1Pack a) (3 * (i.1 / 4)) 3 _ (by omega) hlt, show 8 * (3 * (i.1 / 4)) + (6 * (i.1 % 4) + t) = 6 * i.1 + t by omega]
  · simp [h]

end Verif.Dilithium
