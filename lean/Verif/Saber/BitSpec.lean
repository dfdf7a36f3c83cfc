import Verif.Saber.PolyLemmas
import Mathlib.Algebra.BigOperators.Group.Finset.Basic
import Mathlib.Algebra.BigOperators.Fin

/-!
# The Saber packings are little-endian bit fields

Coefficient `i` of a format with `w` bits per coefficient occupies bits `w·i … w·i + w - 1` of the byte string, where bit `m` of a byte string is bit
`m mod 8` of byte `m / 8` (the packing of the Saber specification).
-/

namespace Verif.Saber

namespace Spec

/-- Bit `m` of a byte string: bit `m mod 8` of byte `m / 8`. -/
def bitOf (b : Bytes) (m : Nat) : Bool := b[m / 8]!.toNat.testBit (m % 8)

/-- The number whose binary digits, least significant first, are the `w` bits of the stream `bit` from position `w·i` on. -/
def field (w : Nat) (bit : Nat → Bool) (i : Nat) : Nat := ∑ t ∈ Finset.range w, (bit (w * i + t)).toNat * 2 ^ t

end Spec

open Poly

set_option maxHeartbeats 4000000 in
theorem from13_bits (a : Fin 13 → U8) (k : Fin 8) (t : Nat) (ht : t < 13) :
    (from13Chunk a k).getLsbD t = (a ⟨(13 * k.1 + t) / 8, by omega⟩).getLsbD ((13 * k.1 + t) % 8) := by
  unfold from13Chunk
  match k with
  | 0 | 1 | 2 | 3 | 4 | 5 | 6 | 7 => dsimp only [Matrix.cons_val]; interval_cases t <;> simp

set_option maxHeartbeats 4000000 in
theorem from10_bits (a : Fin 5 → U8) (k : Fin 4) (t : Nat) (ht : t < 16) :
    (from10Chunk a k).getLsbD t = (decide (t < 10) && if h : (10 * k.1 + t) / 8 < 5 then (a ⟨(10 * k.1 + t) / 8, h⟩).getLsbD ((10 * k.1 + t) % 8) else false) := by
  unfold from10Chunk
  match k with
  | 0 | 1 | 2 | 3 => dsimp only [Matrix.cons_val]; interval_cases t <;> simp

set_option maxHeartbeats 4000000 in
theorem from6_bits (a : Fin 3 → U8) (k : Fin 4) (t : Nat) (ht : t < 16) :
    (from6Chunk a k).getLsbD t = (decide (t < 6) && if h : (6 * k.1 + t) / 8 < 3 then (a ⟨(6 * k.1 + t) / 8, h⟩).getLsbD ((6 * k.1 + t) % 8) else false) := by
  unfold from6Chunk
  match k with
  | 0 | 1 | 2 | 3 => dsimp only [Matrix.cons_val]; interval_cases t <;> simp

set_option maxHeartbeats 4000000 in
theorem from4_bits (a : U8) (k : Fin 2) (t : Nat) (ht : t < 16) :
    (from4Chunk a k).getLsbD t = (decide (t < 4) && a.getLsbD (4 * k.1 + t)) := by
  unfold from4Chunk
  match k with
  | 0 | 1 => dsimp only [Matrix.cons_val]; interval_cases t <;> simp

set_option maxHeartbeats 4000000 in
theorem from3_bits (a : Fin 3 → U8) (k : Fin 8) (t : Nat) (ht : t < 16) :
    (from3Chunk a k).getLsbD t = (decide (t < 3) && if h : (3 * k.1 + t) / 8 < 3 then (a ⟨(3 * k.1 + t) / 8, h⟩).getLsbD ((3 * k.1 + t) % 8) else false) := by
  unfold from3Chunk
  match k with
  | 0 | 1 | 2 | 3 | 4 | 5 | 6 | 7 => dsimp only [Matrix.cons_val]; interval_cases t <;> simp

/-- Reading chunk bytes as stream bits. -/
theorem byteAt_bit {n : Nat} (b : ByteArr n) (base m : Nat) (h : base + m / 8 < n) :
    (byteAt b ⟨base + m / 8, h⟩).getLsbD (m % 8) = Spec.bitOf b.1 (8 * base + m) := by
  unfold byteAt Spec.bitOf
  rw [show (8 * base + m) / 8 = base + m / 8 by omega, show (8 * base + m) % 8 = m % 8 by omega,
    getElem!_pos b.1 (base + m / 8) (by rw [b.2]; exact h)]
  rfl

theorem high_false (x : U16) (t : Nat) (h : ¬ t < 16) : x.getLsbD t = false := by
  simp only [Nat.not_lt] at h
  exact BitVec.getLsbD_of_ge x t h

theorem fromBytes13_bit (b : ByteArr 416) (i : Fin 256) (t : Nat) :
    (fromBytes13 b i).getLsbD t = (decide (t < 13) && Spec.bitOf b.1 (13 * i.1 + t)) := by
  have hi := i.2
  unfold fromBytes13
  rw [BitVec.getLsbD_and]
  by_cases h : t < 13
  · rw [from13_bits _ _ t h, byteAt_bit, show 8 * (13 * (i.1 / 8)) + (13 * (i.1 % 8) + t) = 13 * i.1 + t by omega]
    have : (0x1FFF : U16).getLsbD t = true := by interval_cases t <;> rfl
    rw [this]; simp [h]
  · have : (0x1FFF : U16).getLsbD t = false := by
      by_cases h16 : t < 16
      · have : 13 ≤ t := by omega
        interval_cases t <;> rfl
      · exact high_false _ _ h16
    rw [this]; simp [h]

theorem fromBytes10_bit (b : ByteArr 320) (i : Fin 256) (t : Nat) :
    (fromBytes10 b i).getLsbD t = (decide (t < 10) && Spec.bitOf b.1 (10 * i.1 + t)) := by
  have hi := i.2
  by_cases h16 : t < 16
  · unfold fromBytes10
    rw [from10_bits _ _ t h16]
    by_cases h : t < 10
    · rw [dif_pos (by dsimp only; omega), byteAt_bit, show 8 * (5 * (i.1 / 4)) + (10 * (i.1 % 4) + t) = 10 * i.1 + t by omega]
    · simp [h]
  · rw [high_false _ _ h16]; simp; omega

theorem fromBytes6_bit (b : ByteArr 192) (i : Fin 256) (t : Nat) :
    (fromBytes6 b i).getLsbD t = (decide (t < 6) && Spec.bitOf b.1 (6 * i.1 + t)) := by
  have hi := i.2
  by_cases h16 : t < 16
  · unfold fromBytes6
    rw [from6_bits _ _ t h16]
    by_cases h : t < 6
    · rw [dif_pos (by dsimp only; omega), byteAt_bit, show 8 * (3 * (i.1 / 4)) + (6 * (i.1 % 4) + t) = 6 * i.1 + t by omega]
    · simp [h]
  · rw [high_false _ _ h16]; simp; omega

theorem fromBytes4_bit (b : ByteArr 128) (i : Fin 256) (t : Nat) :
    (fromBytes4 b i).getLsbD t = (decide (t < 4) && Spec.bitOf b.1 (4 * i.1 + t)) := by
  have hi := i.2
  by_cases h16 : t < 16
  · unfold fromBytes4
    rw [from4_bits _ _ t h16]
    by_cases h : t < 4
    · have := byteAt_bit b (i.1 / 2) (4 * (i.1 % 2) + t) (by omega)
      rw [show 8 * (i.1 / 2) + (4 * (i.1 % 2) + t) = 4 * i.1 + t by omega, show (4 * (i.1 % 2) + t) % 8 = 4 * (i.1 % 2) + t by omega] at this
      rw [← this]
      have h0 : (4 * (i.1 % 2) + t) / 8 = 0 := by omega
      simp only [h0, Nat.add_zero]
    · simp [h]
  · rw [high_false _ _ h16]; simp; omega

theorem fromBytes3_bit (b : ByteArr 96) (i : Fin 256) (t : Nat) :
    (fromBytes3 b i).getLsbD t = (decide (t < 3) && Spec.bitOf b.1 (3 * i.1 + t)) := by
  have hi := i.2
  by_cases h16 : t < 16
  · unfold fromBytes3
    rw [from3_bits _ _ t h16]
    by_cases h : t < 3
    · rw [dif_pos (by dsimp only; omega), byteAt_bit, show 8 * (3 * (i.1 / 8)) + (3 * (i.1 % 8) + t) = 3 * i.1 + t by omega]
    · simp [h]
  · rw [high_false _ _ h16]; simp; omega

/-! ### fields as numbers -/

theorem sum_testBit (w n : Nat) : n % 2 ^ w = ∑ t ∈ Finset.range w, (n.testBit t).toNat * 2 ^ t := by
  induction w with
  | zero => simp [Nat.mod_one]
  | succ w ih => rw [Finset.sum_range_succ, ← ih, Nat.mod_pow_succ, Nat.toNat_testBit, Nat.mul_comm]

theorem field_of_bits (w : Nat) (x : U16) (bit : Nat → Bool) (i : Nat) (h : ∀ t < w, x.getLsbD t = bit (w * i + t)) :
    Spec.field w bit i = x.toNat % 2 ^ w := by
  rw [sum_testBit]
  unfold Spec.field
  refine Finset.sum_congr rfl fun t ht => ?_
  rw [← h t (Finset.mem_range.1 ht)]; rfl

theorem lt_of_high (w : Nat) (x : U16) (h : ∀ t, ¬ t < w → x.getLsbD t = false) : x.toNat < 2 ^ w :=
  Nat.lt_pow_two_of_testBit _ fun t ht => h t (by omega)

theorem fromBytes_field (w : Nat) (x : U16) (b : Bytes) (i : Nat) (h : ∀ t, x.getLsbD t = (decide (t < w) && Spec.bitOf b (w * i + t))) :
    x.toNat = Spec.field w (Spec.bitOf b) i := by
  rw [field_of_bits w x (Spec.bitOf b) i fun t ht => by simp [h t, ht]]
  rw [Nat.mod_eq_of_lt (lt_of_high w x fun t ht => by simp [h t, ht])]

theorem fromBytes13_field (b : ByteArr 416) (i : Fin 256) : (fromBytes13 b i).toNat = Spec.field 13 (Spec.bitOf b.1) i.1 :=
  fromBytes_field 13 _ _ _ (fromBytes13_bit b i)
theorem fromBytes10_field (b : ByteArr 320) (i : Fin 256) : (fromBytes10 b i).toNat = Spec.field 10 (Spec.bitOf b.1) i.1 :=
  fromBytes_field 10 _ _ _ (fromBytes10_bit b i)
theorem fromBytes6_field (b : ByteArr 192) (i : Fin 256) : (fromBytes6 b i).toNat = Spec.field 6 (Spec.bitOf b.1) i.1 :=
  fromBytes_field 6 _ _ _ (fromBytes6_bit b i)
theorem fromBytes4_field (b : ByteArr 128) (i : Fin 256) : (fromBytes4 b i).toNat = Spec.field 4 (Spec.bitOf b.1) i.1 :=
  fromBytes_field 4 _ _ _ (fromBytes4_bit b i)
theorem fromBytes3_field (b : ByteArr 96) (i : Fin 256) : (fromBytes3 b i).toNat = Spec.field 3 (Spec.bitOf b.1) i.1 :=
  fromBytes_field 3 _ _ _ (fromBytes3_bit b i)

theorem and_mask_toNat (x : U16) (w : Nat) (m : U16) (hm : m.toNat = 2 ^ w - 1) : (x &&& m).toNat = x.toNat % 2 ^ w := by
  rw [BitVec.toNat_and, hm, Nat.and_two_pow_sub_one_eq_mod]

theorem readBytes13_field (p : Poly) (i : Fin 256) : Spec.field 13 (Spec.bitOf (readBytes13 p).1) i.1 = (p i).toNat % 2 ^ 13 := by
  rw [← fromBytes13_field, fromBytes13_readBytes13, and_mask_toNat _ 13 _ (by decide)]
theorem readBytes10_field (p : Poly) (i : Fin 256) : Spec.field 10 (Spec.bitOf (readBytes10 p).1) i.1 = (p i).toNat % 2 ^ 10 := by
  rw [← fromBytes10_field, fromBytes10_readBytes10, and_mask_toNat _ 10 _ (by decide)]
theorem readBytes6_field (p : Poly) (i : Fin 256) : Spec.field 6 (Spec.bitOf (readBytes6 p).1) i.1 = (p i).toNat % 2 ^ 6 := by
  rw [← fromBytes6_field, fromBytes6_readBytes6, and_mask_toNat _ 6 _ (by decide)]
theorem readBytes4_field (p : Poly) (i : Fin 256) : Spec.field 4 (Spec.bitOf (readBytes4 p).1) i.1 = (p i).toNat % 2 ^ 4 := by
  rw [← fromBytes4_field, fromBytes4_readBytes4, and_mask_toNat _ 4 _ (by decide)]

theorem light_bits (x : U16) : ((x &&& (0x6 : U16)) ||| ((x >>> 2) &&& (0x1 : U16))).toNat = x.toNat % 8 - x.toNat % 2 + x.toNat % 8 / 4 := by
  have h1 : (x &&& (0x6 : U16)) ||| ((x >>> 2) &&& (0x1 : U16)) = (((x &&& (7 : U16)) &&& (0x6 : U16)) ||| (((x &&& (7 : U16)) >>> 2) &&& (0x1 : U16))) := by
    apply BitVec.eq_of_getLsbD_eq; intro i hi; interval_cases i <;> simp
  have h2 : x.toNat % 8 = (x &&& (7 : U16)).toNat := (and_mask_toNat x 3 7 (by decide)).symm
  have h3 : x.toNat % 2 = x.toNat % 8 % 2 := by omega
  rw [h1, h3, h2]
  have h4 : x &&& (7 : U16) = BitVec.ofNat 16 ((x &&& (7 : U16)).toNat) := by simp
  have h5 : (x &&& (7 : U16)).toNat < 8 := by rw [← h2]; omega
  generalize (x &&& (7 : U16)).toNat = n at *
  rw [h4]
  interval_cases n <;> rfl

theorem readBytes3_field (p : Poly) (i : Fin 256) : Spec.field 3 (Spec.bitOf (readBytes3 p).1) i.1
    = if i.1 % 8 = 5 then (p i).toNat % 8 - (p i).toNat % 2 + (p i).toNat % 8 / 4 else (p i).toNat % 2 ^ 3 := by
  rw [← fromBytes3_field, fromBytes3_readBytes3]
  split
  · exact light_bits _
  · rw [and_mask_toNat _ 3 _ (by decide)]

end Verif.Saber
