import Verif.Saber.Generic
import Verif.Saber.Spec
import Mathlib.Tactic.IntervalCases
import Mathlib.Tactic.NormNum

/-! The centred binomial samplers count stream bits. -/

namespace Verif.Saber

open Finset

theorem land_mask_step (w x b : Nat) (hw : 0 < w) : x &&& (1 + 2 ^ w * b) = x % 2 + 2 ^ w * ((x / 2 ^ w) &&& b) := by
  have h2 : 2 ≤ 2 ^ w := by
    calc 2 = 2 ^ 1 := rfl
      _ ≤ 2 ^ w := Nat.pow_le_pow_right (by omega) hw
  apply Nat.eq_of_testBit_eq
  intro i
  rw [Nat.testBit_and, Nat.add_comm 1, Nat.add_comm (x % 2), Nat.testBit_two_pow_mul_add _ (by omega), Nat.testBit_two_pow_mul_add _ (by omega)]
  by_cases h : i < w
  · simp only [h, if_true]
    by_cases h0 : i = 0
    · subst h0; simp [Nat.testBit_zero]
    · have : Nat.testBit 1 i = false := by
        apply Nat.testBit_lt_two_pow
        calc 1 < 2 ^ 1 := by decide
          _ ≤ 2 ^ i := Nat.pow_le_pow_right (by omega) (by omega)
      have h3 : Nat.testBit (x % 2) i = false := by
        apply Nat.testBit_lt_two_pow
        calc x % 2 < 2 := Nat.mod_lt _ (by omega)
          _ = 2 ^ 1 := rfl
          _ ≤ 2 ^ i := Nat.pow_le_pow_right (by omega) (by omega)
      rw [this, h3]; simp
  · simp only [h, if_false, Nat.testBit_and]
    rw [Nat.testBit_div_two_pow]
    congr 2
    omega

/-- `1 + 2^w + 2^{2w} + …`, `n` terms. -/
def fieldMask (w : Nat) : Nat → Nat
  | 0 => 0
  | n + 1 => 1 + 2 ^ w * fieldMask w n

theorem land_fieldMask (w : Nat) (hw : 0 < w) (n x : Nat) :
    x &&& fieldMask w n = ∑ f ∈ range n, (x / 2 ^ (w * f) % 2) * 2 ^ (w * f) := by
  induction n generalizing x with
  | zero => simp [fieldMask]
  | succ n ih =>
    rw [fieldMask, land_mask_step w _ _ hw, ih, Finset.sum_range_succ', Finset.mul_sum, Nat.add_comm]
    congr 1
    · refine Finset.sum_congr rfl fun f _ => ?_
      rw [Nat.div_div_eq_div_mul, ← pow_add, Nat.mul_add, Nat.mul_one, Nat.add_comm w (w * f)]
      ring
    · simp

theorem bitSums_toNat (w : Nat) (mask t : U64) (hsmall : w * mask.toNat < 2 ^ 64) :
    (bitSums w mask t).toNat = ∑ idx ∈ range w, (t.toNat / 2 ^ idx &&& mask.toNat) := by
  unfold bitSums
  induction w with
  | zero => simp
  | succ w ih =>
    have hle : ∀ v, ∑ idx ∈ range v, (t.toNat / 2 ^ idx &&& mask.toNat) ≤ v * mask.toNat := by
      intro v
      calc _ ≤ ∑ idx ∈ range v, mask.toNat := Finset.sum_le_sum fun _ _ => Nat.and_le_right
        _ = v * mask.toNat := by simp
    have h1 : w * mask.toNat < 2 ^ 64 := lt_of_le_of_lt (Nat.mul_le_mul_right _ (Nat.le_succ w)) hsmall
    rw [List.range_succ, List.foldl_append, List.foldl_cons, List.foldl_nil, BitVec.toNat_add, ih h1, Finset.sum_range_succ,
      BitVec.toNat_and, BitVec.toNat_ushiftRight, Nat.shiftRight_eq_div_pow]
    apply Nat.mod_eq_of_lt
    have := hle (w + 1)
    rw [Finset.sum_range_succ] at this
    omega

/-- The sums of the `w`-bit fields. -/
theorem bitSums_fields (w n : Nat) (hw : 0 < w) (mask t : U64) (hm : mask.toNat = fieldMask w n) (hsmall : w * mask.toNat < 2 ^ 64) :
    (bitSums w mask t).toNat = ∑ f ∈ range n, (∑ idx ∈ range w, (t.getLsbD (w * f + idx)).toNat) * 2 ^ (w * f) := by
  rw [bitSums_toNat w mask t hsmall, hm]
  simp only [land_fieldMask w hw]
  rw [Finset.sum_comm]
  refine Finset.sum_congr rfl fun f _ => ?_
  rw [Finset.sum_mul]
  refine Finset.sum_congr rfl fun idx _ => ?_
  rw [Nat.div_div_eq_div_mul, ← pow_add]
  congr 1
  rw [BitVec.getLsbD, Nat.add_comm idx, ← Nat.toNat_testBit]

theorem field_le (w f : Nat) (t : U64) : ∑ idx ∈ range w, (t.getLsbD (w * f + idx)).toNat ≤ w := by
  calc _ ≤ ∑ idx ∈ range w, 1 := Finset.sum_le_sum fun _ _ => Bool.toNat_le _
    _ = w := by simp

theorem loadLE5 (b : Fin 5 → U8) (n : Nat) (hn : n < 40) : (loadLE b).getLsbD n = (b ⟨n / 8, by omega⟩).getLsbD (n % 8) := by
  unfold loadLE
  rw [show List.finRange 5 = [0, 1, 2, 3, 4] from rfl]
  simp only [List.foldl_cons, List.foldl_nil]
  interval_cases n <;> simp

theorem loadLE4 (b : Fin 4 → U8) (n : Nat) (hn : n < 32) : (loadLE b).getLsbD n = (b ⟨n / 8, by omega⟩).getLsbD (n % 8) := by
  unfold loadLE
  rw [show List.finRange 4 = [0, 1, 2, 3] from rfl]
  simp only [List.foldl_cons, List.foldl_nil]
  interval_cases n <;> simp

theorem loadLE3 (b : Fin 3 → U8) (n : Nat) (hn : n < 24) : (loadLE b).getLsbD n = (b ⟨n / 8, by omega⟩).getLsbD (n % 8) := by
  unfold loadLE
  rw [show List.finRange 3 = [0, 1, 2] from rfl]
  simp only [List.foldl_cons, List.foldl_nil]
  interval_cases n <;> simp

theorem sub_toInt (a b : U16) (ha : a.toNat < 100) (hb : b.toNat < 100) : (a - b).toInt = (a.toNat : ℤ) - b.toNat := by
  rw [BitVec.toInt_sub, BitVec.toInt_eq_toNat_of_lt (by omega), BitVec.toInt_eq_toNat_of_lt (by omega)]
  rw [Int.bmod_def]
  split <;> omega

theorem field_toNat (d : U64) (s w : Nat) (m : U64) (hm : m.toNat = 2 ^ w - 1) (hw : w ≤ 16) :
    (((d >>> s) &&& m).setWidth 16).toNat = d.toNat / 2 ^ s % 2 ^ w := by
  rw [BitVec.toNat_setWidth, BitVec.toNat_and, hm, Nat.and_two_pow_sub_one_eq_mod, BitVec.toNat_ushiftRight, Nat.shiftRight_eq_div_pow]
  apply Nat.mod_eq_of_lt
  calc d.toNat / 2 ^ s % 2 ^ w < 2 ^ w := Nat.mod_lt _ (Nat.two_pow_pos w)
    _ ≤ 2 ^ 16 := Nat.pow_le_pow_right (by omega) hw

theorem field0_toNat (d : U64) (w : Nat) (m : U64) (hm : m.toNat = 2 ^ w - 1) (hw : w ≤ 16) :
    ((d &&& m).setWidth 16).toNat = d.toNat % 2 ^ w := by
  have := field_toNat d 0 w m hm hw
  simpa using this

theorem last_toNat (d : U64) (s : Nat) (h : d.toNat / 2 ^ s < 2 ^ 16) : ((d >>> s).setWidth 16 : U16).toNat = d.toNat / 2 ^ s := by
  rw [BitVec.toNat_setWidth, BitVec.toNat_ushiftRight, Nat.shiftRight_eq_div_pow, Nat.mod_eq_of_lt h]

theorem cbdLight_chunk (b : Fin 5 → U8) (k : Fin 4) : (cbdLightChunk b k).toInt =
    ((∑ idx ∈ range 5, ((loadLE b).getLsbD (5 * (2 * k.1) + idx)).toNat : Nat) : ℤ)
      - ((∑ idx ∈ range 5, ((loadLE b).getLsbD (5 * (2 * k.1 + 1) + idx)).toNat : Nat) : ℤ) := by
  have hD := bitSums_fields 5 8 (by omega) 0x0008_4210_8421 (loadLE b) (by decide) (by decide)
  obtain ⟨S, hS⟩ : ∃ S : Nat → Nat, ∀ f, ∑ idx ∈ range 5, ((loadLE b).getLsbD (5 * f + idx)).toNat = S f := ⟨_, fun _ => rfl⟩
  have hle : ∀ f, S f ≤ 5 := fun f => by rw [← hS]; exact field_le 5 f _
  simp only [hS] at hD ⊢
  simp only [Finset.sum_range_succ, Finset.sum_range_zero] at hD
  norm_num at hD
  have l0 := hle 0; have l1 := hle 1; have l2 := hle 2; have l3 := hle 3; have l4 := hle 4; have l5 := hle 5; have l6 := hle 6; have l7 := hle 7
  unfold cbdLightChunk
  generalize bitSums 5 0x0008_4210_8421 (loadLE b) = d at *
  have f0 : ((d &&& 0x1F).setWidth 16).toNat = S 0 := by rw [field0_toNat d 5 _ rfl (by omega)]; omega
  have f1 : (((d >>> 5) &&& 0x1F).setWidth 16).toNat = S 1 := by rw [field_toNat d 5 5 _ rfl (by omega)]; omega
  have f2 : (((d >>> 10) &&& 0x1F).setWidth 16).toNat = S 2 := by rw [field_toNat d 10 5 _ rfl (by omega)]; omega
  have f3 : (((d >>> 15) &&& 0x1F).setWidth 16).toNat = S 3 := by rw [field_toNat d 15 5 _ rfl (by omega)]; omega
  have f4 : (((d >>> 20) &&& 0x1F).setWidth 16).toNat = S 4 := by rw [field_toNat d 20 5 _ rfl (by omega)]; omega
  have f5 : (((d >>> 25) &&& 0x1F).setWidth 16).toNat = S 5 := by rw [field_toNat d 25 5 _ rfl (by omega)]; omega
  have f6 : (((d >>> 30) &&& 0x1F).setWidth 16).toNat = S 6 := by rw [field_toNat d 30 5 _ rfl (by omega)]; omega
  have f7 : ((d >>> 35).setWidth 16 : U16).toNat = S 7 := by rw [last_toNat d 35 (by omega)]; omega
  match k with
  | 0 => show BitVec.toInt (_ - _) = _; rw [sub_toInt _ _ (by omega) (by omega), f0, f1]; rfl
  | 1 => show BitVec.toInt (_ - _) = _; rw [sub_toInt _ _ (by omega) (by omega), f2, f3]; rfl
  | 2 => show BitVec.toInt (_ - _) = _; rw [sub_toInt _ _ (by omega) (by omega), f4, f5]; rfl
  | 3 => show BitVec.toInt (_ - _) = _; rw [sub_toInt _ _ (by omega) (by omega), f6, f7]; rfl

theorem cbdLight_ones (xof : Nat → UInt8) (i : Fin 256) : (cbdWith cbdLightChunk xof i).toInt =
    (onesAt xof (10 * i.1) 5 : ℤ) - onesAt xof (10 * i.1 + 5) 5 := by
  unfold cbdWith
  rw [cbdLight_chunk]
  unfold onesAt
  have key : ∀ n, n < 40 → (loadLE fun j : Fin 5 => (xof (5 * (i.1 / 4) + j.1)).toBitVec).getLsbD n
      = streamBit xof (40 * (i.1 / 4) + n) := by
    intro n hn
    rw [loadLE5 _ n hn]
    unfold streamBit
    have h1 : (40 * (i.1 / 4) + n) / 8 = 5 * (i.1 / 4) + n / 8 := by omega
    have h2 : (40 * (i.1 / 4) + n) % 8 = n % 8 := by omega
    simp only [h1, h2]
  congr 2
  · refine Finset.sum_congr rfl fun idx hidx => ?_
    rw [Finset.mem_range] at hidx
    have hk : (⟨i.1 % 4, by omega⟩ : Fin 4).1 = i.1 % 4 := rfl
    rw [key _ (by dsimp only; omega)]
    congr 2
    dsimp only; omega
  · refine Finset.sum_congr rfl fun idx hidx => ?_
    rw [Finset.mem_range] at hidx
    rw [key _ (by dsimp only; omega)]
    congr 2
    dsimp only; omega

theorem cbdSaber_chunk (b : Fin 4 → U8) (k : Fin 4) : (cbdSaberChunk b k).toInt =
    ((∑ idx ∈ range 4, ((loadLE b).getLsbD (4 * (2 * k.1) + idx)).toNat : Nat) : ℤ)
      - ((∑ idx ∈ range 4, ((loadLE b).getLsbD (4 * (2 * k.1 + 1) + idx)).toNat : Nat) : ℤ) := by
  have hD := bitSums_fields 4 8 (by omega) 0x1111_1111 (loadLE b) (by decide) (by decide)
  obtain ⟨S, hS⟩ : ∃ S : Nat → Nat, ∀ f, ∑ idx ∈ range 4, ((loadLE b).getLsbD (4 * f + idx)).toNat = S f := ⟨_, fun _ => rfl⟩
  have hle : ∀ f, S f ≤ 4 := fun f => by rw [← hS]; exact field_le 4 f _
  simp only [hS] at hD ⊢
  simp only [Finset.sum_range_succ, Finset.sum_range_zero] at hD
  norm_num at hD
  have l0 := hle 0; have l1 := hle 1; have l2 := hle 2; have l3 := hle 3; have l4 := hle 4; have l5 := hle 5; have l6 := hle 6; have l7 := hle 7
  unfold cbdSaberChunk
  generalize bitSums 4 0x1111_1111 (loadLE b) = d at *
  have f0 : ((d &&& 0xF).setWidth 16).toNat = S 0 := by rw [field0_toNat d 4 _ rfl (by omega)]; omega
  have f1 : (((d >>> 4) &&& 0xF).setWidth 16).toNat = S 1 := by rw [field_toNat d 4 4 _ rfl (by omega)]; omega
  have f2 : (((d >>> 8) &&& 0xF).setWidth 16).toNat = S 2 := by rw [field_toNat d 8 4 _ rfl (by omega)]; omega
  have f3 : (((d >>> 12) &&& 0xF).setWidth 16).toNat = S 3 := by rw [field_toNat d 12 4 _ rfl (by omega)]; omega
  have f4 : (((d >>> 16) &&& 0xF).setWidth 16).toNat = S 4 := by rw [field_toNat d 16 4 _ rfl (by omega)]; omega
  have f5 : (((d >>> 20) &&& 0xF).setWidth 16).toNat = S 5 := by rw [field_toNat d 20 4 _ rfl (by omega)]; omega
  have f6 : (((d >>> 24) &&& 0xF).setWidth 16).toNat = S 6 := by rw [field_toNat d 24 4 _ rfl (by omega)]; omega
  have f7 : ((d >>> 28).setWidth 16 : U16).toNat = S 7 := by rw [last_toNat d 28 (by omega)]; omega
  match k with
  | 0 => show BitVec.toInt (_ - _) = _; rw [sub_toInt _ _ (by omega) (by omega), f0, f1]; rfl
  | 1 => show BitVec.toInt (_ - _) = _; rw [sub_toInt _ _ (by omega) (by omega), f2, f3]; rfl
  | 2 => show BitVec.toInt (_ - _) = _; rw [sub_toInt _ _ (by omega) (by omega), f4, f5]; rfl
  | 3 => show BitVec.toInt (_ - _) = _; rw [sub_toInt _ _ (by omega) (by omega), f6, f7]; rfl

theorem cbdSaber_ones (xof : Nat → UInt8) (i : Fin 256) : (cbdWith cbdSaberChunk xof i).toInt =
    (onesAt xof (8 * i.1) 4 : ℤ) - onesAt xof (8 * i.1 + 4) 4 := by
  unfold cbdWith
  rw [cbdSaber_chunk]
  unfold onesAt
  have key : ∀ n, n < 32 → (loadLE fun j : Fin 4 => (xof (4 * (i.1 / 4) + j.1)).toBitVec).getLsbD n
      = streamBit xof (32 * (i.1 / 4) + n) := by
    intro n hn
    rw [loadLE4 _ n hn]
    unfold streamBit
    have h1 : (32 * (i.1 / 4) + n) / 8 = 4 * (i.1 / 4) + n / 8 := by omega
    have h2 : (32 * (i.1 / 4) + n) % 8 = n % 8 := by omega
    simp only [h1, h2]
  congr 2
  · refine Finset.sum_congr rfl fun idx hidx => ?_
    rw [Finset.mem_range] at hidx
    have hk : (⟨i.1 % 4, by omega⟩ : Fin 4).1 = i.1 % 4 := rfl
    rw [key _ (by dsimp only; omega)]
    congr 2
    dsimp only; omega
  · refine Finset.sum_congr rfl fun idx hidx => ?_
    rw [Finset.mem_range] at hidx
    rw [key _ (by dsimp only; omega)]
    congr 2
    dsimp only; omega

theorem cbdFire_chunk (b : Fin 3 → U8) (k : Fin 4) : (cbdFireChunk b k).toInt =
    ((∑ idx ∈ range 3, ((loadLE b).getLsbD (3 * (2 * k.1) + idx)).toNat : Nat) : ℤ)
      - ((∑ idx ∈ range 3, ((loadLE b).getLsbD (3 * (2 * k.1 + 1) + idx)).toNat : Nat) : ℤ) := by
  have hD := bitSums_fields 3 8 (by omega) 0x0024_9249 (loadLE b) (by decide) (by decide)
  obtain ⟨S, hS⟩ : ∃ S : Nat → Nat, ∀ f, ∑ idx ∈ range 3, ((loadLE b).getLsbD (3 * f + idx)).toNat = S f := ⟨_, fun _ => rfl⟩
  have hle : ∀ f, S f ≤ 3 := fun f => by rw [← hS]; exact field_le 3 f _
  simp only [hS] at hD ⊢
  simp only [Finset.sum_range_succ, Finset.sum_range_zero] at hD
  norm_num at hD
  have l0 := hle 0; have l1 := hle 1; have l2 := hle 2; have l3 := hle 3; have l4 := hle 4; have l5 := hle 5; have l6 := hle 6; have l7 := hle 7
  unfold cbdFireChunk
  generalize bitSums 3 0x0024_9249 (loadLE b) = d at *
  have f0 : ((d &&& 0x07).setWidth 16).toNat = S 0 := by rw [field0_toNat d 3 _ rfl (by omega)]; omega
  have f1 : (((d >>> 3) &&& 0x07).setWidth 16).toNat = S 1 := by rw [field_toNat d 3 3 _ rfl (by omega)]; omega
  have f2 : (((d >>> 6) &&& 0x07).setWidth 16).toNat = S 2 := by rw [field_toNat d 6 3 _ rfl (by omega)]; omega
  have f3 : (((d >>> 9) &&& 0x07).setWidth 16).toNat = S 3 := by rw [field_toNat d 9 3 _ rfl (by omega)]; omega
  have f4 : (((d >>> 12) &&& 0x07).setWidth 16).toNat = S 4 := by rw [field_toNat d 12 3 _ rfl (by omega)]; omega
  have f5 : (((d >>> 15) &&& 0x07).setWidth 16).toNat = S 5 := by rw [field_toNat d 15 3 _ rfl (by omega)]; omega
  have f6 : (((d >>> 18) &&& 0x07).setWidth 16).toNat = S 6 := by rw [field_toNat d 18 3 _ rfl (by omega)]; omega
  have f7 : (((d >>> 21) &&& 0x07).setWidth 16).toNat = S 7 := by rw [field_toNat d 21 3 _ rfl (by omega)]; omega
  match k with
  | 0 => show BitVec.toInt (_ - _) = _; rw [sub_toInt _ _ (by omega) (by omega), f0, f1]; rfl
  | 1 => show BitVec.toInt (_ - _) = _; rw [sub_toInt _ _ (by omega) (by omega), f2, f3]; rfl
  | 2 => show BitVec.toInt (_ - _) = _; rw [sub_toInt _ _ (by omega) (by omega), f4, f5]; rfl
  | 3 => show BitVec.toInt (_ - _) = _; rw [sub_toInt _ _ (by omega) (by omega), f6, f7]; rfl

theorem cbdFire_ones (xof : Nat → UInt8) (i : Fin 256) : (cbdWith cbdFireChunk xof i).toInt =
    (onesAt xof (6 * i.1) 3 : ℤ) - onesAt xof (6 * i.1 + 3) 3 := by
  unfold cbdWith
  rw [cbdFire_chunk]
  unfold onesAt
  have key : ∀ n, n < 24 → (loadLE fun j : Fin 3 => (xof (3 * (i.1 / 4) + j.1)).toBitVec).getLsbD n
      = streamBit xof (24 * (i.1 / 4) + n) := by
    intro n hn
    rw [loadLE3 _ n hn]
    unfold streamBit
    have h1 : (24 * (i.1 / 4) + n) / 8 = 3 * (i.1 / 4) + n / 8 := by omega
    have h2 : (24 * (i.1 / 4) + n) % 8 = n % 8 := by omega
    simp only [h1, h2]
  congr 2
  · refine Finset.sum_congr rfl fun idx hidx => ?_
    rw [Finset.mem_range] at hidx
    have hk : (⟨i.1 % 4, by omega⟩ : Fin 4).1 = i.1 % 4 := rfl
    rw [key _ (by dsimp only; omega)]
    congr 2
    dsimp only; omega
  · refine Finset.sum_congr rfl fun idx hidx => ?_
    rw [Finset.mem_range] at hidx
    rw [key _ (by dsimp only; omega)]
    congr 2
    dsimp only; omega

theorem onesAt_le (xof : Nat → UInt8) (a n : Nat) : onesAt xof a n ≤ n := by
  unfold onesAt
  calc _ ≤ ∑ j ∈ range n, 1 := Finset.sum_le_sum fun _ _ => Bool.toNat_le _
    _ = n := by simp

end Verif.Saber
