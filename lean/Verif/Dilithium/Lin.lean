import Verif.Dilithium.NttAlg
import Verif.Dilithium.Sign
import Verif.Dilithium.Sample

/-! # The vector operations, as operations on residues modulo `q` with bounds -/

namespace Verif.Dilithium

variable {C : CSem}


/-! ## The NTT is a linear bijection -/

theorem inv256 : (256 : F) * ((-32736 : Int) : F) = 1 := by
  have := cast_eq_of_dvd (256 * (-32736)) 1 (by decide)
  push_cast at this ⊢
  exact this

theorem fNtt_inj {a b : Fin 256 → F} (h : fNtt a = fNtt b) : a = b := by
  have ha := fInv_fNtt ((-32736 : Int) : F) a
  have hb := fInv_fNtt ((-32736 : Int) : F) b
  rw [inv256, one_smul] at ha hb
  rw [← ha, ← hb, h]

theorem fNtt_surj (X : Fin 256 → F) : ∃ p, fNtt p = X := by
  have : Function.Injective fNtt := fun a b h => fNtt_inj h
  exact (Finite.injective_iff_surjective.1 this) X

theorem fNtt_smul (c : F) (a : Fin 256 → F) : fNtt (c • a) = c • fNtt a := by
  funext i
  simp only [Pi.smul_apply, fNtt_eval, smul_eq_mul]
  unfold evalAt
  rw [Finset.mul_sum]
  refine Finset.sum_congr rfl fun i _ => ?_
  simp [mul_assoc]

theorem fNtt_neg (a : Fin 256 → F) : fNtt (-a) = -fNtt a := by
  have := fNtt_smul (-1) a
  simpa using this

theorem fNtt_sub (a b : Fin 256 → F) : fNtt (a - b) = fNtt a - fNtt b := by
  rw [sub_eq_add_neg, fNtt_add, fNtt_neg, ← sub_eq_add_neg]

/-! ## Polynomial operations -/

theorem Bnd.mono {A B : Int} {a : Poly} (h : Bnd A a) (hAB : A ≤ B) : Bnd B a := fun i => by have := h i; omega

theorem polyAdd_eq {A B : Int} {a b : Poly} (ha : Bnd A a) (hb : Bnd B b) (h : A + B ≤ 2147483647) (i : Fin 256) : polyAdd C a b i = a i + b i := by
  have := ha i; have := hb i
  exact C.i32_id _ (by omega) (by omega)

theorem polySub_eq {A B : Int} {a b : Poly} (ha : Bnd A a) (hb : Bnd B b) (h : A + B ≤ 2147483647) (i : Fin 256) : polySub C a b i = a i - b i := by
  have := ha i; have := hb i
  exact C.i32_id _ (by omega) (by omega)

theorem polyAdd_res {A B : Int} {a b : Poly} (ha : Bnd A a) (hb : Bnd B b) (h : A + B ≤ 2147483647) :
    res (polyAdd C a b) = res a + res b ∧ Bnd (A + B) (polyAdd C a b) := by
  constructor
  · funext i; simp [res, polyAdd_eq ha hb h]
  · intro i; have := ha i; have := hb i; rw [polyAdd_eq ha hb h]; omega

theorem polySub_res {A B : Int} {a b : Poly} (ha : Bnd A a) (hb : Bnd B b) (h : A + B ≤ 2147483647) :
    res (polySub C a b) = res a - res b ∧ Bnd (A + B) (polySub C a b) := by
  constructor
  · funext i; simp [res, polySub_eq ha hb h]
  · intro i; have := ha i; have := hb i; rw [polySub_eq ha hb h]; omega

theorem cast_Q : ((Q : Int) : F) = 0 := by
  have := cast_eq_of_dvd Q 0 (by decide)
  simpa using this

theorem polyReduce_res {A : Int} {a : Poly} (ha : Bnd A a) (h : A ≤ 2143289343) : res (polyReduce C a) = res a ∧ Bnd 6283009 (polyReduce C a) := by
  constructor
  · funext i
    have := ha i
    obtain ⟨t, e, -⟩ := reduce32_spec (C := C) (a i) (by omega) (by omega)
    simp only [res, polyReduce, e]
    rw [Int.cast_sub, Int.cast_mul, cast_Q, mul_zero, sub_zero]
  · intro i
    have := ha i
    obtain ⟨t, e, h1, h2, -⟩ := reduce32_spec (C := C) (a i) (by omega) (by omega)
    exact ⟨h1, by show reduce32 C (a i) ≤ _; omega⟩

theorem polyCaddq_res {a : Poly} (ha : ∀ i, -Q < a i ∧ a i < Q) : res (polyCaddq C a) = res a ∧ ∀ i, 0 ≤ polyCaddq C a i ∧ polyCaddq C a i < Q := by
  simp only [Q] at ha
  constructor
  · funext i
    have := ha i
    simp only [res, polyCaddq]
    rw [caddq_spec _ (by omega) (by omega)]
    split
    · rw [Int.cast_add, cast_Q, add_zero]
    · rfl
  · intro i
    have := ha i
    simp only [polyCaddq, Q]
    rw [caddq_spec _ (by omega) (by omega)]
    split <;> (try simp only [Q]) <;> omega

theorem polyPointwise_res {A B : Int} {a b : Poly} (ha : Bnd A a) (hb : Bnd B b) (h : A * B < 2147483648 * Q) :
    res (polyPointwise C a b) = Rinv • (res a * res b) ∧ Bnd Q (polyPointwise C a b) := by
  have hm : ∀ i, -(A * B) ≤ a i * b i ∧ a i * b i ≤ A * B := fun i => mul_bnd (ha i) (hb i)
  simp only [Q] at h
  constructor
  · funext i
    have := hm i
    simp only [res, polyPointwise]
    rw [C.i64_id _ (by omega) (by omega), mont_cast _ (by simp only [Q]; omega) (by simp only [Q]; omega)]
    simp [res, mul_comm]
  · intro i
    have := hm i
    simp only [polyPointwise]
    rw [C.i64_id _ (by omega) (by omega)]
    have := mont_bound (C := C) (a i * b i) (by simp only [Q]; omega) (by simp only [Q]; omega)
    omega

theorem pointwiseAcc_res {A B : Int} {u v : Vec} (hu : ∀ k, Bnd A (u k)) (hv : ∀ k, Bnd B (v k)) (h : A * B < 2147483648 * Q) :
    res (pointwiseAcc C u v) = Rinv • ∑ k, res (u k) * res (v k) ∧ Bnd (4 * Q) (pointwiseAcc C u v) := by
  have p := fun k => polyPointwise_res (C := C) (hu k) (hv k) h
  unfold pointwiseAcc
  dsimp only
  have s1 := polyAdd_res (C := C) (p 0).2 (p 1).2 (by simp only [Q]; omega)
  have s2 := polyAdd_res (C := C) s1.2 (p 2).2 (by simp only [Q]; omega)
  have s3 := polyAdd_res (C := C) s2.2 (p 3).2 (by simp only [Q]; omega)
  refine ⟨?_, s3.2.mono (by simp only [Q]; omega)⟩
  rw [s3.1, s2.1, s1.1, (p 0).1, (p 1).1, (p 2).1, (p 3).1, ← smul_add, ← smul_add, ← smul_add, Fin.sum_univ_four]

theorem polyNtt_res {A : Int} {a : Poly} (ha : Bnd A a) (h : A + 8 * Q ≤ 2147483647) : res (polyNtt C a) = fNtt (res a) ∧ Bnd (A + 8 * Q) (polyNtt C a) :=
  ntt_spec a A h ha

/-- `invntt_tomont` of a Montgomery product, whatever the product. -/
theorem polyInvntt_res {P : Poly} {X : Fin 256 → F} (hP : Bnd Q P) (h : res P = Rinv • X) :
    fNtt (res (polyInvntt C P)) = X ∧ ∀ i, -Q < polyInvntt C P i ∧ polyInvntt C P i < Q := by
  obtain ⟨p, rfl⟩ := fNtt_surj X
  obtain ⟨h1, h2⟩ := invntt_spec (C := C) (oob := C.oob) P p hP h
  exact ⟨by unfold polyInvntt; rw [h1], fun i => by have := h2 i; simp only [Q, polyInvntt] at *; omega⟩

theorem polyInvntt_tight {P : Poly} {X : Fin 256 → F} (hP : Bnd Q P) (h : res P = Rinv • X) : Bnd 4211177 (polyInvntt C P) := by
  obtain ⟨p, rfl⟩ := fNtt_surj X
  exact (invntt_spec (C := C) (oob := C.oob) P p hP h).2

theorem strict_bnd {a : Poly} (h : ∀ i, -Q < a i ∧ a i < Q) : Bnd Q a := fun i => by have := h i; omega

theorem res_inj_of_range {a b : Poly} (ha : ∀ i, 0 ≤ a i ∧ a i < Q) (hb : ∀ i, 0 ≤ b i ∧ b i < Q) (h : res a = res b) : a = b := by
  funext i
  have := congrFun h i
  simp only [res] at this
  rw [ZMod.intCast_eq_intCast_iff_dvd_sub] at this
  have := ha i; have := hb i
  simp only [Q] at *
  omega

/-! ## Norm checks -/

theorem ctAbs_eq (a : Int) (h1 : -1073741824 ≤ a) (h2 : a ≤ 1073741823) : ctAbs C a = |a| := by
  unfold ctAbs
  rw [C.i32_id (2 * a) (by omega) (by omega)]
  by_cases h : a < 0
  · rw [show a / 2147483648 = -1 by omega, land_neg_one, C.i32_id _ (by omega) (by omega), abs_of_neg h]; omega
  · rw [show a / 2147483648 = 0 by omega, zero_land, C.i32_id _ (by omega) (by omega), abs_of_nonneg (by omega)]; omega

theorem polyChknorm_false {a : Poly} {B : Int} (hB : B ≤ 1047552) (ha : Bnd 1073741823 a) : polyChknorm C a B = false ↔ ∀ i, -B < a i ∧ a i < B := by
  unfold polyChknorm
  rw [if_neg (by simp only [Q]; omega), List.any_eq_false]
  constructor
  · intro h i
    have := h i (List.mem_finRange i)
    have := ha i
    rw [ctAbs_eq _ (by omega) (by omega), decide_eq_true_eq, not_le, abs_lt] at *
    assumption
  · intro h i _
    have := ha i
    rw [ctAbs_eq _ (by omega) (by omega), decide_eq_true_eq, not_le, abs_lt]
    exact h i

theorem vecChknorm_false {v : Vec} {B : Int} (hB : B ≤ 1047552) (hv : ∀ k, Bnd 1073741823 (v k)) :
    vecChknorm C v B = false ↔ ∀ k i, -B < v k i ∧ v k i < B := by
  unfold vecChknorm
  rw [List.any_eq_false]
  constructor
  · intro h k
    have := h k (List.mem_finRange k)
    exact (polyChknorm_false hB (hv k)).1 (by simpa using this)
  · intro h k _
    rw [(polyChknorm_false hB (hv k)).2 (h k)]
    decide

/-! ## Rounding -/

/-- `power2round` on the slightly larger range that key generation needs. -/
theorem power2round_ext (a : Int) (h1 : -4095 ≤ a) (h2 : a ≤ Q + 4094) :
    a = (power2round C a).1 * 8192 + (power2round C a).2 ∧ -4096 < (power2round C a).2 ∧ (power2round C a).2 ≤ 4096 ∧
    0 ≤ (power2round C a).1 ∧ (power2round C a).1 < 1024 := by
  unfold power2round
  simp only [Q] at *
  rw [C.i32_id (a + 4096) (by omega) (by omega), C.i32_id (a + 4096 - 1) (by omega) (by omega),
    C.i32_id ((a + 4096 - 1) / 8192 * 8192) (by omega) (by omega), C.i32_id _ (by omega) (by omega)]
  omega

/-- The hint undoes the perturbation `v`. -/
theorem useHint_makeHint (a w1 v : Int) (h1 : 0 ≤ a) (h2 : a < Q) (hw1 : 0 ≤ w1) (hw2 : w1 ≤ 43) (hv1 : -190464 < v) (hv2 : v < 190464)
    (h : Q ∣ a - (w1 * 190464 + v)) : useHint C a (makeHint v w1) = w1 ∧ (makeHint v w1 = 0 ↔ (decompose C a).1 = w1) := by
  obtain ⟨t, ht⟩ := h
  have hd := decompose_spec (C := C) a h1 h2
  unfold useHint makeHint
  generalize hD : decompose C a = d at *
  obtain ⟨a1, a0⟩ := d
  simp only [Q, GAMMA2] at *
  have ht' : t = -1 ∨ t = 0 ∨ t = 1 := by omega
  have hi : ∀ x : Int, 0 ≤ x → x ≤ 50 → C.i32 x = x := fun x h1 h2 => C.i32_id x (by omega) (by omega)
  have key : (v > 95232 ∨ v < -95232 ∨ v = -95232 ∧ w1 ≠ 0) ∧ ((a0 > 0 ∧ (a1 + 1 = w1 ∨ (a1 = 43 ∧ w1 = 0))) ∨ (a0 ≤ 0 ∧ (a1 - 1 = w1 ∨ (a1 = 0 ∧ w1 = 43)))) ∨
      ¬ (v > 95232 ∨ v < -95232 ∨ v = -95232 ∧ w1 ≠ 0) ∧ a1 = w1 := by
    rcases ht' with rfl | rfl | rfl <;> omega
  rcases key with ⟨hc, hk⟩ | ⟨hc, hk⟩
  · rw [if_pos hc]
    refine ⟨?_, by omega⟩
    rw [if_neg (by decide)]
    rcases hk with ⟨h0, hk⟩ | ⟨h0, hk⟩
    · rw [if_pos h0]
      split
      · omega
      · rw [hi _ (by omega) (by omega)]; omega
    · rw [if_neg (by omega)]
      split
      · omega
      · rw [hi _ (by omega) (by omega)]; omega
  · rw [if_neg hc, if_pos rfl]
    exact ⟨hk, by simp [hk]⟩

end Verif.Dilithium
