import Verif.Dilithium.SignCorrect

/-! # Products with the challenge, over the integers -/

namespace Verif.Dilithium

variable {C : CSem} {H : Shake}

/-- A product with a polynomial that has `n` coefficients `±1` and zeros otherwise is at most `n` times the norm of the other factor. -/
theorem negaMul_bnd (c s : Poly) (B : Int) (hc : ∀ j, c j = 0 ∨ c j = 1 ∨ c j = -1) (hs : Bnd B s) (k : Fin 256) :
    -(((supp c).card : Int) * B) ≤ negaMul c s k ∧ negaMul c s k ≤ ((supp c).card : Int) * B := by
  rw [← abs_le]
  have hB : 0 ≤ B := by have := hs 0; omega
  unfold negaMul
  have inner : ∀ i, |∑ j : Fin 256, if i.1 + j.1 = k.1 then c i * s j else if i.1 + j.1 = k.1 + 256 then -(c i * s j) else 0| ≤ |c i| * B := by
    intro i
    -- at most one j contributes
    have one : ∃ j0 : Fin 256, ∀ j, j ≠ j0 → ((if i.1 + j.1 = k.1 then c i * s j else if i.1 + j.1 = k.1 + 256 then -(c i * s j) else 0) = 0) := by
      by_cases h : i.1 ≤ k.1
      · refine ⟨⟨k.1 - i.1, by omega⟩, fun j hj => ?_⟩
        rw [if_neg (fun e => hj (Fin.ext (by simp only; omega))), if_neg (by omega)]
      · refine ⟨⟨k.1 + 256 - i.1, by omega⟩, fun j hj => ?_⟩
        rw [if_neg (by omega), if_neg (fun e => hj (Fin.ext (by simp only; omega)))]
    obtain ⟨j0, h0⟩ := one
    rw [Finset.sum_eq_single j0 (fun j _ hj => h0 j hj) (fun h => absurd (Finset.mem_univ _) h)]
    have hsj : |s j0| ≤ B := abs_le.2 (hs j0)
    have hp : |c i * s j0| ≤ |c i| * B := by rw [abs_mul]; exact mul_le_mul_of_nonneg_left hsj (abs_nonneg _)
    split
    · exact hp
    · split
      · rw [abs_neg]; exact hp
      · rw [abs_zero]; exact mul_nonneg (abs_nonneg _) hB
  refine (Finset.abs_sum_le_sum_abs _ _).trans ?_
  refine (Finset.sum_le_sum fun i _ => inner i).trans ?_
  rw [← Finset.sum_mul]
  apply mul_le_mul_of_nonneg_right _ hB
  unfold supp
  rw [Finset.card_filter]
  push_cast
  refine Finset.sum_le_sum fun i _ => ?_
  rcases hc i with h | h | h <;> simp [h]

/-- `reduce32` returns the small representative when there is one. -/
theorem reduce32_center (x s : Int) (hd : Q ∣ x - s) (hs : -4000000 ≤ s ∧ s ≤ 4000000) (hx : -(Q + 1000000) ≤ x ∧ x ≤ Q + 1000000) : reduce32 C x = s := by
  obtain ⟨t, ht⟩ := hd
  simp only [Q] at *
  obtain ⟨u, hu, -, -, hue⟩ := reduce32_spec (C := C) x (by omega) (by omega)
  simp only [Q] at hu
  have : t = -1 ∨ t = 0 ∨ t = 1 := by omega
  rcases this with rfl | rfl | rfl
  · have : u = -1 := by omega
    subst this; omega
  · have : u = 0 := by omega
    subst this; omega
  · have : u = 1 := by omega
    subst this; omega

theorem dvd_of_res {a b : Poly} (h : res a = res b) (i : Fin 256) : Q ∣ a i - b i := by
  have e := congrFun h i
  simp only [res] at e
  have := (ZMod.intCast_eq_intCast_iff_dvd_sub _ _ 8380417).1 e.symm
  exact_mod_cast this

theorem res_negaMul (a b : Poly) : res (negaMul a b) = negaMul (res a) (res b) := by
  funext i
  exact map_negaMul (Int.castRingHom F) a b i

/-- The C code's product of challenge and secret, as a residue. -/
theorem chal_mul_res {cp : Poly} {s : Vec} {B : Int} (hc : Bnd 1 cp) (hs : ∀ k, Bnd B (s k)) (hB0 : 0 ≤ B) (hB : B ≤ 9000000) (k : Fin 4) :
    res (vecInvntt C (vecPointwisePoly C (polyNtt C cp) (vecNtt C s)) k) = res (negaMul cp (s k)) := by
  apply fNtt_inj
  rw [(chal_mul (C := C) hc hs hB0 hB k).1, res_negaMul, fNtt_mul]
  rfl

theorem chal_bnd {c : Poly} (hc : ∀ j, c j = 0 ∨ c j = 1 ∨ c j = -1) : Bnd 1 c := fun i => by rcases hc i with h | h | h <;> omega

end Verif.Dilithium
