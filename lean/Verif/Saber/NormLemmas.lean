import Verif.Saber.DecLemmas

/-! Worst-case bound on the rounding noise in terms of the secrets' ℓ₁ norms. -/

namespace Verif.Saber

open Finset

/-- Sum of the absolute values of all coefficients. -/
def l1 {K : Nat} (v : Fin K → Fin 256 → ℤ) : ℤ := ∑ k, ∑ i, |v k i|

theorem abs_negaMul_le (a b : Fin 256 → ℤ) (M : ℤ) (hM : 0 ≤ M) (ha : ∀ i, |a i| ≤ M) (k : Fin 256) :
    |negaMul a b k| ≤ M * ∑ j, |b j| := by
  unfold negaMul
  rw [Finset.sum_comm, Finset.mul_sum]
  refine le_trans (Finset.abs_sum_le_sum_abs _ _) (Finset.sum_le_sum fun j _ => ?_)
  have hlt : (k.1 + 256 - j.1) % 256 < 256 := Nat.mod_lt _ (by omega)
  rw [Finset.sum_eq_single (⟨(k.1 + 256 - j.1) % 256, hlt⟩ : Fin 256)]
  · have hb : |a ⟨(k.1 + 256 - j.1) % 256, hlt⟩ * b j| ≤ M * |b j| := by
      rw [abs_mul]; exact mul_le_mul_of_nonneg_right (ha _) (abs_nonneg _)
    split
    · exact hb
    · split
      · rw [abs_neg]; exact hb
      · simpa using mul_nonneg hM (abs_nonneg (b j))
  · intro i _ hi
    have h1 : i.1 + j.1 ≠ k.1 := by
      intro e; apply hi; apply Fin.ext; have := i.2; dsimp only; omega
    have h2 : i.1 + j.1 ≠ k.1 + 256 := by
      intro e; apply hi; apply Fin.ext; have := i.2; dsimp only; omega
    rw [if_neg h1, if_neg h2]
  · simp

theorem abs_inner_le {K : Nat} (u v : Fin K → Fin 256 → ℤ) (M : ℤ) (hM : 0 ≤ M) (hu : ∀ k i, |u k i| ≤ M) (i : Fin 256) :
    |inner u v i| ≤ M * l1 v := by
  unfold inner l1
  rw [Finset.sum_apply, Finset.mul_sum]
  exact le_trans (Finset.abs_sum_le_sum_abs _ _) (Finset.sum_le_sum fun k _ => abs_negaMul_le _ _ M hM (hu k) i)

theorem abs_noise_le {K : Nat} (A : Mat K) (s t : Vec K) (i : Fin 256) : |noise A s t i| ≤ 4 * (l1 (toZ s) + l1 (toZ t)) := by
  have hr : ∀ x : U16, |roundErr x| ≤ 4 := fun x => by
    have := roundErr_bounds x
    exact abs_le.2 ⟨by omega, by omega⟩
  unfold noise
  rw [Pi.sub_apply]
  have h1 := abs_inner_le (fun k i => roundErr (matVec A s k i)) (toZ t) 4 (by omega) (fun _ _ => hr _) i
  have h2 := abs_inner_le (fun k i => roundErr (matVec (transpose A) t k i)) (toZ s) 4 (by omega) (fun _ _ => hr _) i
  have h3 := abs_sub (inner (fun k i => roundErr (matVec A s k i)) (toZ t) i) (inner (fun k i => roundErr (matVec (transpose A) t k i)) (toZ s) i)
  omega

end Verif.Saber
