import Mathlib.RingTheory.AdjoinRoot
import Mathlib.Algebra.BigOperators.Fin
import Mathlib.Tactic.Ring

/-!
# Negacyclic convolution: the multiplication of `R[X]/(X^n + 1)`

A small specification independent of any code: a polynomial of degree `< n` is its coefficient function; `negaMul` is
the textbook product formula, and `toQuot` sends coefficients to the quotient ring, where `negaMul` is shown to be the
product.
-/

namespace Verif

open Finset Polynomial

variable {R : Type*} [CommRing R] {n : Nat}

/-- Coefficients of the product modulo `X^n + 1`: `c_k = Σ_{i+j=k} a_i b_j - Σ_{i+j=k+n} a_i b_j`. -/
def negaMul (a b : Fin n → R) : Fin n → R := fun k =>
  ∑ i, ∑ j, if i.1 + j.1 = k.1 then a i * b j else if i.1 + j.1 = k.1 + n then -(a i * b j) else 0

/-- `Σ a_i x^i` in an `R`-algebra. -/
def evalAt {S : Type*} [CommRing S] [Algebra R S] (x : S) (a : Fin n → R) : S :=
  ∑ i, algebraMap R S (a i) * x ^ i.1

/-- The class of a coefficient vector in `R[X]/(X^n+1)`. -/
noncomputable def toQuot (a : Fin n → R) : AdjoinRoot (X ^ n + 1 : R[X]) :=
  AdjoinRoot.mk _ (∑ i, C (a i) * X ^ i.1)

/-- At any `x` with `x^n = -1`, the negacyclic product evaluates to the product of the evaluations. -/
theorem evalAt_negaMul {S : Type*} [CommRing S] [Algebra R S] (x : S) (hx : x ^ n = -1) (a b : Fin n → R) :
    evalAt x (negaMul a b) = evalAt x a * evalAt x b := by
  have hinner : ∀ i j : Fin n,
      (∑ k : Fin n, algebraMap R S (if i.1 + j.1 = k.1 then a i * b j else if i.1 + j.1 = k.1 + n then -(a i * b j) else 0) * x ^ k.1)
        = algebraMap R S (a i) * algebraMap R S (b j) * x ^ (i.1 + j.1) := by
    intro i j
    by_cases h : i.1 + j.1 < n
    · rw [Finset.sum_eq_single (⟨i.1 + j.1, h⟩ : Fin n)]
      · simp
      · intro k _ hk
        have h1 : i.1 + j.1 ≠ k.1 := fun e => hk (Fin.ext e.symm)
        have h2 : i.1 + j.1 ≠ k.1 + n := by omega
        simp [h1, h2]
      · simp
    · have hlt : i.1 + j.1 - n < n := by have := i.2; have := j.2; omega
      rw [Finset.sum_eq_single (⟨i.1 + j.1 - n, hlt⟩ : Fin n)]
      · have h1 : i.1 + j.1 ≠ i.1 + j.1 - n := by have := i.2; omega
        have h2 : i.1 + j.1 = i.1 + j.1 - n + n := by omega
        simp only [h1, if_false, ← h2, if_true]
        rw [show x ^ (i.1 + j.1) = x ^ (i.1 + j.1 - n) * x ^ n by rw [← pow_add, ← h2], hx]
        simp
      · intro k _ hk
        have h1 : i.1 + j.1 ≠ k.1 := by have := k.2; omega
        have h2 : i.1 + j.1 ≠ k.1 + n := by
          intro e; apply hk; apply Fin.ext; show k.1 = i.1 + j.1 - n; omega
        simp [h1, h2]
      · simp
  unfold evalAt negaMul
  simp only [map_sum, Finset.sum_mul]
  rw [Finset.sum_comm]
  refine Finset.sum_congr rfl fun i _ => ?_
  rw [Finset.sum_comm, Finset.mul_sum]
  refine Finset.sum_congr rfl fun j _ => ?_
  rw [hinner, pow_add]
  ring

theorem toQuot_eq (a : Fin n → R) : toQuot a = evalAt (AdjoinRoot.root (X ^ n + 1 : R[X])) a := by
  unfold toQuot evalAt
  simp [map_sum, AdjoinRoot.algebraMap_eq]

/-- `negaMul` is multiplication in `R[X]/(X^n+1)`. -/
theorem toQuot_negaMul (a b : Fin n → R) : toQuot (negaMul a b) = toQuot a * toQuot b := by
  simp only [toQuot_eq]
  apply evalAt_negaMul
  have h := AdjoinRoot.eval₂_root (X ^ n + 1 : R[X])
  simp only [eval₂_add, eval₂_pow, eval₂_X, eval₂_one] at h
  exact eq_neg_of_add_eq_zero_left h

theorem toQuot_add (a b : Fin n → R) : toQuot (a + b) = toQuot a + toQuot b := by
  unfold toQuot
  rw [← map_add, ← Finset.sum_add_distrib]
  congr 2; funext i; simp [add_mul]

theorem toQuot_zero : toQuot (0 : Fin n → R) = 0 := by simp [toQuot]

theorem toQuot_sum {ι : Type*} (s : Finset ι) (f : ι → Fin n → R) : toQuot (∑ k ∈ s, f k) = ∑ k ∈ s, toQuot (f k) := by
  classical
  induction s using Finset.induction_on with
  | empty => simp [toQuot_zero]
  | insert k s hk ih => rw [Finset.sum_insert hk, Finset.sum_insert hk, toQuot_add, ih]

/-- Distinct coefficient vectors are distinct elements of the quotient. -/
theorem toQuot_injective (hn : 0 < n) : Function.Injective (toQuot : (Fin n → R) → _) := by
  nontriviality R
  intro a b h
  unfold toQuot at h
  rw [AdjoinRoot.mk_eq_mk, ← Finset.sum_sub_distrib] at h
  have hm : (X ^ n + 1 : R[X]).Monic := by
    have := monic_X_pow_add_C (1 : R) (n := n) (by omega)
    simpa using this
  have hdeg : (X ^ n + 1 : R[X]).degree = n := by
    have := degree_X_pow_add_C (n := n) hn (1 : R)
    simpa using this
  have hz : (∑ i : Fin n, (C (a i) * X ^ i.1 - C (b i) * X ^ i.1)) = 0 := by
    by_contra hne
    refine hm.not_dvd_of_degree_lt hne ?_ h
    rw [hdeg]
    refine lt_of_le_of_lt (degree_sum_le _ _) ?_
    rw [Finset.sup_lt_iff (by exact WithBot.bot_lt_coe n)]
    intro i _
    rw [← sub_mul, ← C_sub]
    exact lt_of_le_of_lt (degree_C_mul_X_pow_le _ _) (by exact_mod_cast i.2)
  funext i
  have hc := congrArg (fun p => coeff p i.1) hz
  simp only [finset_sum_coeff, coeff_sub, coeff_C_mul, coeff_X_pow, coeff_zero] at hc
  rw [Finset.sum_eq_single i] at hc
  · simpa [sub_eq_zero] using hc
  · intro j _ hj
    have : i.1 ≠ j.1 := fun e => hj (Fin.ext e.symm)
    simp [this]
  · simp

section laws
variable (hn : 0 < n)
include hn

theorem negaMul_comm (a b : Fin n → R) : negaMul a b = negaMul b a :=
  toQuot_injective hn (by rw [toQuot_negaMul, toQuot_negaMul, mul_comm])

theorem negaMul_assoc (a b c : Fin n → R) : negaMul (negaMul a b) c = negaMul a (negaMul b c) :=
  toQuot_injective hn (by simp only [toQuot_negaMul, mul_assoc])

theorem negaMul_add (a b c : Fin n → R) : negaMul a (b + c) = negaMul a b + negaMul a c :=
  toQuot_injective hn (by simp only [toQuot_negaMul, toQuot_add, mul_add])

theorem add_negaMul (a b c : Fin n → R) : negaMul (a + b) c = negaMul a c + negaMul b c :=
  toQuot_injective hn (by simp only [toQuot_negaMul, toQuot_add, add_mul])

end laws

/-- Ring homomorphisms commute with the product. -/
theorem map_negaMul {S : Type*} [CommRing S] (f : R →+* S) (a b : Fin n → R) (k : Fin n) :
    f (negaMul a b k) = negaMul (fun i => f (a i)) (fun i => f (b i)) k := by
  unfold negaMul
  simp only [map_sum]
  refine Finset.sum_congr rfl fun i _ => Finset.sum_congr rfl fun j _ => ?_
  split
  · simp
  · split <;> simp

end Verif
