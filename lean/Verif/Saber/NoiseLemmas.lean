import Verif.Saber.CpaLemmas

/-! The decryption error of a Saber encryption is its rounding noise. -/

namespace Verif.Saber

open Finset Poly

theorem negaMul_smul {R : Type} [CommRing R] (c : R) (u v : Fin 256 → R) (i : Fin 256) :
    negaMul (fun j => c * u j) v i = c * negaMul u v i := by
  unfold negaMul
  simp only [Finset.mul_sum]
  refine Finset.sum_congr rfl fun a _ => Finset.sum_congr rfl fun b _ => ?_
  split
  · ring
  · split
    · ring
    · ring

theorem inner_smul {R : Type} [CommRing R] {K : Nat} (c : R) (u v : Fin K → Fin 256 → R) (i : Fin 256) :
    inner (fun k j => c * u k j) v i = c * inner u v i := by
  unfold inner
  simp only [Finset.sum_apply, negaMul_smul, Finset.mul_sum]

theorem inner_add_left {R : Type} [CommRing R] {K : Nat} (u w v : Fin K → Fin 256 → R) (i : Fin 256) :
    inner (fun k j => u k j + w k j) v i = inner u v i + inner w v i := by
  unfold inner
  simp only [Finset.sum_apply, ← Finset.sum_add_distrib]
  refine Finset.sum_congr rfl fun k _ => ?_
  have := congrFun (add_negaMul (n := 256) (by omega) (u k) (w k) (v k)) i
  exact this

theorem roundErr_bounds (x : U16) : -3 ≤ roundErr x ∧ roundErr x ≤ 4 := by
  unfold roundErr
  omega

theorem d8192 : 8192 ∣ 65536 := by decide

theorem round_red (x : U16) : 8 * red 8192 d8192 ((x + 4) >>> 3) = red 8192 d8192 x + ((roundErr x : ℤ) : ZMod 8192) := by
  have hx := x.isLt
  have key : ((8 * ((x + 4) >>> 3).toNat : ℤ) - (x.toNat + roundErr x)) % 8192 = 0 := by
    rw [BitVec.toNat_ushiftRight, BitVec.toNat_add, Nat.shiftRight_eq_div_pow]
    unfold roundErr
    have : (4 : U16).toNat = 4 := rfl
    omega
  have h2 : (((8 * ((x + 4) >>> 3).toNat : ℤ) - (x.toNat + roundErr x) : ℤ) : ZMod 8192) = 0 := by
    rw [ZMod.intCast_zmod_eq_zero_iff_dvd]
    exact Int.dvd_of_emod_eq_zero key
  rw [red_apply, red_apply]
  push_cast at h2
  linear_combination h2

theorem mod1024_red (x : U16) : 8 * red 8192 d8192 (x &&& 0x3FF) = 8 * red 8192 d8192 x := by
  have key : ((8 * (x &&& 0x3FF).toNat : ℤ) - 8 * x.toNat) % 8192 = 0 := by
    rw [toNat_and_1023]; omega
  have h2 : (((8 * (x &&& 0x3FF).toNat : ℤ) - 8 * x.toNat : ℤ) : ZMod 8192) = 0 := by
    rw [ZMod.intCast_zmod_eq_zero_iff_dvd]
    exact Int.dvd_of_emod_eq_zero key
  rw [red_apply, red_apply]
  push_cast at h2
  linear_combination h2

/-- The rounded product `(A s + 4) >> 3`. -/
def rounded {K : Nat} (x : Vec K) : Vec K := (x.addU16 4).shr 3

theorem inner_rounded {K : Nat} (x t w : Vec K) (hw : ∀ k i, 8 * red 8192 d8192 (w k i) = 8 * red 8192 d8192 (rounded x k i)) (i : Fin 256) :
    8 * red 8192 d8192 (inner w t i) = red 8192 d8192 (inner x t i)
      + ((inner (fun k j => roundErr (x k j)) (toZ t) i : ℤ) : ZMod 8192) := by
  rw [red_inner, ← inner_smul, red_inner, cast_inner]
  have h1 : (fun k j => 8 * red 8192 d8192 (w k j)) = fun k j => red 8192 d8192 (x k j) + ((roundErr (x k j) : ℤ) : ZMod 8192) := by
    funext k j
    rw [hw]
    exact round_red (x k j)
  have h2 : (fun k i => ((toZ t k i : ℤ) : ZMod 8192)) = fun k i => red 8192 d8192 (t k i) := by
    funext k j; exact (red_toInt d8192 _).symm
  rw [h1, h2, inner_add_left]

/-- The difference of the two parties' products is the rounding noise divided by 8, modulo 1024. -/
theorem noise_eq {K : Nat} (A : Mat K) (s t : Vec K) (w : Vec K) (hw : ∀ k i, (w k i).toNat % 1024 = (rounded (matVec (transpose A) t) k i).toNat % 1024)
    (u : Vec K) (hu : ∀ k i, (u k i).toNat % 1024 = (rounded (matVec A s) k i).toNat % 1024) (i : Fin 256) :
    ∃ e : ℤ, noise A s t i = 8 * e ∧ (((inner u t i).toNat : ℤ) - (inner w s i).toNat - e) % 1024 = 0 := by
  have tr : ∀ {x y : U16}, x.toNat % 1024 = y.toNat % 1024 → 8 * red 8192 d8192 x = 8 * red 8192 d8192 y := by
    intro x y h
    rw [← mod1024_red x, ← mod1024_red y, and_1023_congr h]
  have h1 := inner_rounded (matVec A s) t u (fun k j => tr (hu k j)) i
  have h2 := inner_rounded (matVec (transpose A) t) s w (fun k j => tr (hw k j)) i
  have h3 : inner (matVec A s) t = inner (matVec (transpose A) t) s := inner_matVec A s t
  have h4 : 8 * red 8192 d8192 (inner u t i) - 8 * red 8192 d8192 (inner w s i) = ((noise A s t i : ℤ) : ZMod 8192) := by
    rw [h1, h2, h3]
    unfold noise
    rw [Pi.sub_apply, Int.cast_sub]
    ring
  rw [red_apply, red_apply] at h4
  have h5 : ((8 * ((inner u t i).toNat : ℤ) - 8 * (inner w s i).toNat - noise A s t i : ℤ) : ZMod 8192) = 0 := by
    push_cast
    rw [h4]; ring
  rw [ZMod.intCast_zmod_eq_zero_iff_dvd] at h5
  have h6 := Int.emod_eq_zero_of_dvd h5
  push_cast at h6
  refine ⟨noise A s t i / 8, by omega, by omega⟩

end Verif.Saber
