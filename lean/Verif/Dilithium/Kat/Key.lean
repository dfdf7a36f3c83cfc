import Verif.Dilithium.Kat.Data

/-!
# A key pair and signatures of Dilithium2: the key pair

Generated by tools/gen_kat.py.
-/

namespace Verif.Dilithium.Kat
open Verif.Dilithium Verif.Dilithium.Eval
open Verif.Props (someOob fipsShake)

set_option maxRecDepth 100000
set_option Elab.async false

theorem s1h0_eq : nt8 s10 = s1h0 := by decide +kernel
theorem s2h0_eq : nt8 s20 = s2h0 := by decide +kernel
theorem t0h0_eq : nt8 t00 = t0h0 := by decide +kernel
theorem s1h1_eq : nt8 s11 = s1h1 := by decide +kernel
theorem s2h1_eq : nt8 s21 = s2h1 := by decide +kernel
theorem t0h1_eq : nt8 t01 = t0h1 := by decide +kernel
theorem s1h2_eq : nt8 s12 = s1h2 := by decide +kernel
theorem s2h2_eq : nt8 s22 = s2h2 := by decide +kernel
theorem t0h2_eq : nt8 t02 = t0h2 := by decide +kernel
theorem s1h3_eq : nt8 s13 = s1h3 := by decide +kernel
theorem s2h3_eq : nt8 s23 = s2h3 := by decide +kernel
theorem t0h3_eq : nt8 t03 = t0h3 := by decide +kernel
theorem t0_eq : nt8 t0 = ad (dot (K.mat 0) K.s1h) (nt8 s20) := by decide +kernel
theorem rt0 : ∀ x ∈ t0, 0 ≤ x ∧ x < 8380417 := by decide +kernel
theorem t10_eq : (t0).map (fun x => (Spec.power2Round x).1) = t10 := by decide +kernel
theorem t00_eq : (t0).map (fun x => (Spec.power2Round x).2) = t00 := by decide +kernel
theorem t1_eq : nt8 t1 = ad (dot (K.mat 1) K.s1h) (nt8 s21) := by decide +kernel
theorem rt1 : ∀ x ∈ t1, 0 ≤ x ∧ x < 8380417 := by decide +kernel
theorem t11_eq : (t1).map (fun x => (Spec.power2Round x).1) = t11 := by decide +kernel
theorem t01_eq : (t1).map (fun x => (Spec.power2Round x).2) = t01 := by decide +kernel
theorem t2_eq : nt8 t2 = ad (dot (K.mat 2) K.s1h) (nt8 s22) := by decide +kernel
theorem rt2 : ∀ x ∈ t2, 0 ≤ x ∧ x < 8380417 := by decide +kernel
theorem t12_eq : (t2).map (fun x => (Spec.power2Round x).1) = t12 := by decide +kernel
theorem t02_eq : (t2).map (fun x => (Spec.power2Round x).2) = t02 := by decide +kernel
theorem t3_eq : nt8 t3 = ad (dot (K.mat 3) K.s1h) (nt8 s23) := by decide +kernel
theorem rt3 : ∀ x ∈ t3, 0 ≤ x ∧ x < 8380417 := by decide +kernel
theorem t13_eq : (t3).map (fun x => (Spec.power2Round x).1) = t13 := by decide +kernel
theorem t03_eq : (t3).map (fun x => (Spec.power2Round x).2) = t03 := by decide +kernel
theorem pk_eq : packPk rho (dv ![t10N, t11N, t12N, t13N]) = pk := by decide +kernel
theorem tr_eq : Keccak.shake256 someOob 64 pk = some tr := by rw [shake256_eval]; decide +kernel
theorem sk_eq : packSk wrapSem { rho := rho, tr := tr, key := key, t0 := dv ![t00N, t01N, t02N, t03N], s1 := dv ![s10N, s11N, s12N, s13N], s2 := dv ![s20N, s21N, s22N, s23N] } = sk := by decide +kernel
theorem sk_fields : packSk wrapSem K.sk = sk := by
  rw [← sk_eq]
  unfold KeyData.sk
  rw [vl_unp K.t0 ![t00N, t01N, t02N, t03N] (fun k => by match k with | 0 | 1 | 2 | 3 => rfl), vl_unp K.s1 ![s10N, s11N, s12N, s13N] (fun k => by match k with | 0 | 1 | 2 | 3 => rfl), vl_unp K.s2 ![s20N, s21N, s22N, s23N] (fun k => by match k with | 0 | 1 | 2 | 3 => rfl)]
  rfl

end Verif.Dilithium.Kat
