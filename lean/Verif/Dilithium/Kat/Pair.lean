import Verif.Dilithium.Kat.Mat0
import Verif.Dilithium.Kat.Mat1
import Verif.Dilithium.Kat.Mat2
import Verif.Dilithium.Kat.Mat3
import Verif.Dilithium.Kat.Sec
import Verif.Dilithium.Kat.Key

/-!
# A key pair and signatures of Dilithium2: key generation

Generated by tools/gen_kat.py.
-/

namespace Verif.Dilithium.Kat
open Verif.Dilithium Verif.Dilithium.Eval
open Verif.Props (someOob fipsShake)

set_option maxRecDepth 100000
set_option Elab.async false

theorem K_ok : K.Ok coins where
  lc := unb_len _ _
  seed := digest256 someOob _ _ _ seed
  lrho := unb_len _ _
  lrhop := unb_len _ _
  lkey := unb_len _ _
  lmat i j := by match i with | 0 | 1 | 2 | 3 => (match j with | 0 | 1 | 2 | 3 => exact unp_len _ _)
  mat i j := by
    match i with
    | 0 =>
      match j with
      | 0 => exact uniform_of someOob rho 0 m00 mat00 (unp_len _ _)
      | 1 => exact uniform_of someOob rho 1 m01 mat01 (unp_len _ _)
      | 2 => exact uniform_of someOob rho 2 m02 mat02 (unp_len _ _)
      | 3 => exact uniform_of someOob rho 3 m03 mat03 (unp_len _ _)
    | 1 =>
      match j with
      | 0 => exact uniform_of someOob rho 256 m10 mat10 (unp_len _ _)
      | 1 => exact uniform_of someOob rho 257 m11 mat11 (unp_len _ _)
      | 2 => exact uniform_of someOob rho 258 m12 mat12 (unp_len _ _)
      | 3 => exact uniform_of someOob rho 259 m13 mat13 (unp_len _ _)
    | 2 =>
      match j with
      | 0 => exact uniform_of someOob rho 512 m20 mat20 (unp_len _ _)
      | 1 => exact uniform_of someOob rho 513 m21 mat21 (unp_len _ _)
      | 2 => exact uniform_of someOob rho 514 m22 mat22 (unp_len _ _)
      | 3 => exact uniform_of someOob rho 515 m23 mat23 (unp_len _ _)
    | 3 =>
      match j with
      | 0 => exact uniform_of someOob rho 768 m30 mat30 (unp_len _ _)
      | 1 => exact uniform_of someOob rho 769 m31 mat31 (unp_len _ _)
      | 2 => exact uniform_of someOob rho 770 m32 mat32 (unp_len _ _)
      | 3 => exact uniform_of someOob rho 771 m33 mat33 (unp_len _ _)
  s1 i := by
    match i with
    | 0 => exact eta_of someOob rhop 0 s10 s10_eq (unp_len _ _)
    | 1 => exact eta_of someOob rhop 1 s11 s11_eq (unp_len _ _)
    | 2 => exact eta_of someOob rhop 2 s12 s12_eq (unp_len _ _)
    | 3 => exact eta_of someOob rhop 3 s13 s13_eq (unp_len _ _)
  s2 i := by
    match i with
    | 0 => exact eta_of someOob rhop 4 s20 s20_eq (unp_len _ _)
    | 1 => exact eta_of someOob rhop 5 s21 s21_eq (unp_len _ _)
    | 2 => exact eta_of someOob rhop 6 s22 s22_eq (unp_len _ _)
    | 3 => exact eta_of someOob rhop 7 s23 s23_eq (unp_len _ _)
  ls1 k := by match k with | 0 | 1 | 2 | 3 => exact unp_len _ _
  ls2 k := by match k with | 0 | 1 | 2 | 3 => exact unp_len _ _
  lt k := by match k with | 0 | 1 | 2 | 3 => exact unp_len _ _
  s1h k := by match k with | 0 => exact s1h0_eq | 1 => exact s1h1_eq | 2 => exact s1h2_eq | 3 => exact s1h3_eq
  rt k := by match k with | 0 => exact rt0 | 1 => exact rt1 | 2 => exact rt2 | 3 => exact rt3
  t k := by match k with | 0 => exact t0_eq | 1 => exact t1_eq | 2 => exact t2_eq | 3 => exact t3_eq
  t1 k := by match k with | 0 => exact t10_eq | 1 => exact t11_eq | 2 => exact t12_eq | 3 => exact t13_eq
  t0 k := by match k with | 0 => exact t00_eq | 1 => exact t01_eq | 2 => exact t02_eq | 3 => exact t03_eq
  pk := by rw [vl_unp K.t1 ![t10N, t11N, t12N, t13N] (fun k => by match k with | 0 | 1 | 2 | 3 => rfl)]; exact pk_eq
  tr := digest256 someOob _ _ _ tr_eq

/-- Key generation on the coins of the test. -/
theorem kat_keypair : keypairDet wrapSem fipsShake coins = some (pk, sk) := by
  rw [keypair_of K_ok, sk_fields]
  rfl

end Verif.Dilithium.Kat
