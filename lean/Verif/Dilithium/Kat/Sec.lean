import Verif.Dilithium.Kat.Data

/-!
# A key pair and signatures of Dilithium2: seeds and secret vectors

Generated by tools/gen_kat.py.
-/

namespace Verif.Dilithium.Kat
open Verif.Dilithium Verif.Dilithium.Eval
open Verif.Props (someOob fipsShake)

set_option maxRecDepth 100000
set_option Elab.async false

theorem seed : Keccak.shake256 someOob 128 coins = some (rho ++ rhop ++ key) := by rw [shake256_eval]; decide +kernel
theorem s10_eq : (Keccak.shake256 someOob 272 (rhop ++ nonceBytes 0)).map Eval.etaOf = some s10 := by rw [shake256_eval]; decide +kernel
theorem s20_eq : (Keccak.shake256 someOob 272 (rhop ++ nonceBytes 4)).map Eval.etaOf = some s20 := by rw [shake256_eval]; decide +kernel
theorem s11_eq : (Keccak.shake256 someOob 272 (rhop ++ nonceBytes 1)).map Eval.etaOf = some s11 := by rw [shake256_eval]; decide +kernel
theorem s21_eq : (Keccak.shake256 someOob 272 (rhop ++ nonceBytes 5)).map Eval.etaOf = some s21 := by rw [shake256_eval]; decide +kernel
theorem s12_eq : (Keccak.shake256 someOob 272 (rhop ++ nonceBytes 2)).map Eval.etaOf = some s12 := by rw [shake256_eval]; decide +kernel
theorem s22_eq : (Keccak.shake256 someOob 272 (rhop ++ nonceBytes 6)).map Eval.etaOf = some s22 := by rw [shake256_eval]; decide +kernel
theorem s13_eq : (Keccak.shake256 someOob 272 (rhop ++ nonceBytes 3)).map Eval.etaOf = some s13 := by rw [shake256_eval]; decide +kernel
theorem s23_eq : (Keccak.shake256 someOob 272 (rhop ++ nonceBytes 7)).map Eval.etaOf = some s23 := by rw [shake256_eval]; decide +kernel

end Verif.Dilithium.Kat
