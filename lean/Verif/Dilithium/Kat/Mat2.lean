import Verif.Dilithium.Kat.Data

/-!
# A key pair and signatures of Dilithium2: row 2 of the matrix

Generated by tools/gen_kat.py.
-/

namespace Verif.Dilithium.Kat
open Verif.Dilithium Verif.Dilithium.Eval
open Verif.Props (someOob fipsShake)

set_option maxRecDepth 100000
set_option Elab.async false

theorem mat20 : (Keccak.shake128 someOob 840 (rho ++ nonceBytes 512)).map (rejUniform 256) = some m20 := by rw [shake128_eval]; decide +kernel
theorem mat21 : (Keccak.shake128 someOob 840 (rho ++ nonceBytes 513)).map (rejUniform 256) = some m21 := by rw [shake128_eval]; decide +kernel
theorem mat22 : (Keccak.shake128 someOob 840 (rho ++ nonceBytes 514)).map (rejUniform 256) = some m22 := by rw [shake128_eval]; decide +kernel
theorem mat23 : (Keccak.shake128 someOob 840 (rho ++ nonceBytes 515)).map (rejUniform 256) = some m23 := by rw [shake128_eval]; decide +kernel

end Verif.Dilithium.Kat
