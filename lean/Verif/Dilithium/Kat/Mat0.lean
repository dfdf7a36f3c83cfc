import Verif.Dilithium.Kat.Data

/-!
# A key pair and signatures of Dilithium2: row 0 of the matrix

Generated by tools/gen_kat.py.
-/

namespace Verif.Dilithium.Kat
open Verif.Dilithium Verif.Dilithium.Eval
open Verif.Props (someOob fipsShake)

set_option maxRecDepth 100000
set_option Elab.async false

theorem mat00 : (Keccak.shake128 someOob 840 (rho ++ nonceBytes 0)).map (rejUniform 256) = some m00 := by rw [shake128_eval]; decide +kernel
theorem mat01 : (Keccak.shake128 someOob 840 (rho ++ nonceBytes 1)).map (rejUniform 256) = some m01 := by rw [shake128_eval]; decide +kernel
theorem mat02 : (Keccak.shake128 someOob 840 (rho ++ nonceBytes 2)).map (rejUniform 256) = some m02 := by rw [shake128_eval]; decide +kernel
theorem mat03 : (Keccak.shake128 someOob 840 (rho ++ nonceBytes 3)).map (rejUniform 256) = some m03 := by rw [shake128_eval]; decide +kernel

end Verif.Dilithium.Kat
