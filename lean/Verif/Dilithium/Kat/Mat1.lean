import Verif.Dilithium.Kat.Data

/-!
# A key pair and signatures of Dilithium2: row 1 of the matrix

Generated by tools/gen_kat.py.
-/

namespace Verif.Dilithium.Kat
open Verif.Dilithium Verif.Dilithium.Eval
open Verif.Props (someOob fipsShake)

set_option maxRecDepth 100000
set_option Elab.async false

theorem mat10 : (Keccak.shake128 someOob 840 (rho ++ nonceBytes 256)).map (rejUniform 256) = some m10 := by rw [shake128_eval]; decide +kernel
theorem mat11 : (Keccak.shake128 someOob 840 (rho ++ nonceBytes 257)).map (rejUniform 256) = some m11 := by rw [shake128_eval]; decide +kernel
theorem mat12 : (Keccak.shake128 someOob 840 (rho ++ nonceBytes 258)).map (rejUniform 256) = some m12 := by rw [shake128_eval]; decide +kernel
theorem mat13 : (Keccak.shake128 someOob 840 (rho ++ nonceBytes 259)).map (rejUniform 256) = some m13 := by rw [shake128_eval]; decide +kernel

end Verif.Dilithium.Kat
