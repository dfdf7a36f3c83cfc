import Verif.Dilithium.Kat.Data

/-!
# A key pair and signatures of Dilithium2: row 3 of the matrix

Generated by tools/gen_kat.py.
-/

namespace Verif.Dilithium.Kat
open Verif.Dilithium Verif.Dilithium.Eval
open Verif.Props (someOob fipsShake)

set_option maxRecDepth 100000
set_option Elab.async false

theorem mat30 : (Keccak.shake128 someOob 840 (rho ++ nonceBytes 768)).map (rejUniform 256) = some m30 := by rw [shake128_eval]; decide +kernel
theorem mat31 : (Keccak.shake128 someOob 840 (rho ++ nonceBytes 769)).map (rejUniform 256) = some m31 := by rw [shake128_eval]; decide +kernel
theorem mat32 : (Keccak.shake128 someOob 840 (rho ++ nonceBytes 770)).map (rejUniform 256) = some m32 := by rw [shake128_eval]; decide +kernel
theorem mat33 : (Keccak.shake128 someOob 840 (rho ++ nonceBytes 771)).map (rejUniform 256) = some m33 := by rw [shake128_eval]; decide +kernel

end Verif.Dilithium.Kat
