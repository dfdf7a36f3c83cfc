import Verif.Dilithium.Kat.Pair
import Verif.Dilithium.Kat.S0
import Verif.Dilithium.Kat.S1
import Verif.Dilithium.Kat.S2
import Verif.Dilithium.Kat.S3
import Verif.Dilithium.Kat.S4

/-!
# A key pair and signatures of Dilithium2: the results

Generated by tools/gen_kat.py.
-/

namespace Verif.Dilithium.Kat
open Verif.Dilithium Verif.Dilithium.Eval
open Verif.Props (someOob fipsShake)

set_option maxRecDepth 100000
set_option Elab.async false

/-- The signatures. -/
theorem signatures :
    signature wrapSem fipsShake msg0 sk = some sig0 ∧
    signature wrapSem fipsShake msg1 sk = some sig1 ∧
    signature wrapSem fipsShake msg2 sk = some sig2 ∧
    signature wrapSem fipsShake msg3 sk = some sig3 ∧
    signature wrapSem fipsShake msg4 sk = some sig4 :=
  ⟨S0.signs coins K_ok, S1.signs coins K_ok, S2.signs coins K_ok, S3.signs coins K_ok, S4.signs coins K_ok⟩

end Verif.Dilithium.Kat
