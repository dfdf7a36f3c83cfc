import Verif.Latke.Ibke.SigmaR
import Verif.Latke.Asym
import Verif.Dilithium.Wrapper

/-!
# The two arms of `IdSigmaSignatureScheme` (latke/src/ibke/id_sigma_r.rs:34-160, 290-335)
-/

namespace Verif.Latke
open Verif.Dilithium

/-- The `Ed25519` arm. The key coin is the signing key itself (`EdSecretKey::generate`). -/
def edScheme (G : Ed25519) : SigmaScheme where
  pkLen := 32
  sigLen := 64
  Sk := G.Sk
  Pk := G.Pk
  KeyCoins := G.Sk
  SignCoins := Unit
  keygen sk := (G.pkOf sk, sk)
  sign _ sk m := G.sign sk m
  verify pk m s := G.verify pk m s
  pkToBytes pk := G.pkToBytes pk
  pkFromBytes b := G.pkFromBytes b

/-- The `Dilithium2` arm, over the model of `pqcrypto-dilithium`. Where the C code would not terminate the model returns zeroed values and a negative
answer; theorems that need termination assume it. `IdSigmaSignature::to_bytes`/`from_bytes` (id_sigma_r.rs:122-141) are only
applied to signatures of 2420 bytes. -/
def dilithiumScheme (C : CSem) (H : Shake) : SigmaScheme where
  pkLen := Rust.publicKeyBytes
  sigLen := Rust.signatureBytes
  Sk := Rust.SecretKey
  Pk := Rust.PublicKey
  KeyCoins := ByteArr 32
  SignCoins := Unit
  keygen coins := (Rust.keypairDet C H coins).getD (⟨.rep PKLEN 0⟩, ⟨.rep SKLEN 0⟩)
  sign _ sk m := ((Rust.detachedSign C H m sk).map (·.arr)).getD (.rep SIGLEN 0)
  verify pk m s := match Rust.verifyDetachedSignature C H ⟨s, SIGLEN⟩ m pk with
    | some (.ok _) => true
    | _ => false
  pkToBytes pk := pk.arr
  pkFromBytes b := some ⟨b⟩

end Verif.Latke
