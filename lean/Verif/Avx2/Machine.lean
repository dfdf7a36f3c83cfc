import Verif.Avx2.SignLinked
import Verif.Dilithium.Linked
import Verif.Dilithium.Wrapper

/-!
# pqcrypto-dilithium/src/dilithium2.rs as shipped on x86_64: the processor decides which C code runs

With the default features (pqcrypto-dilithium/Cargo.toml:22, latke/Cargo.toml:9) the crate is linked with both the portable and the AVX2 code, and every
call asks the processor.  Hash functions are those the C code is linked with: nothing is a parameter but the machine.
-/

namespace Verif.Dilithium.Rust
open Verif Verif.Keccak
open Verif.Avx2 (Junk SignJunk VerifyJunk)
open Verif.Avx2.Linked (KJ)

/-- The machine at a call: whether `is_x86_feature_detected!("avx2")` holds, what undefined behaviour does, and the contents of registers and
uninitialised memory when the AVX2 key generation, signing and verification start. -/
structure Env where
  avx2 : Bool
  C : CSem
  O : Oob
  kpK : Fin 2 → KJ
  kpK' : Fin 4 → KJ
  kpJ : Fin 8 → Junk
  kpJ' : Fin 4 → Fin 10 → Junk
  sgK : Fin 4 → KJ
  sgK' : Nat → KJ
  sgJ : SignJunk
  vfK : Fin 4 → KJ
  vfJ : VerifyJunk

variable (e : Env)

/-- `keypair_det` (dilithium2.rs:177-191): always the portable code. -/
def keypairDetOn (coins : ByteArr 32) : Option (PublicKey × SecretKey) := do
  let (pk, sk) ← Linked.keypairDet e.C e.O coins.1
  return (⟨filled PKLEN pk⟩, ⟨filled SKLEN sk⟩)

/-- `keypair` (dilithium2.rs:193-222); `coins` are the 32 bytes the C code draws (clean/sign.c:23-28, avx2/sign.c:57). -/
def keypairOn (coins : ByteArr 32) : Option (PublicKey × SecretKey) := do
  let (pk, sk) ← if e.avx2 then Avx2.Linked.keypairA e.C e.O e.kpK e.kpK' e.kpJ e.kpJ' coins.1 else Linked.keypairDet e.C e.O coins.1
  return (⟨filled PKLEN pk⟩, ⟨filled SKLEN sk⟩)

/-- `sign` (dilithium2.rs:224-257). -/
def signOn (msg : Bytes) (sk : SecretKey) : Option SignedMessage := do
  let sm ← if e.avx2 then Avx2.Linked.cryptoSignA e.C e.O e.sgK e.sgK' e.sgJ msg sk.arr.1 else Linked.cryptoSign e.C e.O msg sk.arr.1
  return ⟨sm⟩

/-- `open` (dilithium2.rs:259-299). -/
def openSignedOn (sm : SignedMessage) (pk : PublicKey) : Option (Res VerificationError Bytes) := do
  match ← (if e.avx2 then Avx2.Linked.cryptoOpenA e.C e.O e.vfK e.vfJ sm.vec pk.arr.1 else Linked.cryptoOpen e.C e.O sm.vec pk.arr.1) with
  | some m => return ofRc 0 m
  | none => return ofRc (-1) []

/-- `detached_sign` (dilithium2.rs:301-337). -/
def detachedSignOn (msg : Bytes) (sk : SecretKey) : Option DetachedSignature := do
  let sig ← if e.avx2 then Avx2.Linked.signatureA e.C e.O e.sgK e.sgK' e.sgJ msg sk.arr.1 else Linked.signature e.C e.O msg sk.arr.1
  return ⟨filled SIGLEN sig, SIGLEN⟩

/-- `verify_detached_signature` (dilithium2.rs:339-383). -/
def verifyDetachedSignatureOn (sig : DetachedSignature) (msg : Bytes) (pk : PublicKey) : Option (Res VerificationError Unit) := do
  let ok ← if e.avx2 then Avx2.Linked.verifyA e.C e.O e.vfK e.vfJ (sig.arr.1.take sig.len) msg pk.arr.1
    else Linked.verify e.C e.O (sig.arr.1.take sig.len) msg pk.arr.1
  return ofRc (if ok then 0 else -1) ()

end Verif.Dilithium.Rust
