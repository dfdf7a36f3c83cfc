import Verif.Avx235.Sign
import Verif.Neon35.Sign
import Verif.Dilithium35.Wrapper

/-!
# pqcrypto-dilithium/src/dilithium3.rs and dilithium5.rs as shipped: the machine decides which C code runs

With the default features (pqcrypto-dilithium/Cargo.toml:22) the crate is linked with the portable code and, on x86_64, with the AVX2 code, which is called
if the processor has AVX2; on aarch64 with the NEON code, which is always called (build.rs).  `keypair_det` calls the portable code everywhere.  `H` is
the hash functions, the same on all machines: FIPS 202.  Line numbers are those of dilithium3.rs; dilithium5.rs has the same text except for the names.
-/

namespace Verif.Dilithium35.Rust
open Verif.Dilithium (CSem Shake)
open Verif.Dilithium.Rust (VerificationError filled ofRc)

/-- An x86_64 machine at a call: whether `is_x86_feature_detected!("avx2")` holds, what undefined behaviour does, and the contents of registers and
uninitialised memory when the AVX2 key generation, signing and verification start. -/
structure X86Env (md : Mode) where
  avx2 : Bool
  C : CSem
  kp : Avx235.KeyJunk md
  sg : Avx235.SignJunk md
  vf : Avx235.VerifyJunk md

/-- An aarch64 machine at a call: what undefined behaviour does, registers and memory at the calls of the assembly routines. -/
structure ArmEnv where
  C : CSem
  M : Neon.Mach

/-- A machine. -/
inductive Machine (md : Mode)
  | x86 (e : X86Env md)
  | arm (a : ArmEnv)

variable {md : Mode}

/-- What undefined behaviour does on the machine. -/
def Machine.C : Machine md → CSem
  | .x86 e => e.C
  | .arm a => a.C

variable (H : Shake)

/-- `keypair_det` (dilithium3.rs:209-223): the portable code on every machine. -/
def keypairDetAt (x : Machine md) (coins : ByteArr 32) : Option (PublicKey md × SecretKey md) := keypairDet x.C H md coins

/-- `keypair` (dilithium3.rs:186-201); `coins` are the 32 bytes the C code draws. -/
def keypairAt (x : Machine md) (coins : ByteArr 32) : Option (PublicKey md × SecretKey md) := do
  let (pk, sk) ← (match x with
    | .x86 e => if e.avx2 then Avx235.keypairA md e.C H e.kp coins.1 else Dilithium35.keypairDet md e.C H coins.1
    | .arm a => Neon35.keypairN md a.C H a.M coins.1)
  return (⟨filled md.PKLEN pk⟩, ⟨filled md.SKLEN sk⟩)

/-- `sign` (dilithium3.rs:247-261). -/
def signAt (x : Machine md) (msg : Bytes) (sk : SecretKey md) : Option SignedMessage := do
  let sm ← (match x with
    | .x86 e => if e.avx2 then Avx235.cryptoSignA md e.C H e.sg msg sk.arr.1 else cryptoSign md e.C H msg sk.arr.1
    | .arm a => Neon35.cryptoSignN md a.C H a.M msg sk.arr.1)
  return ⟨sm⟩

/-- `open` (dilithium3.rs:287-304). -/
def openSignedAt (x : Machine md) (sm : SignedMessage) (pk : PublicKey md) : Option (Res VerificationError Bytes) := do
  match ← (match x with
    | .x86 e => if e.avx2 then Avx235.cryptoOpenA md e.C H e.vf sm.vec pk.arr.1 else cryptoOpen md e.C H sm.vec pk.arr.1
    | .arm a => Neon35.cryptoOpenN md a.C H a.M sm.vec pk.arr.1) with
  | some m => return ofRc 0 m
  | none => return ofRc (-1) []

/-- `detached_sign` (dilithium3.rs:323-337). -/
def detachedSignAt (x : Machine md) (msg : Bytes) (sk : SecretKey md) : Option (DetachedSignature md) := do
  let sig ← (match x with
    | .x86 e => if e.avx2 then Avx235.signatureA md e.C H e.sg msg sk.arr.1 else signature md e.C H msg sk.arr.1
    | .arm a => Neon35.signatureN md a.C H a.M msg sk.arr.1)
  return ⟨filled md.SIGLEN sig, md.SIGLEN⟩

/-- `verify_detached_signature` (dilithium3.rs:359-382). -/
def verifyDetachedSignatureAt (x : Machine md) (sig : DetachedSignature md) (msg : Bytes) (pk : PublicKey md) : Option (Res VerificationError Unit) := do
  let ok ← (match x with
    | .x86 e => if e.avx2 then Avx235.verifyA md e.C H e.vf (sig.arr.1.take sig.len) msg pk.arr.1 else verify md e.C H (sig.arr.1.take sig.len) msg pk.arr.1
    | .arm a => Neon35.verifyN md a.C H a.M (sig.arr.1.take sig.len) msg pk.arr.1)
  return ofRc (if ok then 0 else -1) ()

end Verif.Dilithium35.Rust
