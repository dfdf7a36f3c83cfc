import Verif.Dilithium.Wrapper
import Verif.Dilithium35.Model

/-!
# pqcrypto-dilithium/src/dilithium3.rs and dilithium5.rs: the Rust interface around the C code

The two files have the same text except for the names; line numbers are those of dilithium3.rs.  Only the "clean" variants are modelled.  The macro
`simple_struct!`, the error types and the translation of return codes are those of dilithium2.rs (`Verif/Dilithium/Wrapper.lean`).
-/

namespace Verif.Dilithium35.Rust
open Verif.Dilithium (CSem Shake)
open Verif.Dilithium.Rust (Error VerificationError filled arrFromBytes arrEq ofRc)

set_option maxRecDepth 10000 in
/-- `simple_struct!(PublicKey, …)` (dilithium3.rs:86-89). -/
structure PublicKey (md : Mode) where
  arr : ByteArr md.PKLEN
/-- `simple_struct!(SecretKey, …)` (dilithium3.rs:90-93). -/
structure SecretKey (md : Mode) where
  arr : ByteArr md.SKLEN

variable {md : Mode}

/-- `PublicKey::from_bytes` (dilithium3.rs:58-70). -/
def PublicKey.fromBytes (md : Mode) (b : Bytes) : Res Error (PublicKey md) :=
  match arrFromBytes "PublicKey" md.PKLEN b with
  | .ok a => .ok ⟨a⟩
  | .err e => .err e
  | .panic => .panic
/-- `SecretKey::from_bytes` (dilithium3.rs:58-70). -/
def SecretKey.fromBytes (md : Mode) (b : Bytes) : Res Error (SecretKey md) :=
  match arrFromBytes "SecretKey" md.SKLEN b with
  | .ok a => .ok ⟨a⟩
  | .err e => .err e
  | .panic => .panic
/-- `as_bytes` (dilithium3.rs:52-56). -/
def PublicKey.asBytes (k : PublicKey md) : Bytes := k.arr.1
/-- `as_bytes` (dilithium3.rs:52-56). -/
def SecretKey.asBytes (k : SecretKey md) : Bytes := k.arr.1
/-- `PublicKey::eq` (dilithium3.rs:73-82). -/
def PublicKey.eq (a b : PublicKey md) : Bool := arrEq a.arr.1 b.arr.1
/-- `SecretKey::eq` (dilithium3.rs:73-82). -/
def SecretKey.eq (a b : SecretKey md) : Bool := arrEq a.arr.1 b.arr.1

/-- `struct DetachedSignature([u8; …], usize)` (dilithium3.rs:97-101). -/
structure DetachedSignature (md : Mode) where
  arr : ByteArr md.SIGLEN
  len : Nat

/-- `as_bytes` (dilithium3.rs:112-116); `none` = panic (slice out of range). -/
def DetachedSignature.asBytes (s : DetachedSignature md) : Option Bytes := if s.len ≤ md.SIGLEN then some (s.arr.1.take s.len) else none

/-- `from_bytes` (dilithium3.rs:118-132): shorter strings are accepted. -/
def DetachedSignature.fromBytes (md : Mode) (b : Bytes) : Res Error (DetachedSignature md) :=
  if b.length > md.SIGLEN then .err (.badLength "DetachedSignature" b.length md.SIGLEN) else .ok ⟨filled md.SIGLEN b, b.length⟩

/-- `struct SignedMessage(Vec<u8>)` (dilithium3.rs:137-156); `from_bytes` copies, `as_bytes` returns the vector. -/
structure SignedMessage where
  vec : Bytes

variable (C : CSem) (H : Shake)

/-- `keypair_det` (dilithium3.rs:208-222); the C function always returns 0. -/
def keypairDet (md : Mode) (coins : ByteArr 32) : Option (PublicKey md × SecretKey md) := do
  let (pk, sk) ← Dilithium35.keypairDet md C H coins.1
  return (⟨filled md.PKLEN pk⟩, ⟨filled md.SKLEN sk⟩)

/-- `sign` (dilithium3.rs:225-261): the vector is given the length reported by C. -/
def sign (msg : Bytes) (sk : SecretKey md) : Option SignedMessage := do
  let sm ← cryptoSign md C H msg sk.arr.1
  return ⟨sm⟩

/-- `open` (dilithium3.rs:263-303): the C code returns 0 with the message, or -1. -/
def openSigned (sm : SignedMessage) (pk : PublicKey md) : Option (Res VerificationError Bytes) := do
  match ← cryptoOpen md C H sm.vec pk.arr.1 with
  | some m => return ofRc 0 m
  | none => return ofRc (-1) []

/-- `detached_sign` (dilithium3.rs:305-337); C writes the signature and sets the length to `CRYPTO_BYTES` (sign.c:207). -/
def detachedSign (msg : Bytes) (sk : SecretKey md) : Option (DetachedSignature md) := do
  let sig ← signature md C H msg sk.arr.1
  return ⟨filled md.SIGLEN sig, md.SIGLEN⟩

/-- `verify_detached_signature` (dilithium3.rs:339-383): C gets the array and the stored length, and returns 0 or -1. -/
def verifyDetachedSignature (sig : DetachedSignature md) (msg : Bytes) (pk : PublicKey md) : Option (Res VerificationError Unit) := do
  let ok ← verify md C H (sig.arr.1.take sig.len) msg pk.arr.1
  return ofRc (if ok then 0 else -1) ()

end Verif.Dilithium35.Rust
