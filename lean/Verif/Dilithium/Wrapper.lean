import Verif.Dilithium.Sign

/-!
# pqcrypto-dilithium/src/dilithium2.rs: the Rust interface around the C code

Only the "clean" variant is modelled: the `avx2`/`neon` branches are compiled in by features the model leaves off.
`Option` is non-termination of the C code.
-/

namespace Verif.Dilithium.Rust
open Verif

/-- `pqcrypto_traits::Error` (pqcrypto-traits/src/lib.rs:12-22). -/
inductive Error where
  | badLength (name : String) (actual expected : Nat)
  deriving DecidableEq

/-- `VerificationError` (pqcrypto-traits/src/sign.rs:51-54). -/
inductive VerificationError where
  | invalidSignature
  | unknown
  deriving DecidableEq

/-- A zeroed `[u8; n]` (`$type::new`, dilithium2.rs:45-48, 105-107) after C code wrote `b` at its start. -/
def filled (n : Nat) (b : Bytes) : ByteArr n := ⟨b.take n ++ List.replicate (n - b.length) 0, by simp; omega⟩

/-- `simple_struct!(PublicKey, …)` (dilithium2.rs:84-87). -/
structure PublicKey where
  arr : ByteArr PKLEN
/-- `simple_struct!(SecretKey, …)` (dilithium2.rs:88-91). -/
structure SecretKey where
  arr : ByteArr SKLEN

/-- `simple_struct!`: `from_bytes` (dilithium2.rs:58-70). -/
def arrFromBytes (name : String) (n : Nat) (b : Bytes) : Res Error (ByteArr n) :=
  if h : b.length = n then .ok ⟨b, h⟩ else .err (.badLength name b.length n)

/-- `PublicKey::from_bytes`. -/
def PublicKey.fromBytes (b : Bytes) : Res Error PublicKey :=
  match arrFromBytes "PublicKey" PKLEN b with
  | .ok a => .ok ⟨a⟩
  | .err e => .err e
  | .panic => .panic
/-- `SecretKey::from_bytes`. -/
def SecretKey.fromBytes (b : Bytes) : Res Error SecretKey :=
  match arrFromBytes "SecretKey" SKLEN b with
  | .ok a => .ok ⟨a⟩
  | .err e => .err e
  | .panic => .panic
/-- `as_bytes` (dilithium2.rs:52-56). -/
def PublicKey.asBytes (k : PublicKey) : Bytes := k.arr.1
/-- `as_bytes` (dilithium2.rs:52-56). -/
def SecretKey.asBytes (k : SecretKey) : Bytes := k.arr.1

/-- `PartialEq` (dilithium2.rs:73-82): a zip, so only the common prefix is compared; both arrays have the same length. -/
def arrEq (a b : Bytes) : Bool := (List.zip a b).all fun p => p.1 == p.2
/-- `PublicKey::eq`. -/
def PublicKey.eq (a b : PublicKey) : Bool := arrEq a.arr.1 b.arr.1
/-- `SecretKey::eq`. -/
def SecretKey.eq (a b : SecretKey) : Bool := arrEq a.arr.1 b.arr.1

/-- `struct DetachedSignature([u8; 2420], usize)` (dilithium2.rs:93-99). -/
structure DetachedSignature where
  arr : ByteArr SIGLEN
  len : Nat

/-- `as_bytes` (dilithium2.rs:110-114); `none` = panic (slice out of range). -/
def DetachedSignature.asBytes (s : DetachedSignature) : Option Bytes := if s.len ≤ SIGLEN then some (s.arr.1.take s.len) else none

/-- `from_bytes` (dilithium2.rs:116-130): shorter strings are accepted. -/
def DetachedSignature.fromBytes (b : Bytes) : Res Error DetachedSignature :=
  if b.length > SIGLEN then .err (.badLength "DetachedSignature" b.length SIGLEN) else .ok ⟨filled SIGLEN b, b.length⟩

/-- `struct SignedMessage(Vec<u8>)` (dilithium2.rs:133-148); `from_bytes` copies, `as_bytes` returns the vector. -/
structure SignedMessage where
  vec : Bytes

/-- `public_key_bytes`, `secret_key_bytes`, `signature_bytes` (dilithium2.rs:156-169). -/
abbrev publicKeyBytes : Nat := PKLEN
/-- `secret_key_bytes`. -/
abbrev secretKeyBytes : Nat := SKLEN
/-- `signature_bytes`. -/
abbrev signatureBytes : Nat := SIGLEN

variable (C : CSem) (H : Shake)

/-- `keypair_det` (dilithium2.rs:177-191); the C function always returns 0. -/
def keypairDet (coins : ByteArr 32) : Option (PublicKey × SecretKey) := do
  let (pk, sk) ← Dilithium.keypairDet C H coins.1
  return (⟨filled PKLEN pk⟩, ⟨filled SKLEN sk⟩)

/-- `sign` (dilithium2.rs:224-257): the vector is given the length reported by C. -/
def sign (msg : Bytes) (sk : SecretKey) : Option SignedMessage := do
  let sm ← cryptoSign C H msg sk.arr.1
  return ⟨sm⟩

/-- The match on the C return value (dilithium2.rs:272-279, 350-354). -/
def ofRc {α : Type} (rc : Int) (a : α) : Res VerificationError α :=
  if rc = 0 then .ok a else if rc = -1 then .err .invalidSignature else .err .unknown

/-- `open` (dilithium2.rs:259-299): the C code returns 0 with the message, or -1. -/
def openSigned (sm : SignedMessage) (pk : PublicKey) : Option (Res VerificationError Bytes) := do
  match ← cryptoOpen C H sm.vec pk.arr.1 with
  | some m => return ofRc 0 m
  | none => return ofRc (-1) []

/-- `detached_sign` (dilithium2.rs:301-337); C writes the signature and sets the length to `CRYPTO_BYTES` (sign.c:207). -/
def detachedSign (msg : Bytes) (sk : SecretKey) : Option DetachedSignature := do
  let sig ← signature C H msg sk.arr.1
  return ⟨filled SIGLEN sig, SIGLEN⟩

/-- `verify_detached_signature` (dilithium2.rs:339-383): C gets the array and the stored length, and returns 0 or -1. -/
def verifyDetachedSignature (sig : DetachedSignature) (msg : Bytes) (pk : PublicKey) : Option (Res VerificationError Unit) := do
  let ok ← verify C H (sig.arr.1.take sig.len) msg pk.arr.1
  return ofRc (if ok then 0 else -1) ()

end Verif.Dilithium.Rust
