import Verif.Avx2.Machine
import Verif.Neon.SignLinked
import Verif.Latke.Ibke.SigmaMachine

/-!
# pqcrypto-dilithium/src/dilithium2.rs as shipped on x86_64 and on aarch64

With the default features (pqcrypto-dilithium/Cargo.toml:22, latke/Cargo.toml:9) the crate on aarch64 is linked with the portable and the aarch64 code
(build.rs:136-138, 158-161) and always calls the latter (`if true`), except in `keypair_det`, which has no dispatch.
-/

namespace Verif.Dilithium.Rust
open Verif Verif.Keccak
open Verif.Neon.X2 (KJ)

/-- An aarch64 machine at a call: what undefined behaviour does, registers and memory at the calls of the assembly routines, and for every call of a two-way
hash function the version of the permutation that is compiled in, registers and uninitialised memory. -/
structure ArmEnv where
  C : CSem
  O : Oob
  M : Neon.Mach
  E : Fin 4 → Fin 2 → KJ
  E' : Nat → Fin 2 → KJ

/-- A machine: x86_64 with or without AVX2, or aarch64. -/
inductive Machine
  | x86 (e : Env)
  | arm (a : ArmEnv)

/-- `keypair_det` (dilithium2.rs:177-191): the portable code on every machine. -/
def keypairDetAt (x : Machine) (coins : ByteArr 32) : Option (PublicKey × SecretKey) :=
  match x with
  | .x86 e => keypairDetOn e coins
  | .arm a => do
    let (pk, sk) ← Linked.keypairDet a.C a.O coins.1
    return (⟨filled PKLEN pk⟩, ⟨filled SKLEN sk⟩)

/-- `keypair` (dilithium2.rs:207-222); `coins` are the 32 bytes the C code draws (aarch64/sign.c:64). -/
def keypairAt (x : Machine) (coins : ByteArr 32) : Option (PublicKey × SecretKey) :=
  match x with
  | .x86 e => keypairOn e coins
  | .arm a => do
    let (pk, sk) ← Neon.Linked.keypair a.C a.O a.M a.E coins.1
    return (⟨filled PKLEN pk⟩, ⟨filled SKLEN sk⟩)

/-- `sign` (dilithium2.rs:247-260). -/
def signAt (x : Machine) (msg : Bytes) (sk : SecretKey) : Option SignedMessage :=
  match x with
  | .x86 e => signOn e msg sk
  | .arm a => do
    let sm ← Neon.Linked.cryptoSign a.C a.O a.M a.E a.E' msg sk.arr.1
    return ⟨sm⟩

/-- `open` (dilithium2.rs:287-303). -/
def openSignedAt (x : Machine) (sm : SignedMessage) (pk : PublicKey) : Option (Res VerificationError Bytes) :=
  match x with
  | .x86 e => openSignedOn e sm pk
  | .arm a => do
    match ← Neon.Linked.cryptoOpen a.C a.O a.M a.E sm.vec pk.arr.1 with
    | some m => return ofRc 0 m
    | none => return ofRc (-1) []

/-- `detached_sign` (dilithium2.rs:323-336). -/
def detachedSignAt (x : Machine) (msg : Bytes) (sk : SecretKey) : Option DetachedSignature :=
  match x with
  | .x86 e => detachedSignOn e msg sk
  | .arm a => do
    let sig ← Neon.Linked.signature a.C a.O a.M a.E a.E' msg sk.arr.1
    return ⟨filled SIGLEN sig, SIGLEN⟩

/-- `verify_detached_signature` (dilithium2.rs:359-382). -/
def verifyDetachedSignatureAt (x : Machine) (sig : DetachedSignature) (msg : Bytes) (pk : PublicKey) : Option (Res VerificationError Unit) :=
  match x with
  | .x86 e => verifyDetachedSignatureOn e sig msg pk
  | .arm a => do
    let ok ← Neon.Linked.verify a.C a.O a.M a.E (sig.arr.1.take sig.len) msg pk.arr.1
    return ofRc (if ok then 0 else -1) ()

end Verif.Dilithium.Rust

namespace Verif.Latke
open Verif.Dilithium

/-- `gen_main_keypair` (id_sigma_r.rs:292-313) on a machine; zeroes where the C code would not terminate. -/
def armKeygen (x : Rust.Machine) (coins : ByteArr 32) : Rust.PublicKey × Rust.SecretKey :=
  (Rust.keypairDetAt x coins).getD (⟨.rep PKLEN 0⟩, ⟨.rep SKLEN 0⟩)

/-- `sign` on a machine (id_sigma_r.rs:47-58); zeroes where the C code would not terminate. -/
def armSign (x : Rust.Machine) (sk : Rust.SecretKey) (m : Bytes) : ByteArr SIGLEN := ((Rust.detachedSignAt x m sk).map (·.arr)).getD (.rep SIGLEN 0)

/-- `verify` on a machine (id_sigma_r.rs:88-105). -/
def armVerify (x : Rust.Machine) (pk : Rust.PublicKey) (m : Bytes) (s : ByteArr SIGLEN) : Bool :=
  match Rust.verifyDetachedSignatureAt x ⟨s, SIGLEN⟩ m pk with
  | some (.ok _) => true
  | _ => false

/-- The code of the `Dilithium2` arms of `gen_main_keypair`, `sign` and `verify` (id_sigma_r.rs:47-58, 88-105, 292-313) on x86_64 and aarch64. -/
def allCode : MachCode Rust.Machine := ⟨armKeygen, armSign, armVerify⟩

end Verif.Latke
