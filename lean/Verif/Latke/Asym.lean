import Verif.Latke.Traits

/-!
# External public-key primitives used by the IBKEs: Ed25519 signatures and X25519

Crates `ed25519_dalek` and `x25519_dalek`, as abstract functions; the laws assumed are in the `Correct` structures.
-/

namespace Verif.Latke

/-- `ed25519_dalek`: signing is deterministic; `VerifyingKey::from_bytes` may reject, `Signature::from_bytes` never does. -/
structure Ed25519 where
  Sk : Type
  Pk : Type
  /-- `VerifyingKey::from(&SigningKey)` -/
  pkOf : Sk → Pk
  sign : Sk → Bytes → ByteArr 64
  verify : Pk → Bytes → ByteArr 64 → Bool
  /-- `as_bytes` -/
  pkToBytes : Pk → ByteArr 32
  /-- `VerifyingKey::from_bytes`; `none` is an `Err` -/
  pkFromBytes : ByteArr 32 → Option Pk

/-- Signatures verify; a public key survives its encoding. -/
structure Ed25519.Correct (G : Ed25519) : Prop where
  verify_sign : ∀ sk m, G.verify (G.pkOf sk) m (G.sign sk m) = true
  pk_roundtrip : ∀ pk, G.pkFromBytes (G.pkToBytes pk) = some pk

/-- `x25519_dalek`: any 32 bytes are a public key. -/
structure X25519 where
  Sk : Type
  pub : Sk → ByteArr 32
  dh : Sk → ByteArr 32 → ByteArr 32

/-- Diffie–Hellman commutes. -/
def X25519.Correct (D : X25519) : Prop := ∀ a b, D.dh a (D.pub b) = D.dh b (D.pub a)

/-- A toy signature scheme for non-vacuity examples: the "signature" hashes key and message. -/
def toyEd : Ed25519 where
  Sk := UInt8
  Pk := UInt8
  pkOf sk := sk + 1
  sign sk m := toyMix 21 [sk] m 64
  verify pk m s := decide (s = toyMix 21 [pk - 1] m 64)
  pkToBytes pk := ⟨pk :: List.replicate 31 0, by simp⟩
  pkFromBytes b := match b.1 with
    | x :: _ => some x
    | [] => none

theorem toyEd_correct : toyEd.Correct where
  verify_sign := fun (sk : UInt8) m => by simp [toyEd]
  pk_roundtrip := fun (pk : UInt8) => by simp [toyEd]

/-- A toy Diffie–Hellman: multiplication of bytes. -/
def toyDh : X25519 where
  Sk := UInt8
  pub a := .rep 32 (5 * a)
  dh a p := match p.1 with
    | x :: _ => .rep 32 (a * x)
    | [] => .rep 32 0

theorem toyDh_correct : toyDh.Correct := by
  intro (a : UInt8) (b : UInt8)
  have key : ∀ x y : UInt8, x * (5 * y) = y * (5 * x) := by
    intro x y
    rw [← UInt8.mul_assoc, ← UInt8.mul_assoc, UInt8.mul_comm x 5, UInt8.mul_comm y 5, UInt8.mul_assoc, UInt8.mul_assoc,
      UInt8.mul_comm x y]
  simp [toyDh, ByteArr.rep, List.replicate, key a b]

end Verif.Latke
