import Verif.Latke.Traits
import Mathlib.Algebra.Module.Defs
import Mathlib.Data.ZMod.Defs

/-!
# Ristretto, abstractly

`curve25519_dalek`'s `RistrettoPoint`/`Scalar`: a commutative group with scalars in a commutative ring acting on it (the real
scalars form a field, which is not needed), a generator, an encoding to 32 bytes, and a hash to scalars.
-/

namespace Verif.Latke

/-- Points, scalars and encodings. `hashToScalar b` is `Scalar::from_hash(MyHash512::new().chain_update(b))`. -/
structure Group where
  Pt : Type
  Scalar : Type
  [ptGroup : AddCommGroup Pt]
  [scalarRing : CommRing Scalar]
  [action : Module Scalar Pt]
  /-- `RISTRETTO_BASEPOINT_POINT` -/
  base : Pt
  /-- `compress` -/
  compress : Pt → ByteArr 32
  /-- `CompressedRistretto::decompress` -/
  decompress : ByteArr 32 → Option Pt
  hashToScalar : Bytes → Scalar

attribute [instance] Group.ptGroup Group.scalarRing Group.action

/-- Encoded points decode to themselves. -/
def Group.Correct (R : Group) : Prop := ∀ p, R.decompress (R.compress p) = some p

/-- `RistrettoPoint::mul_base`. -/
def Group.mulBase (R : Group) (x : R.Scalar) : R.Pt := x • R.base

/-- `CompressedRistretto::from_slice(b).unwrap().decompress().unwrap()`; `none` = panic. -/
def Group.point? (R : Group) (b : Bytes) : Option R.Pt := do
  let b ← toArr? 32 b
  R.decompress b

theorem Group.point?_compress {R : Group} (hR : R.Correct) (p : R.Pt) : R.point? (R.compress p).1 = some p := by
  simp [Group.point?, toArr?_val, hR p]

/-- Toy group: the integers modulo 251 acting on themselves. -/
def toyGroup : Group where
  Pt := ZMod 251
  Scalar := ZMod 251
  ptGroup := inferInstanceAs (AddCommGroup (ZMod 251))
  scalarRing := inferInstanceAs (CommRing (ZMod 251))
  action := inferInstanceAs (Module (ZMod 251) (ZMod 251))
  base := (7 : Fin 251)
  compress p := ⟨UInt8.ofNat (Fin.val (n := 251) p) :: List.replicate 31 0, by simp⟩
  decompress b := match b.1 with
    | x :: _ => some (Fin.ofNat 251 x.toNat)
    | [] => none
  hashToScalar b := Fin.ofNat 251 (b.foldl (fun acc x => 31 * acc + x.toNat + 7) 1)

theorem toyGroup_correct : toyGroup.Correct := by
  intro p
  have : ∀ q : Fin 251, Fin.ofNat 251 (UInt8.ofNat q.val).toNat = q := by decide +kernel
  exact congrArg some (this p)

end Verif.Latke
