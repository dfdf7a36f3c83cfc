import Verif.Basic.Negacyclic
import Verif.Saber.Poly

/-!
# Specification vocabulary for the Saber properties

Independent of the code: rounding error, integer noise, message bits.  All ring products here are the textbook `negaMul`.
-/

namespace Verif.Saber

open Finset

/-- Bit `i` of a 32-byte message, bytes little-endian. -/
def msgBit (m : ByteArr 32) (i : Fin 256) : Bool := (byteAt m ⟨i.1 / 8, by omega⟩).getLsbD (i.1 % 8)

/-- Matrix times vector over `R[X]/(X^256+1)`. -/
def matVec {R : Type} [CommRing R] {K : Nat} (A : Fin K → Fin K → Fin 256 → R) (s : Fin K → Fin 256 → R) : Fin K → Fin 256 → R :=
  fun i => ∑ j, negaMul (A i j) (s j)

/-- Inner product over `R[X]/(X^256+1)`. -/
def inner {R : Type} [CommRing R] {K : Nat} (u v : Fin K → Fin 256 → R) : Fin 256 → R := ∑ k, negaMul (u k) (v k)

/-- Transpose. -/
def transpose {α : Type} {K : Nat} (A : Fin K → Fin K → α) : Fin K → Fin K → α := fun i j => A j i

/-- Signed distance from `x` to the nearest multiple of 8 (ties upwards): `8·⌊(x+4)/8⌋ - x`; always in `[-3, 4]`. -/
def roundErr (x : U16) : ℤ := 4 - (x.toNat + 4) % 8

/-- Coefficients as signed integers. -/
def toZ {K : Nat} (v : Fin K → Fin 256 → U16) : Fin K → Fin 256 → ℤ := fun k i => (v k i).toInt

/-- The accumulated rounding noise of an encryption with matrix `A`, key secret `s` and ephemeral secret `t`, over the integers and scaled
by 8: `⟨round-errors of A s, t⟩ - ⟨round-errors of Aᵀ t, s⟩`. -/
def noise {K : Nat} (A : Fin K → Fin K → Fin 256 → U16) (s t : Fin K → Fin 256 → U16) : Fin 256 → ℤ :=
  inner (fun k i => roundErr (matVec A s k i)) (toZ t) - inner (fun k i => roundErr (matVec (transpose A) t k i)) (toZ s)

/-- Bit `n` of a byte stream, little-endian within bytes. -/
def streamBit (xof : Nat → UInt8) (n : Nat) : Bool := (xof (n / 8)).toBitVec.getLsbD (n % 8)

/-- The number of ones among the `len` stream bits from position `start`. -/
def onesAt (xof : Nat → UInt8) (start len : Nat) : Nat := ∑ j ∈ Finset.range len, (streamBit xof (start + j)).toNat

end Verif.Saber
