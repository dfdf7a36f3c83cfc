import Verif.Avx2.Pack
import Verif.Dilithium.Sign

/-!
# The four-way samplers of poly.c (dilithium2/avx2)

The four SHAKE streams come from the vectorised Keccak; here they are streams of the hash `H`, as in the portable model.  `Junk` is what the
routines find in uninitialised memory and in registers; nothing may depend on it.
-/

namespace Verif.Avx2

open Verif.Dilithium (Shake Poly rejUniform rejEta squeeze stream128 stream256)

/-- Contents of uninitialised arrays, and the machine state in which the assembly routines are called. -/
structure Junk where
  coeffs : Nat → W32
  bytes : Nat → UInt8
  mach : Mach

/-- The lock-step loops `while (ctr0 < N || …)` of `poly_uniform_4x` and `poly_uniform_eta_4x` (poly.c:431-438, 555-562): every iteration squeezes
one block for all four polynomials and appends what `rej` accepts, `N - ctr` at most. -/
def lockLoop (rej : Fin 4 → Nat → Nat → List Int) (blk : Nat) (st : Fin 4 → (Nat → W32) × Nat) (pos : Nat) : Option (Fin 4 → (Nat → W32) × Nat) :=
  if (st 0).2 < 256 ∨ (st 1).2 < 256 ∨ (st 2).2 < 256 ∨ (st 3).2 < 256 then
    lockLoop rej blk (fun k =>
      (writeAt (st k).1 (st k).2 ((rej k pos (256 - (st k).2)).map (BitVec.ofInt 32)), (st k).2 + (rej k pos (256 - (st k).2)).length)) (pos + blk)
  else some st
partial_fixpoint

/-- A buffer of which the first `n` bytes have been filled from the stream. -/
def filled (J : Junk) (s : Nat → UInt8) (n : Nat) : Nat → UInt8 := fun k => if k < n then s k else J.bytes k

/-- The coefficients of a polynomial stored at `r`. -/
def readPoly (r : Nat → W32) : VPoly := fun i => r i.1

/-- `poly_uniform_4x` (poly.c:394-439). -/
def polyUniform4x (H : Shake) (J : Junk) (seed : Bytes) (nonce : Fin 4 → UInt16) : Option (Fin 4 → VPoly) := do
  let s := fun k => stream128 H (seed.take 32) (nonce k)
  let st ← lockLoop (fun k pos len => rejUniform len (squeeze (s k) pos 168)) 168 (fun k => rejUniformAvx (filled J (s k) 840) J.coeffs) 840
  return fun k => readPoly (st k).1

/-- `poly_uniform_eta_4x` (poly.c:513-563). -/
def polyUniformEta4x (H : Shake) (J : Junk) (seed : Bytes) (nonce : Fin 4 → UInt16) : Option (Fin 4 → VPoly) := do
  let s := fun k => stream256 H (seed.take 64) (nonce k)
  let st ← lockLoop (fun k pos len => rejEta len (squeeze (s k) pos 136)) 136 (fun k => rejEtaAvx (filled J (s k) 136) J.coeffs) 136
  return fun k => readPoly (st k).1

/-- `poly_uniform_gamma1_4x` (poly.c:592-632). -/
def polyUniformGamma14x (H : Shake) (J : Junk) (seed : Bytes) (nonce : Fin 4 → UInt16) : Fin 4 → VPoly :=
  fun k => polyzUnpackV (filled J (stream256 H (seed.take 64) (nonce k)) 680)

end Verif.Avx2
