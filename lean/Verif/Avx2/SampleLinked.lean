import Verif.Avx2.Sample
import Verif.Avx2.Fips202x4

/-!
# The four-way samplers of poly.c on the four-way SHAKE of fips202x4.c

As in `Sample.lean`, but the bytes come from the calls the code makes and pass through the buffers `buf[0..3]`, which hold the absorbed seed and
nonce first and the squeezed blocks afterwards.
-/

namespace Verif.Avx2.X4

open Verif.Dilithium (rejUniform rejEta squeeze nonceBytes)
open Verif.Avx2.F1600 (Q4)

/-- Seed and nonce in a buffer (poly.c:408-421, 529-546, 606-623). -/
def inBuf (m : Nat → UInt8) (n : Nat) (seed : Bytes) (nonce : UInt16) : Nat → UInt8 := writeAt (writeAt m 0 (seed.take n)) n (nonceBytes nonce)

/-- The lock-step loops (poly.c:431-438, 555-562): one block is squeezed into each buffer, and `rej` appends what it accepts. -/
def lockLoop (sq : (Nat → Q4) → (Fin 4 → Bytes) × (Nat → Q4)) (rej : (Nat → UInt8) → Nat → List Int) (st : Fin 4 → (Nat → W32) × Nat)
    (buf : Fin 4 → Nat → UInt8) (s : Nat → Q4) : Option (Fin 4 → (Nat → W32) × Nat) :=
  if (st 0).2 < 256 ∨ (st 1).2 < 256 ∨ (st 2).2 < 256 ∨ (st 3).2 < 256 then
    let o := sq s
    let buf := fun k => writeAt (buf k) 0 (o.1 k)
    lockLoop sq rej (fun k =>
      (writeAt (st k).1 (st k).2 ((rej (buf k) (256 - (st k).2)).map (BitVec.ofInt 32)), (st k).2 + (rej (buf k) (256 - (st k).2)).length)) buf o.2
  else some st
partial_fixpoint

/-- `poly_uniform_4x` (poly.c:394-439); `s` is the uninitialised state. -/
def polyUniform4x (R : Regs) (s : Nat → Q4) (J : Junk) (seed : Bytes) (nonce : Fin 4 → UInt16) : Option (Fin 4 → VPoly) := do
  let buf := fun k => inBuf J.bytes 32 seed (nonce k)
  let s ← shake128x4AbsorbOnce R s buf (32 + 2)
  let o := shake128x4SqueezeBlocks R 5 s
  let buf := fun k => writeAt (buf k) 0 (o.1 k)
  let st ← lockLoop (shake128x4SqueezeBlocks R 1) (fun buf len => rejUniform len (squeeze buf 0 168)) (fun k => rejUniformAvx (buf k) J.coeffs) buf o.2
  return fun k => readPoly (st k).1

/-- `poly_uniform_eta_4x` (poly.c:513-563). -/
def polyUniformEta4x (R : Regs) (s : Nat → Q4) (J : Junk) (seed : Bytes) (nonce : Fin 4 → UInt16) : Option (Fin 4 → VPoly) := do
  let buf := fun k => inBuf J.bytes 64 seed (nonce k)
  let s ← shake256x4AbsorbOnce R s buf 66
  let o := shake256x4SqueezeBlocks R 1 s
  let buf := fun k => writeAt (buf k) 0 (o.1 k)
  let st ← lockLoop (shake256x4SqueezeBlocks R 1) (fun buf len => rejEta len (squeeze buf 0 136)) (fun k => rejEtaAvx (buf k) J.coeffs) buf o.2
  return fun k => readPoly (st k).1

/-- `poly_uniform_gamma1_4x` (poly.c:592-632). -/
def polyUniformGamma14x (R : Regs) (s : Nat → Q4) (J : Junk) (seed : Bytes) (nonce : Fin 4 → UInt16) : Option (Fin 4 → VPoly) := do
  let buf := fun k => inBuf J.bytes 64 seed (nonce k)
  let s ← shake256x4AbsorbOnce R s buf 66
  let o := shake256x4SqueezeBlocks R 5 s
  return fun k => polyzUnpackV (writeAt (buf k) 0 (o.1 k))

end Verif.Avx2.X4
