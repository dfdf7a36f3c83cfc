import Verif.Neon.Sign
import Verif.Neon.Fips202x2
import Verif.Avx2.SampleLinked

/-!
# The two-way samplers of aarch64/poly.c on the two-way SHAKE of fips202x2.c

As in `Sign.lean`, but the bytes come from the calls the code makes.  `KJ` is the machine state at the call: which version of the permutation was compiled,
the registers, the uninitialised `keccakx2_state` and the bytes of the two `extseed` buffers.
-/

namespace Verif.Neon.X2

open Verif.Dilithium hiding W32 toI32_id
open Verif.Neon.F1600 (V2)
open Verif.Avx2.X4 (inBuf)

/-- What a two-way function finds at its call. -/
structure KJ where
  K : Perm
  s : Nat → V2
  ext : Fin 2 → Nat → UInt8

variable (C : CSem)

/-- `extseed1`, `extseed2` (aarch64/symmetric-shake.c:61-74, 83-96): seed and nonce, the other 14 bytes as they were. -/
def extseed (E : KJ) (n : Nat) (seed : Bytes) (nonce : Fin 2 → UInt16) : Fin 2 → Nat → UInt8 := fun k => inBuf (E.ext k) n seed (nonce k)

/-- `dilithium_shake128x2_stream_init` (aarch64/symmetric-shake.c:57-77). -/
def stream128x2Init (E : KJ) (seed : Bytes) (nonce : Fin 2 → UInt16) : Option (Nat → V2) := shake128x2Absorb E.K E.s (extseed E 32 seed nonce) (32 + 2)
/-- `dilithium_shake256x2_stream_init` (aarch64/symmetric-shake.c:79-99). -/
def stream256x2Init (E : KJ) (seed : Bytes) (nonce : Fin 2 → UInt16) : Option (Nat → V2) := shake256x2Absorb E.K E.s (extseed E 64 seed nonce) (64 + 2)

/-- The loop of `poly_uniformx2` (aarch64/poly.c:438-442). -/
def uniformLoop (K : Perm) (acc : Fin 2 → List Int) (buf : Fin 2 → Bytes) (s : Nat → V2) : Option (Fin 2 → List Int) :=
  if (acc 0).length < 256 ∨ (acc 1).length < 256 then
    let o := shake128x2SqueezeBlocks K 1 s
    let buf := fun k => o.1 k ++ (buf k).drop 168
    uniformLoop K (fun k => acc k ++ rejUniform (256 - (acc k).length) (buf k)) buf o.2
  else some acc
partial_fixpoint

/-- `poly_uniformx2` (aarch64/poly.c:423-443). -/
def polyUniformX2 (E : KJ) (seed : Bytes) (nonce0 nonce1 : UInt16) : Option (Poly × Poly) := do
  let s ← stream128x2Init E seed ![nonce0, nonce1]
  let o := shake128x2SqueezeBlocks E.K 5 s
  let l ← uniformLoop E.K (fun k => rejUniform 256 (o.1 k)) o.1 o.2
  return (polyOfList C (l 0), polyOfList C (l 1))

/-- `poly_uniform_gamma1x2` (aarch64/poly.c:568-583). -/
def polyUniformGamma1X2 (E : KJ) (seed : Bytes) (nonce0 nonce1 : UInt16) : Option (Poly × Poly) := do
  let s ← stream256x2Init E seed ![nonce0, nonce1]
  let o := shake256x2SqueezeBlocks E.K 5 s
  return (polyzUnpack C (o.1 0), polyzUnpack C (o.1 1))

end Verif.Neon.X2
