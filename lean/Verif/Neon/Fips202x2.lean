import Verif.Neon.F1600X2
import Verif.Avx2.Fips202x4
import Mathlib.Data.Fin.VecNotation

/-!
# Two-way SHAKE of dilithium2/aarch64 (fips202x2.c)

The state `s` is the array of 25 vectors `v128 s[25]`.  The two input pointers are two memories `Nat → UInt8`: the last load reads up to 7 bytes after the
input, and these bytes are arbitrary.  `K` gives what the permutation is called with besides the state: which of its two versions was compiled, and the
registers.  Memory is little-endian.
-/

namespace Verif.Neon.X2

open Verif.Keccak (U64 toU64 store64)
open Verif.Avx2.X4 (le64)
open Verif.Neon.F1600

/-- `neon_KeccakF_RoundConstants` (fips202x2.c:69-94). -/
def roundConstants : List U64 := [
  0x0000000000000001, 0x0000000000008082, 0x800000000000808a, 0x8000000080008000, 0x000000000000808b, 0x0000000080000001,
  0x8000000080008081, 0x8000000000008009, 0x000000000000008a, 0x0000000000000088, 0x0000000080008009, 0x000000008000000a,
  0x000000008000808b, 0x800000000000008b, 0x8000000000008089, 0x8000000000008003, 0x8000000000008002, 0x8000000000000080,
  0x000000000000800a, 0x800000008000000a, 0x8000000080008081, 0x8000000000008080, 0x0000000080000001, 0x8000000080008008]

/-- The version of the permutation, and the registers at its calls as an arbitrary function of the state. -/
structure Perm where
  sha3 : Bool
  regs : (Nat → V2) → Nat → V2

/-- `KeccakF1600_StatePermutex2(s)`. -/
def f1600 (K : Perm) (s : Nat → V2) : Nat → V2 := f1600x2 K.sha3 (fun k => roundConstants.getD k 0) (K.regs s) s

/-- `vld1q_u64`. -/
def vld1q (m : Nat → UInt8) (pos : Nat) : V2 := ![le64 m pos, le64 m (pos + 8)]
/-- `vzip1q_u64`. -/
def zip1 (a b : V2) : V2 := ![a 0, b 0]
/-- `vzip2q_u64`. -/
def zip2 (a b : V2) : V2 := ![a 1, b 1]
/-- `vuzp1q_u64`. -/
def uzp1 (a b : V2) : V2 := ![a 0, b 0]
/-- `vuzp2q_u64`. -/
def uzp2 (a b : V2) : V2 := ![a 1, b 1]
/-- `vcombine_u64(vld1_u64(in0 + pos), vld1_u64(in1 + pos))`. -/
def combine (inp : Fin 2 → Nat → UInt8) (pos : Nat) : V2 := ![le64 (inp 0) pos, le64 (inp 1) pos]
/-- `vst1q_u64`: the sixteen bytes written. -/
def vst1q (a : V2) : Bytes := store64 (a 0) ++ store64 (a 1)

/-- `vxor(s[i], s[i], t)`. -/
def xorV (s : Nat → V2) (i : Nat) (t : V2) : Nat → V2 := fun j => if j = i then fun l => s i l ^^^ t l else s j

/-- One iteration of the inner loop of `keccakx2_absorb` (fips202x2.c:415-432). -/
def xor4 (inp : Fin 2 → Nat → UInt8) (s : Nat → V2) (i pos : Nat) : Nat → V2 :=
  let a0 := vld1q (inp 0) pos
  let a1 := vld1q (inp 0) (pos + 16)
  let b0 := vld1q (inp 1) pos
  let b1 := vld1q (inp 1) (pos + 16)
  let s := xorV s (i + 0) (zip1 a0 b0)
  let s := xorV s (i + 1) (zip2 a0 b0)
  let s := xorV s (i + 2) (zip1 a1 b1)
  xorV s (i + 3) (zip2 a1 b1)

/-- The number of iterations of `for (i = 0; i < r / 8 - 1; i += 4)`. -/
def quads (r : Nat) : Nat := (r / 8 - 1 + 3) / 4

/-- A full block (fips202x2.c:414-440): the loop, then the last word; `pos` ends at `pos + 32 * quads r + 8`. -/
def xorBlock (r : Nat) (inp : Fin 2 → Nat → UInt8) (s : Nat → V2) (pos : Nat) : Nat → V2 :=
  let s := (List.range (quads r)).foldl (fun s j => xor4 inp s (4 * j) (pos + 32 * j)) s
  xorV s (r / 8 - 1) (combine inp (pos + 32 * quads r))

/-- `while (inlen >= r)` (fips202x2.c:413-444); the results are the state, `pos` and `inlen`. -/
def absorbLoop (K : Perm) (r : Nat) (inp : Fin 2 → Nat → UInt8) (s : Nat → V2) (pos inlen : Nat) : Option ((Nat → V2) × Nat × Nat) :=
  if inlen ≥ r then absorbLoop K r inp (f1600 K (xorBlock r inp s pos)) (pos + 32 * quads r + 8) (inlen - r)
  else some (s, pos, inlen)
partial_fixpoint

/-- `for (i = 0; i < 25; ++i) s[i] = vdupq_n_u64(0);` (fips202x2.c:408-410). -/
def clear (s : Nat → V2) : Nat → V2 := (List.range 25).foldl (fun s i => fun j => if j = i then fun _ => 0 else s j) s

/-- `while (inlen >= 16)` (fips202x2.c:447-461); the results are the state, `i`, `pos` and `inlen`. -/
def tailLoop (inp : Fin 2 → Nat → UInt8) (s : Nat → V2) (i pos inlen : Nat) : (Nat → V2) × Nat × Nat × Nat :=
  if inlen ≥ 16 then
    let a := vld1q (inp 0) pos
    let b := vld1q (inp 1) pos
    let s := xorV s (i + 0) (zip1 a b)
    let s := xorV s (i + 1) (zip2 a b)
    tailLoop inp s (i + 2) (pos + 8 * 2) (inlen - 8 * 2)
  else (s, i, pos, inlen)
termination_by inlen

/-- `if (inlen >= 8)` (fips202x2.c:463-472). -/
def tailWord (inp : Fin 2 → Nat → UInt8) (s : Nat → V2) (i pos inlen : Nat) : (Nat → V2) × Nat × Nat × Nat :=
  if inlen ≥ 8 then (xorV s i (combine inp pos), i + 1, pos + 8, inlen - 8) else (s, i, pos, inlen)

/-- The last bytes under a mask, the domain byte and the last bit of the padding (fips202x2.c:474-487). -/
def tailEnd (r : Nat) (inp : Fin 2 → Nat → UInt8) (p : UInt8) (s : Nat → V2) (i pos inlen : Nat) : Nat → V2 :=
  let s := if inlen ≠ 0 then xorV s i fun l => combine inp pos l &&& (((1 : U64) <<< (8 * inlen)) - 1) else s
  let s := xorV s i fun _ => toU64 p <<< (8 * inlen)
  xorV s (r / 8 - 1) fun _ => (1 : U64) <<< 63

/-- After the loop over full blocks (fips202x2.c:446-487). -/
def absorbTail (r : Nat) (inp : Fin 2 → Nat → UInt8) (p : UInt8) (s : Nat → V2) (pos inlen : Nat) : Nat → V2 :=
  let (s, i, pos, inlen) := tailLoop inp s 0 pos inlen
  let (s, i, pos, inlen) := tailWord inp s i pos inlen
  tailEnd r inp p s i pos inlen

/-- `keccakx2_absorb` (fips202x2.c:393-488). -/
def absorb (K : Perm) (s : Nat → V2) (r : Nat) (inp : Fin 2 → Nat → UInt8) (inlen : Nat) (p : UInt8) : Option (Nat → V2) := do
  let (s, pos, inlen) ← absorbLoop K r inp (clear s) 0 inlen
  return absorbTail r inp p s pos inlen

/-- The bytes of one block written to `out0` and to `out1` (fips202x2.c:513-535). -/
def blockOut (r : Nat) (s : Nat → V2) : Fin 2 → Bytes :=
  ![((List.range (quads r)).flatMap fun j => vst1q (uzp1 (s (4 * j)) (s (4 * j + 1))) ++ vst1q (uzp1 (s (4 * j + 2)) (s (4 * j + 3)))) ++ store64 (s (r / 8 - 1) 0),
    ((List.range (quads r)).flatMap fun j => vst1q (uzp2 (s (4 * j)) (s (4 * j + 1))) ++ vst1q (uzp2 (s (4 * j + 2)) (s (4 * j + 3)))) ++ store64 (s (r / 8 - 1) 1)]

/-- `keccakx2_squeezeblocks` (fips202x2.c:500-538): the bytes appended to the two outputs, and the new state. -/
def squeezeBlocks (K : Perm) (r : Nat) : Nat → (Nat → V2) → (Fin 2 → Bytes) × (Nat → V2)
  | 0, s => (fun _ => [], s)
  | n + 1, s =>
    let s := f1600 K s
    let rest := squeezeBlocks K r n s
    (fun l => blockOut r s l ++ rest.1 l, rest.2)

/-- `shake128x2_absorb` (fips202x2.c:550-555). -/
def shake128x2Absorb (K : Perm) (s : Nat → V2) (inp : Fin 2 → Nat → UInt8) (inlen : Nat) : Option (Nat → V2) := absorb K s 168 inp inlen 0x1F
/-- `shake128x2_squeezeblocks` (fips202x2.c:569-574). -/
def shake128x2SqueezeBlocks (K : Perm) (n : Nat) (s : Nat → V2) : (Fin 2 → Bytes) × (Nat → V2) := squeezeBlocks K 168 n s
/-- `shake256x2_absorb` (fips202x2.c:586-591). -/
def shake256x2Absorb (K : Perm) (s : Nat → V2) (inp : Fin 2 → Nat → UInt8) (inlen : Nat) : Option (Nat → V2) := absorb K s 136 inp inlen 0x1F
/-- `shake256x2_squeezeblocks` (fips202x2.c:605-610). -/
def shake256x2SqueezeBlocks (K : Perm) (n : Nat) (s : Nat → V2) : (Fin 2 → Bytes) × (Nat → V2) := squeezeBlocks K 136 n s

/-- `shake128x2` (fips202x2.c:622-647); `s` is the uninitialised state. -/
def shake128x2 (K : Perm) (s : Nat → V2) (outlen : Nat) (inp : Fin 2 → Nat → UInt8) (inlen : Nat) : Option (Fin 2 → Bytes) := do
  let s ← shake128x2Absorb K s inp inlen
  let o := shake128x2SqueezeBlocks K (outlen / 168) s
  let rest := outlen - outlen / 168 * 168
  if rest ≠ 0 then
    let t := shake128x2SqueezeBlocks K 1 o.2
    return fun l => o.1 l ++ (t.1 l).take rest
  else return o.1

/-- `shake256x2` (fips202x2.c:659-684). -/
def shake256x2 (K : Perm) (s : Nat → V2) (outlen : Nat) (inp : Fin 2 → Nat → UInt8) (inlen : Nat) : Option (Fin 2 → Bytes) := do
  let s ← shake256x2Absorb K s inp inlen
  let o := shake256x2SqueezeBlocks K (outlen / 136) s
  let rest := outlen - outlen / 136 * 136
  if rest ≠ 0 then
    let t := shake256x2SqueezeBlocks K 1 o.2
    return fun l => o.1 l ++ (t.1 l).take rest
  else return o.1

end Verif.Neon.X2
