import Verif.Avx2.F1600X4

/-!
# Four-way SHAKE of dilithium2/avx2 (fips202x4.c)

The state `s` is the array of 25 vectors `__m256i s[25]`, addressed by byte offset (`s[i]` is at `32 * i`), as in the model of the assembly.
The four input pointers are four memories `Nat → UInt8`: the last gather reads up to 7 bytes after the input, and these bytes are arbitrary.
`R` gives the vector registers with which the assembly routine is called, as an arbitrary function of the state.
-/

namespace Verif.Avx2.X4

open Verif.Keccak (U64 toU64 toU8 store64)
open Verif.Avx2.F1600

/-- `KeccakF_RoundConstants` (fips202x4.c:11-36). -/
def roundConstants : List U64 := [
  0x0000000000000001, 0x0000000000008082, 0x800000000000808a, 0x8000000080008000, 0x000000000000808b, 0x0000000080000001,
  0x8000000080008081, 0x8000000000008009, 0x000000000000008a, 0x0000000000000088, 0x0000000080008009, 0x000000008000000a,
  0x000000008000808b, 0x800000000000008b, 0x8000000000008089, 0x8000000000008003, 0x8000000000008002, 0x8000000000000080,
  0x000000000000800a, 0x800000008000000a, 0x8000000080008081, 0x8000000000008080, 0x0000000080000001, 0x8000000080008008]

/-- The registers at a call of the assembly routine. -/
abbrev Regs := (Nat → Q4) → Nat → Q4

/-- The call `f1600x4(s, KeccakF_RoundConstants)` (fips202x4.c:63, 104). -/
def f1600 (R : Regs) (s : Nat → Q4) : Nat → Q4 := f1600x4 (fun k => roundConstants.getD k 0) (R s) s

/-- A little-endian 64-bit load. -/
def le64 (m : Nat → UInt8) (pos : Nat) : U64 := (List.range 8).foldl (fun r i => r ||| (toU64 (m (pos + i)) <<< (8 * i))) 0

/-- `_mm256_i64gather_epi64(pos, idx, 1)` with `idx` the four input pointers: lane `l` is the 8 bytes at `in_l + pos`. -/
def gather (inp : Fin 4 → Nat → UInt8) (pos : Nat) : Q4 := fun l => le64 (inp l) pos

/-- `s[i] = _mm256_xor_si256(s[i], t)`. -/
def xorV (s : Nat → Q4) (i : Nat) (t : Q4) : Nat → Q4 := upd s (32 * i) fun l => s (32 * i) l ^^^ t l

/-- `for (i = 0; i < n; ++i) { t = gather(pos); s[i] ^= t; pos += 8; }` (fips202x4.c:56-60, 66-70); afterwards `pos` is `pos + 8 * n`. -/
def xorWords (inp : Fin 4 → Nat → UInt8) (n : Nat) (s : Nat → Q4) (pos : Nat) : Nat → Q4 :=
  (List.range n).foldl (fun s i => xorV s i (gather inp (pos + 8 * i))) s

/-- `while (inlen >= r) { … }` (fips202x4.c:55-64); the results are the state, `pos` and `inlen`. -/
def absorbLoop (R : Regs) (r : Nat) (inp : Fin 4 → Nat → UInt8) (s : Nat → Q4) (pos inlen : Nat) : Option ((Nat → Q4) × Nat × Nat) :=
  if inlen ≥ r then absorbLoop R r inp (f1600 R (xorWords inp (r / 8) s pos)) (pos + 8 * (r / 8)) (inlen - r)
  else some (s, pos, inlen)
partial_fixpoint

/-- `for (i = 0; i < 25; ++i) s[i] = _mm256_setzero_si256();` (fips202x4.c:50-52). -/
def clear (s : Nat → Q4) : Nat → Q4 := (List.range 25).foldl (fun s i => upd s (32 * i) fun _ => 0) s

/-- After the loop (fips202x4.c:66-84): the remaining words, the remaining bytes under a mask, the domain byte and the last bit of the padding. -/
def absorbTail (r : Nat) (inp : Fin 4 → Nat → UInt8) (p : UInt8) (s : Nat → Q4) (pos inlen : Nat) : Nat → Q4 :=
  let i := inlen / 8
  let s := xorWords inp i s pos
  let pos := pos + 8 * i
  let inlen := inlen - 8 * i
  let s := if inlen ≠ 0 then xorV s i fun l => gather inp pos l &&& (((1 : U64) <<< (8 * inlen)) - 1) else s
  let s := xorV s i fun _ => toU64 p <<< (8 * inlen)
  xorV s (r / 8 - 1) fun _ => (1 : U64) <<< 63

/-- `keccakx4_absorb_once` (fips202x4.c:38-85). -/
def absorbOnce (R : Regs) (s : Nat → Q4) (r : Nat) (inp : Fin 4 → Nat → UInt8) (inlen : Nat) (p : UInt8) : Option (Nat → Q4) := do
  let (s, pos, inlen) ← absorbLoop R r inp (clear s) 0 inlen
  return absorbTail r inp p s pos inlen

/-- `keccakx4_squeezeblocks` (fips202x4.c:87-125): the bytes appended to the four outputs (lanes 0 and 1 are the low and high quadword of the low half
of `s[i]`, lanes 2 and 3 those of the high half), and the new state. -/
def squeezeBlocks (R : Regs) (r : Nat) : Nat → (Nat → Q4) → (Fin 4 → Bytes) × (Nat → Q4)
  | 0, s => (fun _ => [], s)
  | n + 1, s =>
    let s := f1600 R s
    let rest := squeezeBlocks R r n s
    (fun l => ((List.range (r / 8)).flatMap fun i => store64 (s (32 * i) l)) ++ rest.1 l, rest.2)

/-- `shake128x4_absorb_once` (fips202x4.c:127-134); `SHAKE128_RATE` is 168 (fips202.h). -/
def shake128x4AbsorbOnce (R : Regs) (s : Nat → Q4) (inp : Fin 4 → Nat → UInt8) (inlen : Nat) : Option (Nat → Q4) := absorbOnce R s 168 inp inlen 0x1F
/-- `shake128x4_squeezeblocks` (fips202x4.c:136-143). -/
def shake128x4SqueezeBlocks (R : Regs) (n : Nat) (s : Nat → Q4) : (Fin 4 → Bytes) × (Nat → Q4) := squeezeBlocks R 168 n s
/-- `shake256x4_absorb_once` (fips202x4.c:145-152); `SHAKE256_RATE` is 136 (fips202.h). -/
def shake256x4AbsorbOnce (R : Regs) (s : Nat → Q4) (inp : Fin 4 → Nat → UInt8) (inlen : Nat) : Option (Nat → Q4) := absorbOnce R s 136 inp inlen 0x1F
/-- `shake256x4_squeezeblocks` (fips202x4.c:154-161). -/
def shake256x4SqueezeBlocks (R : Regs) (n : Nat) (s : Nat → Q4) : (Fin 4 → Bytes) × (Nat → Q4) := squeezeBlocks R 136 n s

/-- `shake128x4` (fips202x4.c:163-197); `s` is the uninitialised state. -/
def shake128x4 (R : Regs) (s : Nat → Q4) (outlen : Nat) (inp : Fin 4 → Nat → UInt8) (inlen : Nat) : Option (Fin 4 → Bytes) := do
  let s ← shake128x4AbsorbOnce R s inp inlen
  let o := shake128x4SqueezeBlocks R (outlen / 168) s
  let rest := outlen - outlen / 168 * 168
  if rest ≠ 0 then
    let t := shake128x4SqueezeBlocks R 1 o.2
    return fun l => o.1 l ++ (t.1 l).take rest
  else return o.1

/-- `shake256x4` (fips202x4.c:199-233). -/
def shake256x4 (R : Regs) (s : Nat → Q4) (outlen : Nat) (inp : Fin 4 → Nat → UInt8) (inlen : Nat) : Option (Fin 4 → Bytes) := do
  let s ← shake256x4AbsorbOnce R s inp inlen
  let o := shake256x4SqueezeBlocks R (outlen / 136) s
  let rest := outlen - outlen / 136 * 136
  if rest ≠ 0 then
    let t := shake256x4SqueezeBlocks R 1 o.2
    return fun l => o.1 l ++ (t.1 l).take rest
  else return o.1

end Verif.Avx2.X4
