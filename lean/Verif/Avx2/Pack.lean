import Verif.Avx2.Rej

/-! # The vectorised packings of poly.c -/

namespace Verif.Avx2

/-- `shufbidx` of `polyz_unpack` (poly.c:952-953). -/
def zShuf : Ymm := setEpi8 [-1, 9, 8, 7, -1, 7, 6, 5, -1, 5, 4, 3, -1, 3, 2, 1, -1, 8, 7, 6, -1, 6, 5, 4, -1, 4, 3, 2, -1, 2, 1, 0]

/-- Loop body of `polyz_unpack` (poly.c:960-965): eight coefficients from 18 bytes; 32 bytes are loaded. -/
def zUnpackV (b : Nat → UInt8) (i : Nat) : Ymm :=
  let f := loadu (fun k => (b k).toBitVec) (18 * i)
  let f := permute4x64 f 0x94
  let f := shuffleEpi8 f zShuf
  let f := srlvEpi32 f (setEpi32 [6, 4, 2, 0, 6, 4, 2, 0])
  let f := andSi f (set1 0x3FFFF)
  subEpi32 (set1 131072) f

/-- `polyz_unpack` (poly.c:949-970). -/
def polyzUnpackV (b : Nat → UInt8) : VPoly := fun i => zUnpackV b (i.1 / 8) ⟨i.1 % 8, by omega⟩

/-- `set1_epi16`. -/
def set1w (x : Nat) : Ymm := fun _ => ofWords (BitVec.ofNat 16 x) (BitVec.ofNat 16 x)

/-- `shufbidx` of `polyw1_pack` (poly.c:989-990). -/
def w1Shuf : Ymm := setEpi8 [-1, -1, -1, -1, 14, 13, 12, 10, 9, 8, 6, 5, 4, 2, 1, 0, -1, -1, -1, -1, 14, 13, 12, 10, 9, 8, 6, 5, 4, 2, 1, 0]

/-- Loop body of `polyw1_pack` (poly.c:994-1005) from four vectors: the vector stored. -/
def w1PackV (f0 f1 f2 f3 : Ymm) : Ymm :=
  let f0 := packusEpi32 f0 f1
  let f1 := packusEpi32 f2 f3
  let f0 := packusEpi16 f0 f1
  let f0 := maddubs f0 (set1w ((64 <<< 8) + 1))
  let f0 := maddEpi16 f0 (set1 ((4096 <<< 16) + 1))
  let f0 := permutevar f0 (setEpi32 [7, 3, 6, 2, 5, 1, 4, 0])
  let f0 := shuffleEpi8 f0 w1Shuf
  permutevar f0 (setEpi32 [-1, -1, 6, 5, 4, 2, 1, 0])

/-- `storeu_si256((__m256i *)&r[c], v)` to bytes. -/
def store32 (r : Nat → UInt8) (c : Nat) (v : Ymm) : Nat → UInt8 := fun n => if c ≤ n ∧ n < c + 32 then UInt8.ofBitVec (byteY v (n - c)) else r n

/-- The loop of `polyw1_pack` (poly.c:993-1007) after `n` iterations, the output starting at offset `off`. -/
def polyw1PackLoop (r : Nat → UInt8) (off : Nat) (a : VPoly) : Nat → Nat → UInt8
  | 0 => r
  | i + 1 => store32 (polyw1PackLoop r off a i) (off + 24 * i) (w1PackV (ldv a (4 * i)) (ldv a (4 * i + 1)) (ldv a (4 * i + 2)) (ldv a (4 * i + 3)))

/-- `polyw1_pack` (poly.c:982-1010): 192 bytes at `off`, and 8 more. -/
def polyw1PackV (r : Nat → UInt8) (off : Nat) (a : VPoly) : Nat → UInt8 := polyw1PackLoop r off a 8

end Verif.Avx2
