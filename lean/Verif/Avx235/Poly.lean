import Verif.Avx2.Pack
import Verif.Avx2.Poly
import Verif.Dilithium35.Model

/-!
# The vectorised functions of dilithium3/avx2 and dilithium5/avx2 that differ from those of dilithium2/avx2

`γ2 = (q-1)/32`, `γ1 = 2^19` in both; `η = 4` in dilithium3 (that of dilithium5 is that of dilithium2, and so is its `rej_eta_avx`).  The rounding.c
files of the two are the same text up to names, and so are the functions here of the two poly.c.  Everything else in poly.c is shared with dilithium2/avx2.
Line numbers are those of dilithium3/avx2.
-/

namespace Verif.Avx235

open Verif.Avx2

/-- Loop body of `decompose_avx` (rounding.c:69-80): `(f1, f0)`; `alpha = 2 * GAMMA2`. -/
def decomposeV (f : Ymm) : Ymm × Ymm :=
  let hq := srliEpi32 qVec 1
  let f1 := addEpi32 f (set1 127)
  let f1 := srliEpi32 f1 7
  let f1 := mulhiEpu16 f1 (set1 1025)
  let f1 := mulhrsEpi16 f1 (set1 512)
  let f1 := andSi f1 (set1 15)
  let f0 := mulloEpi32 f1 (set1 523776)
  let f0 := subEpi32 f f0
  let g := cmpgtEpi32 f0 hq
  let g := andSi g qVec
  let f0 := subEpi32 f0 g
  (f1, f0)
/-- `poly_decompose` (poly.c:240-246, rounding.c:57-83): `(a1, a0)`. -/
def polyDecomposeV (a : VPoly) : VPoly × VPoly := (vmap (fun f => (decomposeV f).1) a, vmap (fun f => (decomposeV f).2) a)

/-- Loop body of `use_hint_avx` (rounding.c:142-152) from the decomposition `g`, `f` and the hint `h`. -/
def useHintV (g f h : Ymm) : Ymm :=
  let t := blendv setzero h f
  let t := slliEpi32 t 1
  let h := subEpi32 h t
  let g := addEpi32 g h
  andSi g (set1 15)
/-- `poly_use_hint` (poly.c:280-286, rounding.c:134-153). -/
def polyUseHintV (a h : VPoly) : VPoly := fun i =>
  useHintV (ldv (polyDecomposeV a).1 (i.1 / 8)) (ldv (polyDecomposeV a).2 (i.1 / 8)) (ldv h (i.1 / 8)) ⟨i.1 % 8, by omega⟩

/-- The mask of `make_hint_avx` (rounding.c:105-112): which lanes need a hint. -/
def hintBad (f0 f1 : Ymm) : Nat :=
  let g0 := absEpi32 f0
  let g0 := cmpgtEpi32 g0 (set1 261888)
  let g1 := cmpeqEpi32 f0 (set1 (-261888))
  let g1 := signEpi32 g1 f1
  let g0 := orSi g0 g1
  movemaskPs g0

/-- The loop of `make_hint_avx` (rounding.c:104-119) after `n` iterations: the hint array and the counter. -/
def makeHintLoop (a0 a1 : VPoly) (hint : Nat → UInt8) : Nat → (Nat → UInt8) × Nat
  | 0 => (hint, 0)
  | i + 1 =>
    let (h, n) := makeHintLoop a0 a1 hint i
    let bad := hintBad (ldv a0 i) (ldv a1 i)
    let idx := hintIdx bad i
    (writeAt h n ((List.range 8).map fun k => UInt8.ofNat (idx / 256 ^ k % 256)), n + popcnt bad)

/-- `poly_make_hint` / `make_hint_avx` (rounding.c:97-122): the hint array and the number of hints. -/
def makeHintAvx (a0 a1 : VPoly) (hint : Nat → UInt8) : (Nat → UInt8) × Nat := makeHintLoop a0 a1 hint 32

/-! ## Packings -/

/-- `shufbidx` of `polyz_unpack` (poly.c:920-921). -/
def zShuf : Ymm := setEpi8 [-1, 11, 10, 9, -1, 9, 8, 7, -1, 6, 5, 4, -1, 4, 3, 2, -1, 9, 8, 7, -1, 7, 6, 5, -1, 4, 3, 2, -1, 2, 1, 0]

/-- `set1_epi64x((uint64_t)4 << 32)` as dwords. -/
def zShift : Ymm := fun j => if j.1 % 2 = 0 then 0 else 4

/-- Loop body of `polyz_unpack` (poly.c:928-934): eight coefficients from 20 bytes; 32 bytes are loaded. -/
def zUnpackV (b : Nat → UInt8) (i : Nat) : Ymm :=
  let f := loadu (fun k => (b k).toBitVec) (20 * i)
  let f := permute4x64 f 0x94
  let f := shuffleEpi8 f zShuf
  let f := srlvEpi32 f zShift
  let f := andSi f (set1 0xFFFFF)
  subEpi32 (set1 524288) f

/-- `polyz_unpack` (poly.c:917-938). -/
def polyzUnpackV (b : Nat → UInt8) : VPoly := fun i => zUnpackV b (i.1 / 8) ⟨i.1 % 8, by omega⟩

/-- `shufbidx` of `polyw1_pack` (poly.c:954-955). -/
def w1Shuf : Ymm := setEpi8 [15, 14, 7, 6, 13, 12, 5, 4, 11, 10, 3, 2, 9, 8, 1, 0, 15, 14, 7, 6, 13, 12, 5, 4, 11, 10, 3, 2, 9, 8, 1, 0]

/-- Loop body of `polyw1_pack` (poly.c:959-979) from eight vectors: the vector stored. -/
def w1PackV (f : Fin 8 → Ymm) : Ymm :=
  let f0 := packusEpi32 (f 0) (f 1)
  let f1 := packusEpi32 (f 2) (f 3)
  let f2 := packusEpi32 (f 4) (f 5)
  let f3 := packusEpi32 (f 6) (f 7)
  let f0 := packusEpi16 f0 f1
  let f1 := packusEpi16 f2 f3
  let f0 := maddubs f0 (set1w ((16 <<< 8) + 1))
  let f1 := maddubs f1 (set1w ((16 <<< 8) + 1))
  let f0 := packusEpi16 f0 f1
  let f0 := permute4x64 f0 0xD8
  shuffleEpi8 f0 w1Shuf

/-- The loop of `polyw1_pack` (poly.c:958-980) after `n` iterations, the output starting at offset `off`. -/
def polyw1PackLoop (r : Nat → UInt8) (off : Nat) (a : VPoly) : Nat → Nat → UInt8
  | 0 => r
  | i + 1 => store32 (polyw1PackLoop r off a i) (off + 32 * i) (w1PackV fun v => ldv a (8 * i + v.1))

/-- `polyw1_pack` (poly.c:950-983): 128 bytes at `off`. -/
def polyw1PackV (r : Nat → UInt8) (off : Nat) (a : VPoly) : Nat → UInt8 := polyw1PackLoop r off a 4

/-! ## rej_eta_avx of dilithium3 -/

/-- One of the four parts of the loop body of `rej_eta_avx` (rejsample.c:333-337, 345-349, 357-361, 372-376). -/
def etaPart4 (g0 : Xmm) (good : Nat) (st : (Nat → W32) × Nat) : (Nat → W32) × Nat :=
  let g1 := lutX good
  let g1 := shuffleX g0 g1
  let f1 := cvtepi8Epi32 g1
  (store8 st.1 st.2 f1, st.2 + popcnt good)

/-- The vector loop of `rej_eta_avx` (rejsample.c:323-378); `REJ_UNIFORM_ETA_BUFLEN` is 272. -/
def rejEta4Simd (buf : Nat → UInt8) (r : Nat → W32) (ctr pos : Nat) : (Nat → W32) × Nat × Nat :=
  if ctr ≤ 256 - 8 ∧ pos ≤ 272 - 16 then
    let f0 := nibV buf pos
    let f1 := subEpi8 f0 (set1b 9)
    let f0 := subEpi8 (set1b 4) f0
    let good := movemaskEpi8 f1
    let g0 := castSi128 f0
    let st := etaPart4 g0 (good &&& 0xFF) (r, ctr)
    let good := good >>> 8
    if st.2 > 256 - 8 then (st.1, st.2, pos + 4) else
    let g0 := bsrli8 g0
    let st := etaPart4 g0 (good &&& 0xFF) st
    let good := good >>> 8
    if st.2 > 256 - 8 then (st.1, st.2, pos + 8) else
    let g0 := extractHi f0
    let st := etaPart4 g0 (good &&& 0xFF) st
    let good := good >>> 8
    if st.2 > 256 - 8 then (st.1, st.2, pos + 12) else
    let g0 := bsrli8 g0
    let st := etaPart4 g0 good st
    rejEta4Simd buf st.1 st.2 (pos + 16)
  else (r, ctr, pos)
termination_by 272 - pos

/-- `rej_eta_avx` (rejsample.c:313-392).  The scalar loop at the end is the loop of the portable `rej_eta`. -/
def rejEta4Avx (buf : Nat → UInt8) (r : Nat → W32) : (Nat → W32) × Nat :=
  let (r, ctr, pos) := rejEta4Simd buf r 0 0
  let l := Dilithium35.rejEta4 (256 - ctr) (Dilithium.squeeze buf pos (272 - pos))
  (writeAt r ctr (l.map (BitVec.ofInt 32)), ctr + l.length)

end Verif.Avx235
