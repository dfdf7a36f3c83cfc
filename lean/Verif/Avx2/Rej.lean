import Verif.Avx2.Poly
import Verif.Avx2.IdxLut
import Verif.Dilithium.Poly

/-!
# rejsample.c and the loop of `make_hint_avx`

Arrays written through pointers are functions `Nat → α`: the cell at offset `n` from the pointer, whether or not it belongs to the array, so
that a write outside the array would be visible.  Byte buffers that are read are functions `Nat → UInt8` for the same reason.
-/

namespace Verif.Avx2

open Verif.Dilithium (rejUniform rejEta squeeze)

/-- `storeu_si256((__m256i *)&r[c], v)`. -/
def store8 (r : Nat → W32) (c : Nat) (v : Ymm) : Nat → W32 := fun n => if h : c ≤ n ∧ n < c + 8 then v ⟨n - c, by omega⟩ else r n

/-- Row `b` of `idxlut`, entry `k`. -/
def lutAt (b k : Nat) : Nat := (idxlut.getD b []).getD k 0

/-- `permute4x64_epi64`: qword `q` of the result is the qword of `a` selected by bits `2q`, `2q+1` of the immediate. -/
def permute4x64 (a : Ymm) (imm : Nat) : Ymm := fun j => a (Fin.ofNat 8 (2 * (imm / 4 ^ (j.1 / 2) % 4) + j.1 % 2))

/-- The constant `idx8` (rejsample.c:272-275). -/
def idx8 : Ymm := setEpi8 [-1, 15, 14, 13, -1, 12, 11, 10, -1, 9, 8, 7, -1, 6, 5, 4, -1, 11, 10, 9, -1, 8, 7, 6, -1, 5, 4, 3, -1, 2, 1, 0]

/-- Eight candidates (rejsample.c:279-282): 24 bytes split into dwords of 23 bits.  32 bytes are loaded. -/
def candV (buf : Nat → UInt8) (pos : Nat) : Ymm :=
  let d := loadu (fun k => (buf k).toBitVec) pos
  let d := permute4x64 d 0x94
  let d := shuffleEpi8 d idx8
  andSi d (set1 0x7FFFFF)

/-- `cvtepu8_epi32(loadl_epi64(&idxlut[b]))`. -/
def lutV (b : Nat) : Ymm := fun j => BitVec.ofNat 32 (lutAt b j.1)

/-- The vector loop of `rej_uniform_avx` (rejsample.c:278-296): returns the array, `ctr` and `pos`. -/
def rejUniformSimd (buf : Nat → UInt8) (r : Nat → W32) (ctr pos : Nat) : (Nat → W32) × Nat × Nat :=
  if pos ≤ 840 - 24 then
    let d := candV buf pos
    let good := movemaskPs (subEpi32 d (set1 8380417))
    let r := store8 r ctr (permutevar d (lutV good))
    let ctr := ctr + popcnt good
    if ctr > 256 - 8 then (r, ctr, pos + 24) else rejUniformSimd buf r ctr (pos + 24)
  else (r, ctr, pos)
termination_by 840 - pos

/-- Writing consecutive cells. -/
def writeAt {α : Type} (r : Nat → α) (c : Nat) (l : List α) : Nat → α := fun n => if h : c ≤ n ∧ n < c + l.length then l[n - c]'(by omega) else r n

/-- `rej_uniform_avx` (rejsample.c:266-311).  The scalar loop at the end is the loop of the portable `rej_uniform`: it appends the accepted
candidates of the rest of the buffer until 256 are there. -/
def rejUniformAvx (buf : Nat → UInt8) (r : Nat → W32) : (Nat → W32) × Nat :=
  let (r, ctr, pos) := rejUniformSimd buf r 0 0
  let l := rejUniform (256 - ctr) (squeeze buf pos (840 - pos))
  (writeAt r ctr (l.map (BitVec.ofInt 32)), ctr + l.length)

/-! ## 128-bit registers -/

/-- Byte `k` of a 128-bit register. -/
def byteX (v : Xmm) (k : Nat) : BitVec 8 := byteOf (v (Fin.ofNat 4 (k / 4))) (k % 4)
/-- The 128-bit register of 16 bytes. -/
def ofByteX (f : Nat → BitVec 8) : Xmm := fun j => ofBytes (f (4 * j.1)) (f (4 * j.1 + 1)) (f (4 * j.1 + 2)) (f (4 * j.1 + 3))
/-- `castsi256_si128`. -/
def castSi128 (v : Ymm) : Xmm := fun j => v ⟨j.1, by omega⟩
/-- `extracti128_si256(v, 1)`. -/
def extractHi (v : Ymm) : Xmm := fun j => v ⟨4 + j.1, by omega⟩
/-- `_mm_bsrli_si128(v, 8)`. -/
def bsrli8 (v : Xmm) : Xmm := fun j => if h : j.1 < 2 then v ⟨j.1 + 2, by omega⟩ else 0
/-- `_mm_shuffle_epi8`. -/
def shuffleX (a idx : Xmm) : Xmm := ofByteX fun k => if (byteX idx k).msb then 0 else byteX a ((byteX idx k).toNat % 16)
/-- `_mm_loadl_epi64(&idxlut[b])`. -/
def lutX (b : Nat) : Xmm := ofByteX fun k => if k < 8 then BitVec.ofNat 8 (lutAt b k) else 0
/-- `cvtepi8_epi32`: the low eight bytes, sign extended. -/
def cvtepi8Epi32 (v : Xmm) : Ymm := fun j => (byteX v j.1).signExtend 32
/-- `cvtepu8_epi16(loadu_si128(&buf[pos]))`. -/
def loadWords (buf : Nat → UInt8) (pos : Nat) : Ymm := ofWordY fun k => (buf (pos + k)).toBitVec.setWidth 16

/-- The 32 nibbles of 16 bytes (rejsample.c:326-329). -/
def nibV (buf : Nat → UInt8) (pos : Nat) : Ymm :=
  let f0 := loadWords buf pos
  let f1 := slliEpi16 f0 4
  let f0 := orSi f0 f1
  andSi f0 (set1b 15)

/-- One of the four parts of the loop body of `rej_eta_avx` (rejsample.c:336-343, 351-358, 366-373, 381-388). -/
def etaPart (g0 : Xmm) (good : Nat) (st : (Nat → W32) × Nat) : (Nat → W32) × Nat :=
  let g1 := lutX good
  let g1 := shuffleX g0 g1
  let f1 := cvtepi8Epi32 g1
  let f2 := mulhrsEpi16 f1 (set1 (-6560))
  let f2 := mulloEpi16 f2 (set1 5)
  let f1 := addEpi32 f1 f2
  (store8 st.1 st.2 f1, st.2 + popcnt good)

/-- The vector loop of `rej_eta_avx` (rejsample.c:325-390). -/
def rejEtaSimd (buf : Nat → UInt8) (r : Nat → W32) (ctr pos : Nat) : (Nat → W32) × Nat × Nat :=
  if ctr ≤ 256 - 8 ∧ pos ≤ 136 - 16 then
    let f0 := nibV buf pos
    let f1 := subEpi8 f0 (set1b 15)
    let f0 := subEpi8 (set1b 2) f0
    let good := movemaskEpi8 f1
    let g0 := castSi128 f0
    let st := etaPart g0 (good &&& 0xFF) (r, ctr)
    let good := good >>> 8
    if st.2 > 256 - 8 then (st.1, st.2, pos + 4) else
    let g0 := bsrli8 g0
    let st := etaPart g0 (good &&& 0xFF) st
    let good := good >>> 8
    if st.2 > 256 - 8 then (st.1, st.2, pos + 8) else
    let g0 := extractHi f0
    let st := etaPart g0 (good &&& 0xFF) st
    let good := good >>> 8
    if st.2 > 256 - 8 then (st.1, st.2, pos + 12) else
    let g0 := bsrli8 g0
    let st := etaPart g0 good st
    rejEtaSimd buf st.1 st.2 (pos + 16)
  else (r, ctr, pos)
termination_by 136 - pos

/-- `rej_eta_avx` (rejsample.c:313-408).  The scalar loop at the end is the loop of the portable `rej_eta`. -/
def rejEtaAvx (buf : Nat → UInt8) (r : Nat → W32) : (Nat → W32) × Nat :=
  let (r, ctr, pos) := rejEtaSimd buf r 0 0
  let l := rejEta (256 - ctr) (squeeze buf pos (136 - pos))
  (writeAt r ctr (l.map (BitVec.ofInt 32)), ctr + l.length)

/-! ## make_hint_avx -/

/-- `memcpy(&idx, idxlut[bad], 8); idx += 0x0808080808080808 * i` on a `uint64_t` (rounding.c:117-118). -/
def hintIdx (bad i : Nat) : Nat := (((List.range 8).map fun k => lutAt bad k * 256 ^ k).sum + 0x0808080808080808 * i) % 2 ^ 64

/-- The loop of `make_hint_avx` (rounding.c:107-121) after `n` iterations: the hint array and the counter. -/
def makeHintLoop (a0 a1 : VPoly) (hint : Nat → UInt8) : Nat → (Nat → UInt8) × Nat
  | 0 => (hint, 0)
  | i + 1 =>
    let (h, n) := makeHintLoop a0 a1 hint i
    let bad := hintBad (ldv a0 i) (ldv a1 i)
    let idx := hintIdx bad i
    (writeAt h n ((List.range 8).map fun k => UInt8.ofNat (idx / 256 ^ k % 256)), n + popcnt bad)

/-- `poly_make_hint` / `make_hint_avx` (rounding.c:99-124): the hint array and the number of hints. -/
def makeHintAvx (a0 a1 : VPoly) (hint : Nat → UInt8) : (Nat → UInt8) × Nat := makeHintLoop a0 a1 hint 32

end Verif.Avx2
