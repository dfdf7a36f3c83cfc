import Verif.Avx2.Intrin

/-! # poly.c and rounding.c of dilithium2/avx2: the coefficient-wise functions -/

namespace Verif.Avx2
open Verif.Dilithium

/-- `qdata.vec[_8XQ / 8]` (consts.c:11-12, cdecl.h): eight times `q`. -/
def qVec : Ymm := fun j => tab j.1

/-- Loop body of `poly_reduce` (poly.c:38-45). -/
def reduceV (f : Ymm) : Ymm :=
  let g := addEpi32 f (set1 4194304)
  let g := sraiEpi32 g 23
  let g := mulloEpi32 g qVec
  subEpi32 f g
/-- `poly_reduce` (poly.c:31-48). -/
def polyReduceV : VPoly → VPoly := vmap reduceV

/-- Loop body of `poly_caddq` (poly.c:65-70). -/
def caddqV (f : Ymm) : Ymm := addEpi32 f (blendv setzero qVec f)
/-- `poly_caddq` (poly.c:58-73). -/
def polyCaddqV : VPoly → VPoly := vmap caddqV

/-- `poly_add` (poly.c:84-97). -/
def polyAddV : VPoly → VPoly → VPoly := vmap2 addEpi32
/-- `poly_sub` (poly.c:110-123). -/
def polySubV : VPoly → VPoly → VPoly := vmap2 subEpi32
/-- `poly_shiftl` (poly.c:133-145), `D = 13`. -/
def polyShiftlV : VPoly → VPoly := vmap fun f => slliEpi32 f 13

/-- Loop body of `power2round_avx` (rounding.c:32-40): `(f1, f0)`. -/
def power2roundV (f : Ymm) : Ymm × Ymm :=
  let f1 := addEpi32 f (set1 4095)
  let f0 := andSi f1 (set1 (-8192))
  let f1 := srliEpi32 f1 13
  let f0 := subEpi32 f f0
  (f1, f0)
/-- `poly_power2round` (poly.c:219-225, rounding.c:26-41): `(a1, a0)`. -/
def polyPower2roundV (a : VPoly) : VPoly × VPoly := (vmap (fun f => (power2roundV f).1) a, vmap (fun f => (power2roundV f).2) a)

/-- Loop body of `decompose_avx` (rounding.c:69-84): `(f1, f0)`. -/
def decomposeV (f : Ymm) : Ymm × Ymm :=
  let hq := srliEpi32 qVec 1
  let f1 := addEpi32 f (set1 127)
  let f1 := srliEpi32 f1 7
  let f1 := mulhiEpu16 f1 (set1 11275)
  let f1 := mulhrsEpi16 f1 (set1 128)
  let t := subEpi32 (set1 43) f1
  let f1 := blendv f1 setzero t
  let f0 := mulloEpi32 f1 (set1 190464)
  let f0 := subEpi32 f f0
  let g := cmpgtEpi32 f0 hq
  let g := andSi g qVec
  let f0 := subEpi32 f0 g
  (f1, f0)
/-- `poly_decompose` (poly.c:240-246, rounding.c:57-85): `(a1, a0)`. -/
def polyDecomposeV (a : VPoly) : VPoly × VPoly := (vmap (fun f => (decomposeV f).1) a, vmap (fun f => (decomposeV f).2) a)

/-- Loop body of `use_hint_avx` (rounding.c:144-156) from the decomposition `g`, `f` and the hint `h`. -/
def useHintV (g f h : Ymm) : Ymm :=
  let t := blendv setzero h f
  let t := slliEpi32 t 1
  let h := subEpi32 h t
  let g := addEpi32 g h
  let g := blendv g (set1 43) g
  let f := cmpgtEpi32 g (set1 43)
  blendv g setzero f
/-- `poly_use_hint` (poly.c:280-286, rounding.c:136-157). -/
def polyUseHintV (a h : VPoly) : VPoly := fun i =>
  useHintV (ldv (polyDecomposeV a).1 (i.1 / 8)) (ldv (polyDecomposeV a).2 (i.1 / 8)) (ldv h (i.1 / 8)) ⟨i.1 % 8, by omega⟩

/-- The accumulated comparison of `poly_chknorm` (poly.c:310-316) after `n` vectors. -/
def chknormAcc (a : VPoly) (B : Int) : Nat → Ymm
  | 0 => setzero
  | n + 1 => orSi (chknormAcc a B n) (cmpgtEpi32 (absEpi32 (ldv a n)) (set1 (B - 1)))
/-- `poly_chknorm` (poly.c:299-321): the returned `int`. -/
def polyChknormV (a : VPoly) (B : Int) : Int := if B > (8380417 - 1) / 8 then 1 else 1 - testzSelf (chknormAcc a B 32)

/-- The mask of `make_hint_avx` (rounding.c:107-116): which lanes need a hint. -/
def hintBad (f0 f1 : Ymm) : Nat :=
  let g0 := absEpi32 f0
  let g0 := cmpgtEpi32 g0 (set1 95232)
  let g1 := cmpeqEpi32 f0 (set1 (-95232))
  let g1 := signEpi32 g1 f1
  let g0 := orSi g0 g1
  movemaskPs g0

end Verif.Avx2
