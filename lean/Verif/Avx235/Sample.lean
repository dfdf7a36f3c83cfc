import Verif.Avx235.Poly
import Verif.Avx2.Sample

/-!
# The four-way samplers of poly.c (dilithium3/avx2 and dilithium5/avx2)

`poly_uniform_4x` is that of dilithium2/avx2, and so is `poly_uniform_eta_4x` of dilithium5/avx2 (poly.c:513-563 there).  The streams are streams of
the hash `H`, as in the portable model; `Junk` is what the routines find in uninitialised memory.
-/

namespace Verif.Avx235

open Verif.Dilithium (Shake squeeze stream256)
open Verif.Dilithium35 (Mode rejEta4)
open Verif.Avx2 (VPoly Junk lockLoop filled readPoly)

/-- `poly_uniform_eta_4x` of dilithium3/avx2 (poly.c:511-561): two blocks of 136 bytes first. -/
def polyUniformEta4x3 (H : Shake) (J : Junk) (seed : Bytes) (nonce : Fin 4 → UInt16) : Option (Fin 4 → VPoly) := do
  let s := fun k => stream256 H (seed.take 64) (nonce k)
  let st ← lockLoop (fun k pos len => rejEta4 len (squeeze (s k) pos 136)) 136 (fun k => rejEta4Avx (filled J (s k) 272) J.coeffs) 272
  return fun k => readPoly (st k).1

/-- `poly_uniform_eta_4x` (dilithium3 poly.c:511-561, dilithium5 poly.c:513-563). -/
def polyUniformEta4x (md : Mode) (H : Shake) (J : Junk) (seed : Bytes) (nonce : Fin 4 → UInt16) : Option (Fin 4 → VPoly) :=
  match md with
  | .three => polyUniformEta4x3 H J seed nonce
  | .five => Avx2.polyUniformEta4x H J seed nonce

/-- `poly_uniform_gamma1_4x` (dilithium3 poly.c:590-630, dilithium5 poly.c:592-632): 5 blocks of 136 bytes. -/
def polyUniformGamma14x (H : Shake) (J : Junk) (seed : Bytes) (nonce : Fin 4 → UInt16) : Fin 4 → VPoly :=
  fun k => polyzUnpackV (filled J (stream256 H (seed.take 64) (nonce k)) 680)

/-- `poly_uniform_gamma1` (dilithium3 poly.c:576-588, dilithium5 poly.c:578-590). -/
def polyUniformGamma1 (H : Shake) (J : Junk) (seed : Bytes) (nonce : UInt16) : VPoly :=
  polyzUnpackV (filled J (stream256 H (seed.take 64) nonce) 680)

end Verif.Avx235
