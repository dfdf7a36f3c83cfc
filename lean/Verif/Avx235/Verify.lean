import Verif.Avx235.Rows
import Verif.Avx235.HintLemmas
import Verif.Avx235.PackLemmas

/-!
# `crypto_sign_verify` and `crypto_sign_open` (sign.c of dilithium3/avx2 and dilithium5/avx2)

Line numbers are those of dilithium3; dilithium5 has the same text ten lines further down.  As in the model of dilithium2/avx2, `Junk` is what the
routines find in uninitialised memory and registers, buffers are memories `Nat → UInt8`.  `poly_challenge` and `polyt1_unpack` have the same source
as in the portable code up to casts.
-/

namespace Verif.Avx235

open Verif.Dilithium (Shake Poly CSem polyt1Unpack shake256 unpackHintPoly at8)
open Verif.Dilithium35 (Mode polyChallenge)
open Verif.Avx2 (VPoly Junk Mach nttC invnttC pointwiseC' polyShiftlV polySubV polyReduceV polyCaddqV ofP readB writeAt)

variable (md : Mode) (C : CSem) (H : Shake)

/-- Row `i` of `A·z - c·2^13·t1` in `crypto_sign_verify` (sign.c:329-338), `row` already expanded. -/
def verifyMul (J : Fin 4 → Junk) (pk : Bytes) (c : VPoly) (z : Fin md.L → VPoly) (i : Fin md.K) (row : Fin md.L → VPoly) : VPoly :=
  let w1 := pointwiseAccL (J 0).mach row z
  let h := ofP (polyt1Unpack C (pk.drop (32 + i.1 * 320)))
  let h := polyShiftlV h
  let h := nttC (J 1).mach h
  let h := pointwiseC' (J 2).mach c h
  let w1 := polySubV w1 h
  let w1 := polyReduceV w1
  invnttC (J 3).mach w1

/-- Row `i`'s hint polynomial and the new `pos` (sign.c:341-353); `none` is `return -1`. -/
def rowHintA (hint : Bytes) (pos : Nat) (i : Fin md.K) : Option (Poly × Nat) :=
  let hi := (at8 C hint (md.OMEGA + i.1)).toNat
  if hi < pos ∨ hi > md.OMEGA then none else (unpackHintPoly C hint pos hi).map fun h => (h, hi)

/-- One row of `crypto_sign_verify` (sign.c:325-358) on the buffer and `pos`: `some none` is `return -1`. -/
def verifyRow (J : Fin md.K → RowJunk) (J' : Fin md.K → Fin 4 → Junk) (sig pk : Bytes) (c : VPoly) (z : Fin md.L → VPoly) (st : (Nat → UInt8) × Nat)
    (i : Fin md.K) : Option (Option ((Nat → UInt8) × Nat)) := do
  let row ← rowAlt md H (J i) (pk.take 32) i
  let w1 := verifyMul md C (J' i) pk c z i row
  return (rowHintA md C (sig.drop (md.CTILDE + md.L * 640)) st.2 i).map fun h => (polyw1PackV st.1 (i.1 * 128) (polyUseHintV (polyCaddqV w1) (ofP h.1)), h.2)

/-- The rows in order, until one returns -1. -/
def verifyRows (J : Fin md.K → RowJunk) (J' : Fin md.K → Fin 4 → Junk) (sig pk : Bytes) (c : VPoly) (z : Fin md.L → VPoly) :
    List (Fin md.K) → (Nat → UInt8) × Nat → Option (Option ((Nat → UInt8) × Nat))
  | [], st => some (some st)
  | i :: l, st => (verifyRow md C H J J' sig pk c z st i).bind fun o => o.elim (some none) (verifyRows J J' sig pk c z l)

/-- After the rows (sign.c:360-381): the padding check and the comparison of the challenges. -/
def verifyEnd (sig mu : Bytes) (st : (Nat → UInt8) × Nat) : Bool :=
  if (List.range' st.2 (md.OMEGA - st.2)).any fun j => decide (at8 C (sig.drop (md.CTILDE + md.L * 640)) j ≠ 0) then false else
  let buf := writeAt st.1 0 (shake256 H md.CTILDE (mu ++ readB st.1 0 (md.K * 128)))
  (List.range md.CTILDE).all fun k => decide (buf k = sig.getD k 0)

/-- Uninitialised memory of one call of `crypto_sign_verify`. -/
structure VerifyJunk (md : Mode) where
  chal : Junk
  z : Fin md.L → Junk
  buf : Nat → UInt8
  row : Fin md.K → RowJunk
  mul : Fin md.K → Fin 4 → Junk

/-- `crypto_sign_verify` (sign.c:290-382): `some true` is the return value 0.  (`polyz_unpack` over-reads within `sig`.) -/
def verifyA (J : VerifyJunk md) (sig m pk : Bytes) : Option Bool :=
  if sig.length ≠ md.SIGLEN then some false else do
  let mu := shake256 H 64 (pk.take md.PKLEN)
  let mu := shake256 H 64 (mu ++ m)
  let c ← polyChallenge md C H sig
  let c := nttC J.chal.mach (ofP c)
  let z := fun i : Fin md.L => polyzUnpackV fun k => sig.getD (md.CTILDE + i.1 * 640 + k) 0
  let z := fun i => nttC (J.z i).mach (z i)
  let o ← verifyRows md C H J.row J.mul sig pk c z (List.finRange md.K) (J.buf, 0)
  return o.elim false (verifyEnd md C H sig mu)

/-- `crypto_sign_open` (sign.c:398-424; dilithium5: 408-434): the message on success. -/
def cryptoOpenA (J : VerifyJunk md) (sm pk : Bytes) : Option (Option Bytes) :=
  if sm.length < md.SIGLEN then some none
  else do
    let ok ← verifyA md C H J (sm.take md.SIGLEN) (sm.drop md.SIGLEN) pk
    return if ok then some (sm.drop md.SIGLEN) else none

end Verif.Avx235
