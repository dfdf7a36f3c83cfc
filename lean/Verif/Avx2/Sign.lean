import Verif.Avx2.Sample
import Verif.Avx2.NttInt

/-!
# `sign.c` and the matrix functions of `polyvec.c` (dilithium2/avx2)

Key, signature and commitment buffers are memories (`Nat → UInt8`) whose initial contents come from `Junk`: every call site has its own arbitrary
contents of uninitialised memory and registers, `J n`.  `poly_challenge`, `polyeta_pack`, `polyt1_pack`, `polyt0_pack`, `polyz_pack`, `polyeta_unpack`,
`polyt1_unpack`, `polyt0_unpack`, `unpack_sk` have the same source as in dilithium2/clean up to casts (and a little-endian `memcpy` for a
shift loop), so the portable model is reused for them.
-/

namespace Verif.Avx2

open Verif.Dilithium (Shake Poly CSem polyetaPack polyt1Pack polyt0Pack polyzPack polyt1Unpack polyChallenge unpackSk shake256 unpackHintPoly at8)

/-- A polynomial in `int32_t` coefficients. -/
def ofP (p : Poly) : VPoly := fun i => BitVec.ofInt 32 (p i)

/-- `n` bytes of a buffer from `off` on. -/
def readB (m : Nat → UInt8) (off n : Nat) : Bytes := (List.range n).map fun k => m (off + k)

variable (C : CSem) (H : Shake)

/-- The nonces of `polyvec_matrix_expand_row0` to `row3` (polyvec.c:28-62). -/
def rowNonce : Fin 4 → Fin 4 → UInt16 := ![![0, 1, 2, 3], ![256, 257, 258, 259], ![512, 513, 514, 515], ![768, 769, 770, 771]]

/-- `polyvec_matrix_expand_row` (sign.c:13-32, polyvec.c:28-62): row `i`, reordered by `nttunpack`.  (The two alternating row buffers of sign.c are
abstracted: a row is used before the next one is expanded.) -/
def expandRow (J : Fin 5 → Junk) (rho : Bytes) (i : Fin 4) : Option (Fin 4 → VPoly) := do
  let r ← polyUniform4x H (J 0) rho (rowNonce i)
  return fun j => nttunpackC (J j.succ).mach (r j)

/-- One iteration of the loop of `crypto_sign_keypair` (sign.c:82-98) on `(pk, sk)`. -/
def keypairStep (J : Fin 4 → Fin 10 → Junk) (rho : Bytes) (s1hat s2 : Fin 4 → VPoly) (st : (Nat → UInt8) × (Nat → UInt8)) (i : Fin 4) :
    Option ((Nat → UInt8) × (Nat → UInt8)) := do
  let row ← expandRow H (fun n => J i (n.castLE (by omega))) rho i
  let t1 := pointwiseAccC (J i 5).mach row s1hat
  let t1 := invnttC (J i 6).mach t1
  let t1 := polyAddV t1 (s2 i)
  let t1 := polyCaddqV t1
  let (t1, t0) := polyPower2roundV t1
  let pk := writeAt st.1 (32 + i.1 * 320) (polyt1Pack (ti t1))
  let sk := writeAt st.2 (128 + 8 * 96 + i.1 * 416) (polyt0Pack C (ti t0))
  return (pk, sk)

/-- `crypto_sign_keypair` (sign.c:46-104) after `randombytes` filled the first 32 bytes of `seedbuf` with `coins`: `(pk, sk)`. -/
def keypairA (J : Fin 8 → Junk) (J' : Fin 4 → Fin 10 → Junk) (coins : Bytes) : Option (Bytes × Bytes) := do
  let seedbuf := shake256 H 128 (coins.take 32)
  let rho := seedbuf.take 32
  let rhoprime := (seedbuf.drop 32).take 64
  let key := (seedbuf.drop 96).take 32
  let pk := writeAt (J 0).bytes 0 rho
  let sk := writeAt (J 1).bytes 0 rho
  let sk := writeAt sk 32 key
  let s1 ← polyUniformEta4x H (J 2) rhoprime ![0, 1, 2, 3]
  let s2 ← polyUniformEta4x H (J 3) rhoprime ![4, 5, 6, 7]
  let sk := (List.finRange 4).foldl (fun sk i => writeAt sk (128 + i.1 * 96) (polyetaPack C (ti (s1 i)))) sk
  let sk := (List.finRange 4).foldl (fun sk i => writeAt sk (128 + (4 + i.1) * 96) (polyetaPack C (ti (s2 i)))) sk
  let s1hat := fun i => nttC (J (i.castLE (by omega) + 4)).mach (s1 i)
  let (pk, sk) ← (List.finRange 4).foldlM (keypairStep C H J' rho s1hat s2) (pk, sk)
  let sk := writeAt sk 64 (shake256 H 64 (readB pk 0 1312))
  return (readB pk 0 1312, readB sk 0 2560)

/-- What the signing loop works with (sign.c:133-158). -/
structure CtxA where
  mu : Bytes
  rhoprime : Bytes
  mat : Fin 4 → Fin 4 → VPoly
  s1 : Fin 4 → VPoly
  s2 : Fin 4 → VPoly
  t0 : Fin 4 → VPoly

/-- The prologue of `crypto_sign_signature` (sign.c:133-158). -/
def signCtxA (J : Fin 3 → Fin 4 → Junk) (J' : Fin 4 → Fin 5 → Junk) (m sk : Bytes) : Option CtxA := do
  let f := unpackSk C sk
  let mu := shake256 H 64 (f.tr ++ m)
  let rnd := List.replicate 32 0
  let rhoprime := shake256 H 64 (f.key ++ rnd ++ mu)
  let mat ← Dilithium.forVec fun i => expandRow H (J' i) f.rho i
  return { mu := mu, rhoprime := rhoprime, mat := mat, s1 := fun i => nttC (J 0 i).mach (ofP (f.s1 i)), s2 := fun i => nttC (J 1 i).mach (ofP (f.s2 i)),
           t0 := fun i => nttC (J 2 i).mach (ofP (f.t0 i)) }

/-- `c·v_i`: `poly_pointwise_montgomery` and `poly_invntt_tomont`. -/
def mulPoly (J : Fin 2 → Junk) (c v : VPoly) : VPoly := invnttC (J 1).mach (pointwiseC (J 0).mach c v)

/-- One iteration of the hint loop of `crypto_sign_signature` (sign.c:201-229) on the signature buffer and `pos`; `error` is `goto rej`. -/
def hintStepA (J : Fin 4 → Fin 5 → Junk) (x : CtxA) (c : VPoly) (w0 w1 : Fin 4 → VPoly) (st : (Nat → UInt8) × Nat) (i : Fin 4) :
    Except (Nat → UInt8) ((Nat → UInt8) × Nat) :=
  let tmp := mulPoly (fun n => J i (n.castLE (by omega))) c (x.s2 i)
  let w0i := polySubV (w0 i) tmp
  let w0i := polyReduceV w0i
  if polyChknormV w0i (95232 - 78) ≠ 0 then .error st.1 else
  let tmp := mulPoly (fun n => J i (n.castLE (by omega) + 2)) c (x.t0 i)
  let tmp := polyReduceV tmp
  if polyChknormV tmp 95232 ≠ 0 then .error st.1 else
  let w0i := polyAddV w0i tmp
  let (hintbuf, n) := makeHintAvx w0i (w1 i) (J i 4).bytes
  if st.2 + n > 80 then .error st.1 else
  let sig := writeAt st.1 (2336 + st.2) (readB hintbuf 0 n)
  let pos := st.2 + n
  .ok (writeAt sig (2336 + 80 + i.1) [UInt8.ofNat pos], pos)

/-- The commitment of one pass (sign.c:166-173): `A·y`, coefficients in `[0, q)`. -/
def commitA (J : Fin 3 → Fin 4 → Junk) (x : CtxA) (z : Fin 4 → VPoly) : Fin 4 → VPoly :=
  let y := fun i => nttC (J 0 i).mach (z i)
  let w1 := fun i => pointwiseAccC (J 1 i).mach (x.mat i) y
  let w1 := fun i => invnttC (J 2 i).mach (w1 i)
  fun i => polyCaddqV (w1 i)

/-- After the hint loop: `goto rej`, or packing `z` (sign.c:230-233). -/
def finishA (z : Fin 4 → VPoly) : Except (Nat → UInt8) ((Nat → UInt8) × Nat) → (Nat → UInt8) × Bool
  | .error sig => (sig, false)
  | .ok (sig, _) => ((List.finRange 4).foldl (fun sig i => writeAt sig (32 + i.1 * 576) (polyzPack C (ti (z i)))) sig, true)

/-- The rest of the pass (sign.c:174-235). -/
def respondA (J : Junk) (J1 : Fin 4 → Fin 2 → Junk) (J2 : Fin 4 → Fin 5 → Junk) (x : CtxA) (sig : Nat → UInt8) (z w1 : Fin 4 → VPoly) :
    Option ((Nat → UInt8) × Bool) := do
  let w0 := fun i => (polyDecomposeV (w1 i)).2
  let w1 := fun i => (polyDecomposeV (w1 i)).1
  let sig := (List.finRange 4).foldl (fun sig i => polyw1PackV sig (i.1 * 192) (w1 i)) sig
  let sig := writeAt sig 0 (shake256 H 32 (x.mu ++ readB sig 0 768))
  let c ← polyChallenge C H (readB sig 0 32)
  let c := nttC J.mach (ofP c)
  let z := fun i => polyReduceV (polyAddV (z i) (mulPoly (J1 i) c (x.s1 i)))
  if (List.finRange 4).any fun i => decide (polyChknormV (z i) (131072 - 78) ≠ 0) then return (sig, false) else
  let sig := writeAt sig 2336 (List.replicate 80 0)
  return finishA C z ((List.finRange 4).foldlM (hintStepA J2 x c w0 w1) (sig, 0))

/-- One pass from the label `rej` (sign.c:160-235): the signature buffer afterwards, and whether the pass reached the end. -/
def signAttemptA (Jy Jc : Junk) (J : Fin 3 → Fin 4 → Junk) (J1 : Fin 4 → Fin 2 → Junk) (J2 : Fin 4 → Fin 5 → Junk) (x : CtxA) (sig : Nat → UInt8)
    (nonce : UInt64) : Option ((Nat → UInt8) × Bool) :=
  let z := polyUniformGamma14x H Jy x.rhoprime fun i => (nonce + UInt64.ofNat i.1).toUInt16
  respondA C H Jc J1 J2 x sig z (commitA J x z)

/-- Junk for every pass of the signing loop. -/
structure LoopJunk where
  y : Nat → Junk
  chal : Nat → Junk
  a : Nat → Fin 3 → Fin 4 → Junk
  b : Nat → Fin 4 → Fin 2 → Junk
  c : Nat → Fin 4 → Fin 5 → Junk

/-- The `goto rej` loop with `nonce += 4` (a `uint64_t`); `t` counts the passes. -/
def signLoopA (J : LoopJunk) (x : CtxA) (sig : Nat → UInt8) (nonce : UInt64) (t : Nat) : Option (Nat → UInt8) := do
  let (sig, done) ← signAttemptA C H (J.y t) (J.chal t) (J.a t) (J.b t) (J.c t) x sig nonce
  if done then some sig else signLoopA J x sig (nonce + 4) (t + 1)
partial_fixpoint

/-- Uninitialised memory of one call of `crypto_sign_signature`. -/
structure SignJunk where
  sig : Nat → UInt8
  vec : Fin 3 → Fin 4 → Junk
  mat : Fin 4 → Fin 5 → Junk
  loop : LoopJunk

/-- `crypto_sign_signature` (sign.c:119-238); `sig` starts with arbitrary contents. -/
def signatureA (J : SignJunk) (m sk : Bytes) : Option Bytes := do
  let x ← signCtxA C H J.vec J.mat m sk
  let sig ← signLoopA C H J.loop x J.sig 0 0
  return readB sig 0 2420

/-- `crypto_sign` (sign.c:256-265): signature followed by message. -/
def cryptoSignA (J : SignJunk) (m sk : Bytes) : Option Bytes := do
  let sig ← signatureA C H J m sk
  return sig ++ m

/-- Row `i` of `A·z - c·2^13·t1` in `crypto_sign_verify` (sign.c:317-327), `row` already expanded. -/
def verifyMul (J : Fin 4 → Junk) (pk : Bytes) (c : VPoly) (z : Fin 4 → VPoly) (i : Fin 4) (row : Fin 4 → VPoly) : VPoly :=
  let w1 := pointwiseAccC (J 0).mach row z
  let h := ofP (polyt1Unpack C (pk.drop (32 + i.1 * 320)))
  let h := polyShiftlV h
  let h := nttC (J 1).mach h
  let h := pointwiseC' (J 2).mach c h
  let w1 := polySubV w1 h
  let w1 := polyReduceV w1
  invnttC (J 3).mach w1

/-- Row `i`'s hint polynomial and the new `pos` (sign.c:330-343); `none` is `return -1`. -/
def rowHintA (hint : Bytes) (pos : Nat) (i : Fin 4) : Option (Poly × Nat) :=
  let hi := (at8 C hint (80 + i.1)).toNat
  if hi < pos ∨ hi > 80 then none else (unpackHintPoly C hint pos hi).map fun h => (h, hi)

/-- One row of `crypto_sign_verify` (sign.c:315-349) on the buffer and `pos`: `some none` is `return -1`. -/
def verifyRow (J : Fin 4 → Fin 5 → Junk) (J' : Fin 4 → Fin 4 → Junk) (sig pk : Bytes) (c : VPoly) (z : Fin 4 → VPoly) (st : (Nat → UInt8) × Nat) (i : Fin 4) :
    Option (Option ((Nat → UInt8) × Nat)) := do
  let row ← expandRow H (J i) (pk.take 32) i
  let w1 := verifyMul C (J' i) pk c z i row
  return (rowHintA C (sig.drop 2336) st.2 i).map fun h => (polyw1PackV st.1 (i.1 * 192) (polyUseHintV (polyCaddqV w1) (ofP h.1)), h.2)

/-- The rows in order, until one returns -1. -/
def verifyRows (J : Fin 4 → Fin 5 → Junk) (J' : Fin 4 → Fin 4 → Junk) (sig pk : Bytes) (c : VPoly) (z : Fin 4 → VPoly) : List (Fin 4) → (Nat → UInt8) × Nat →
    Option (Option ((Nat → UInt8) × Nat))
  | [], st => some (some st)
  | i :: l, st => (verifyRow C H J J' sig pk c z st i).bind fun o => o.elim (some none) (verifyRows J J' sig pk c z l)

/-- After the rows (sign.c:351-371): the padding check and the comparison of the challenges. -/
def verifyEnd (sig mu : Bytes) (st : (Nat → UInt8) × Nat) : Bool :=
  if (List.range' st.2 (80 - st.2)).any fun j => decide (at8 C (sig.drop 2336) j ≠ 0) then false else
  let buf := writeAt st.1 0 (shake256 H 32 (mu ++ readB st.1 0 768))
  (List.range 32).all fun k => decide (buf k = sig.getD k 0)

/-- Uninitialised memory of one call of `crypto_sign_verify`. -/
structure VerifyJunk where
  chal : Junk
  z : Fin 4 → Junk
  buf : Nat → UInt8
  row : Fin 4 → Fin 5 → Junk
  mul : Fin 4 → Fin 4 → Junk

/-- `crypto_sign_verify` (sign.c:280-372): `some true` is the return value 0.  (`polyz_unpack` over-reads within `sig`.) -/
def verifyA (J : VerifyJunk) (sig m pk : Bytes) : Option Bool :=
  if sig.length ≠ 2420 then some false else do
  let mu := shake256 H 64 (pk.take 1312)
  let mu := shake256 H 64 (mu ++ m)
  let c ← polyChallenge C H sig
  let c := nttC J.chal.mach (ofP c)
  let z := fun i : Fin 4 => polyzUnpackV fun k => sig.getD (32 + i.1 * 576 + k) 0
  let z := fun i => nttC (J.z i).mach (z i)
  let o ← verifyRows C H J.row J.mul sig pk c z (List.finRange 4) (J.buf, 0)
  return o.elim false (verifyEnd C H sig mu)

/-- `crypto_sign_open` (sign.c:388-414): the message on success. -/
def cryptoOpenA (J : VerifyJunk) (sm pk : Bytes) : Option (Option Bytes) :=
  if sm.length < 2420 then some none
  else do
    let ok ← verifyA C H J (sm.take 2420) (sm.drop 2420) pk
    return if ok then some (sm.drop 2420) else none

end Verif.Avx2
