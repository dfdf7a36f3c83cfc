import Verif.Avx235.Verify
import Verif.Avx235.Sample

/-!
# `crypto_sign_keypair`, `crypto_sign_signature` and `crypto_sign` (sign.c of dilithium3/avx2 and dilithium5/avx2)

Line numbers are those of dilithium3, those of dilithium5 follow after a semicolon.  Key, signature and commitment buffers are memories
(`Nat → UInt8`) with arbitrary initial contents.  `poly_challenge`, `polyeta_pack`, `polyt1_pack`, `polyt0_pack`, `polyz_pack`, `polyeta_unpack`,
`polyt0_unpack`, `unpack_sk` have the same source as in the portable code up to casts (and a little-endian `memcpy` for a shift loop), so the portable
model is reused for them.
-/

namespace Verif.Avx235

open Verif.Dilithium (Shake Poly CSem polyt1Pack polyt0Pack shake256)
open Verif.Dilithium35 (Mode polyChallenge polyetaPack polyzPack unpackSk)
open Verif.Avx2 (VPoly Junk Mach ti nttC invnttC polyAddV polySubV polyReduceV polyCaddqV polyPower2roundV polyChknormV mulPoly ofP readB writeAt)

variable (md : Mode) (C : CSem) (H : Shake)

/-- The secret vectors (sign.c:75-78; 83-87): the last of the results goes to `t0`, which is overwritten later. -/
def sampleS (J : Fin 4 → Junk) (rhoprime : Bytes) : Option ((Fin md.L → VPoly) × (Fin md.K → VPoly)) :=
  match md with
  | .three => do
    let a ← polyUniformEta4x .three H (J 0) rhoprime ![0, 1, 2, 3]
    let b ← polyUniformEta4x .three H (J 1) rhoprime ![4, 5, 6, 7]
    let c ← polyUniformEta4x .three H (J 2) rhoprime ![8, 9, 10, 11]
    return (![a 0, a 1, a 2, a 3, b 0], ![b 1, b 2, b 3, c 0, c 1, c 2])
  | .five => do
    let a ← polyUniformEta4x .five H (J 0) rhoprime ![0, 1, 2, 3]
    let b ← polyUniformEta4x .five H (J 1) rhoprime ![4, 5, 6, 7]
    let c ← polyUniformEta4x .five H (J 2) rhoprime ![8, 9, 10, 11]
    let d ← polyUniformEta4x .five H (J 3) rhoprime ![12, 13, 14, 15]
    return (![a 0, a 1, a 2, a 3, b 0, b 1, b 2], ![b 3, c 0, c 1, c 2, c 3, d 0, d 1, d 2])

/-- One iteration of the loop of `crypto_sign_keypair` (sign.c:91-107; 100-116) on `(pk, sk)`. -/
def keypairStep (J : Fin md.K → RowJunk) (J' : Fin md.K → Fin 2 → Junk) (rho : Bytes) (s1hat : Fin md.L → VPoly) (s2 : Fin md.K → VPoly)
    (st : (Nat → UInt8) × (Nat → UInt8)) (i : Fin md.K) : Option ((Nat → UInt8) × (Nat → UInt8)) := do
  let row ← rowAlt md H (J i) rho i
  let t1 := pointwiseAccL (J' i 0).mach row s1hat
  let t1 := invnttC (J' i 1).mach t1
  let t1 := polyAddV t1 (s2 i)
  let t1 := polyCaddqV t1
  let (t1, t0) := polyPower2roundV t1
  let pk := writeAt st.1 (32 + i.1 * 320) (polyt1Pack (ti t1))
  let sk := writeAt st.2 (128 + (md.L + md.K) * md.ETABYTES + i.1 * 416) (polyt0Pack C (ti t0))
  return (pk, sk)

/-- Uninitialised memory of one call of `crypto_sign_keypair`. -/
structure KeyJunk (md : Mode) where
  pk : Nat → UInt8
  sk : Nat → UInt8
  eta : Fin 4 → Junk
  s1 : Fin md.L → Junk
  row : Fin md.K → RowJunk
  step : Fin md.K → Fin 2 → Junk

/-- `crypto_sign_keypair` (sign.c:54-113; 62-122) after `randombytes` filled the first 32 bytes of `seedbuf` with `coins`: `(pk, sk)`. -/
def keypairA (J : KeyJunk md) (coins : Bytes) : Option (Bytes × Bytes) := do
  let seedbuf := shake256 H 128 (coins.take 32)
  let rho := seedbuf.take 32
  let rhoprime := (seedbuf.drop 32).take 64
  let key := (seedbuf.drop 96).take 32
  let pk := writeAt J.pk 0 rho
  let sk := writeAt J.sk 0 rho
  let sk := writeAt sk 32 key
  let s ← sampleS md H J.eta rhoprime
  let sk := (List.finRange md.L).foldl (fun sk i => writeAt sk (128 + i.1 * md.ETABYTES) (polyetaPack md C (ti (s.1 i)))) sk
  let sk := (List.finRange md.K).foldl (fun sk i => writeAt sk (128 + (md.L + i.1) * md.ETABYTES) (polyetaPack md C (ti (s.2 i)))) sk
  let s1hat := fun i => nttC (J.s1 i).mach (s.1 i)
  let st ← (List.finRange md.K).foldlM (keypairStep md C H J.row J.step rho s1hat s.2) (pk, sk)
  let sk := writeAt st.2 64 (shake256 H 64 (readB st.1 0 md.PKLEN))
  return (readB st.1 0 md.PKLEN, readB sk 0 md.SKLEN)

/-- What the signing loop works with (sign.c:144-167; 153-176). -/
structure CtxA (md : Mode) where
  mu : Bytes
  rhoprime : Bytes
  mat : Fin md.K → Fin md.L → VPoly
  s1 : Fin md.L → VPoly
  s2 : Fin md.K → VPoly
  t0 : Fin md.K → VPoly

/-- Uninitialised memory of the prologue. -/
structure CtxJunk (md : Mode) where
  mat : RowJunk
  s1 : Fin md.L → Junk
  s2 : Fin md.K → Junk
  t0 : Fin md.K → Junk

/-- The prologue of `crypto_sign_signature` (sign.c:144-167; 153-176). -/
def signCtxA (J : CtxJunk md) (m sk : Bytes) : Option (CtxA md) := do
  let f := unpackSk md C sk
  let mu := shake256 H 64 (f.tr ++ m)
  let rnd := List.replicate 32 0
  let rhoprime := shake256 H 64 (f.key ++ rnd ++ mu)
  let mat ← Dilithium35.forVec md.K fun i => rowMat md H J.mat f.rho i
  return { mu := mu, rhoprime := rhoprime, mat := mat, s1 := fun i => nttC (J.s1 i).mach (ofP (f.s1 i)), s2 := fun i => nttC (J.s2 i).mach (ofP (f.s2 i)),
           t0 := fun i => nttC (J.t0 i).mach (ofP (f.t0 i)) }

/-- The intermediate vector `y` (sign.c:170-174; 179-184); the last of the results of dilithium5's second call goes to `tmp`. -/
def sampleY (J : Fin 2 → Junk) (rhoprime : Bytes) (nonce : UInt64) : Fin md.L → VPoly :=
  match md with
  | .three =>
    let a := polyUniformGamma14x H (J 0) rhoprime ![nonce.toUInt16, (nonce + 1).toUInt16, (nonce + 2).toUInt16, (nonce + 3).toUInt16]
    let b := polyUniformGamma1 H (J 1) rhoprime (nonce + 4).toUInt16
    ![a 0, a 1, a 2, a 3, b]
  | .five =>
    let a := polyUniformGamma14x H (J 0) rhoprime ![nonce.toUInt16, (nonce + 1).toUInt16, (nonce + 2).toUInt16, (nonce + 3).toUInt16]
    let b := polyUniformGamma14x H (J 1) rhoprime ![(nonce + 4).toUInt16, (nonce + 5).toUInt16, (nonce + 6).toUInt16, 0]
    ![a 0, a 1, a 2, a 3, b 0, b 1, b 2]

/-- Uninitialised memory of one pass of the signing loop. -/
structure PassJunk (md : Mode) where
  y : Fin 2 → Junk
  chal : Junk
  yhat : Fin md.L → Junk
  acc : Fin md.K → Junk
  inv : Fin md.K → Junk
  z : Fin md.L → Fin 2 → Junk
  cs2 : Fin md.K → Fin 2 → Junk
  ct0 : Fin md.K → Fin 2 → Junk
  hint : Fin md.K → Nat → UInt8

/-- The commitment of one pass (sign.c:176-183; 186-193): `A·y`, coefficients in `[0, q)`. -/
def commitA (J : PassJunk md) (x : CtxA md) (z : Fin md.L → VPoly) : Fin md.K → VPoly :=
  let y := fun i => nttC (J.yhat i).mach (z i)
  let w1 := fun i => pointwiseAccL (J.acc i).mach (x.mat i) y
  let w1 := fun i => invnttC (J.inv i).mach (w1 i)
  fun i => polyCaddqV (w1 i)

/-- One iteration of the hint loop of `crypto_sign_signature` (sign.c:211-239; 221-249) on the signature buffer and `pos`; `error` is `goto rej`. -/
def hintStepA (J : PassJunk md) (x : CtxA md) (c : VPoly) (w0 w1 : Fin md.K → VPoly) (st : (Nat → UInt8) × Nat) (i : Fin md.K) :
    Except (Nat → UInt8) ((Nat → UInt8) × Nat) :=
  let tmp := mulPoly (J.cs2 i) c (x.s2 i)
  let w0i := polySubV (w0 i) tmp
  let w0i := polyReduceV w0i
  if polyChknormV w0i (261888 - md.BETA) ≠ 0 then .error st.1 else
  let tmp := mulPoly (J.ct0 i) c (x.t0 i)
  let tmp := polyReduceV tmp
  if polyChknormV tmp 261888 ≠ 0 then .error st.1 else
  let w0i := polyAddV w0i tmp
  let (hintbuf, n) := makeHintAvx w0i (w1 i) (J.hint i)
  if st.2 + n > md.OMEGA then .error st.1 else
  let sig := writeAt st.1 (md.CTILDE + md.L * 640 + st.2) (readB hintbuf 0 n)
  let pos := st.2 + n
  .ok (writeAt sig (md.CTILDE + md.L * 640 + md.OMEGA + i.1) [UInt8.ofNat pos], pos)

/-- After the hint loop: `goto rej`, or packing `z` (sign.c:241-244; 251-254). -/
def finishA (z : Fin md.L → VPoly) : Except (Nat → UInt8) ((Nat → UInt8) × Nat) → (Nat → UInt8) × Bool
  | .error sig => (sig, false)
  | .ok (sig, _) => ((List.finRange md.L).foldl (fun sig i => writeAt sig (md.CTILDE + i.1 * 640) (polyzPack C (ti (z i)))) sig, true)

/-- The rest of the pass (sign.c:184-247; 194-257). -/
def respondA (J : PassJunk md) (x : CtxA md) (sig : Nat → UInt8) (z : Fin md.L → VPoly) (w1 : Fin md.K → VPoly) : Option ((Nat → UInt8) × Bool) := do
  let w0 := fun i => (polyDecomposeV (w1 i)).2
  let w1 := fun i => (polyDecomposeV (w1 i)).1
  let sig := (List.finRange md.K).foldl (fun sig i => polyw1PackV sig (i.1 * 128) (w1 i)) sig
  let sig := writeAt sig 0 (shake256 H md.CTILDE (x.mu ++ readB sig 0 (md.K * 128)))
  let c ← polyChallenge md C H (readB sig 0 md.CTILDE)
  let c := nttC J.chal.mach (ofP c)
  let z := fun i => polyReduceV (polyAddV (z i) (mulPoly (J.z i) c (x.s1 i)))
  if (List.finRange md.L).any fun i => decide (polyChknormV (z i) (524288 - md.BETA) ≠ 0) then return (sig, false) else
  let sig := writeAt sig (md.CTILDE + md.L * 640) (List.replicate md.OMEGA 0)
  return finishA md C z ((List.finRange md.K).foldlM (hintStepA md J x c w0 w1) (sig, 0))

/-- One pass from the label `rej` (sign.c:169-247; 178-257): the signature buffer afterwards, and whether the pass reached the end. -/
def signAttemptA (J : PassJunk md) (x : CtxA md) (sig : Nat → UInt8) (nonce : UInt64) : Option ((Nat → UInt8) × Bool) :=
  let z := sampleY md H J.y x.rhoprime nonce
  respondA md C H J x sig z (commitA md J x z)

/-- The `goto rej` loop with `nonce += L` (a `uint64_t`); `t` counts the passes. -/
def signLoopA (J : Nat → PassJunk md) (x : CtxA md) (sig : Nat → UInt8) (nonce : UInt64) (t : Nat) : Option (Nat → UInt8) := do
  let (sig, done) ← signAttemptA md C H (J t) x sig nonce
  if done then some sig else signLoopA J x sig (nonce + UInt64.ofNat md.L) (t + 1)
partial_fixpoint

/-- Uninitialised memory of one call of `crypto_sign_signature`. -/
structure SignJunk (md : Mode) where
  sig : Nat → UInt8
  ctx : CtxJunk md
  pass : Nat → PassJunk md

/-- `crypto_sign_signature` (sign.c:128-248; 137-258); `sig` starts with arbitrary contents. -/
def signatureA (J : SignJunk md) (m sk : Bytes) : Option Bytes := do
  let x ← signCtxA md C H J.ctx m sk
  let sig ← signLoopA md C H J.pass x J.sig 0 0
  return readB sig 0 md.SIGLEN

/-- `crypto_sign` (sign.c:266-275; 276-285): signature followed by message. -/
def cryptoSignA (J : SignJunk md) (m sk : Bytes) : Option Bytes := do
  let sig ← signatureA md C H J m sk
  return sig ++ m

end Verif.Avx235
