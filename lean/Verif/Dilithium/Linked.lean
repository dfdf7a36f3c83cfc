import Verif.Dilithium.Sign
import Verif.Keccak.Fips202

/-!
# Dilithium2 linked with fips202.c

`Verif/Dilithium/Poly.lean` and `Sign.lean` read SHAKE output from streams.  Here are the functions of `symmetric-shake.c`, `poly.c`, `polyvec.c` and
`sign.c` that call fips202.c, once more, with the calls they make: hash contexts that are initialised, fed, finalized and squeezed.  The functions that do
not hash are those of `Poly.lean` and `Sign.lean`.  `O` says what an array access of fips202.c outside its bounds does.

In `sign.c` the output of `shake256` may overwrite its input (`seedbuf`, line 60); this is not visible, since all of the input is absorbed first.
-/

namespace Verif.Dilithium.Linked
open Verif.Keccak (Oob Inc shake128IncInit shake128IncAbsorb shake128IncFinalize shake128IncSqueeze shake256IncInit shake256IncAbsorb
  shake256IncFinalize shake256IncSqueeze)

variable (C : CSem) (O : Oob)

/-- The first `n` bytes at a pointer. -/
def bytesAt (n : Nat) (b : Bytes) : Bytes := (List.range n).map fun i => b.getD i C.oobByte

/-- `dilithium_shake128_stream_init` (symmetric-shake.c:6-15), `SEEDBYTES = 32`. -/
def stream128Init (seed : Bytes) (nonce : UInt16) : Option Inc := do
  let c ← shake128IncAbsorb O shake128IncInit (bytesAt C 32 seed)
  let c ← shake128IncAbsorb O c (nonceBytes nonce)
  return shake128IncFinalize O c

/-- `dilithium_shake256_stream_init` (symmetric-shake.c:17-26), `CRHBYTES = 64`. -/
def stream256Init (seed : Bytes) (nonce : UInt16) : Option Inc := do
  let c ← shake256IncAbsorb O shake256IncInit (bytesAt C 64 seed)
  let c ← shake256IncAbsorb O c (nonceBytes nonce)
  return shake256IncFinalize O c

/-- The `while (ctr < N)` loop of `poly_uniform` (poly.c:360-369). -/
def uniformLoop (acc : List Int) (buf : Bytes) (c : Inc) : Option (List Int) :=
  if acc.length < 256 then do
    let off := buf.length % 3
    let (out, c) ← shake128IncSqueeze O (1 * 168) c
    let buf := buf.drop (buf.length - off) ++ out
    uniformLoop (acc ++ rejUniform (256 - acc.length) buf) buf c
  else some acc
partial_fixpoint

/-- `poly_uniform` (poly.c:346-371): `POLY_UNIFORM_NBLOCKS = 5`. -/
def polyUniform (seed : Bytes) (nonce : UInt16) : Option Poly := do
  let c ← stream128Init C O seed nonce
  let (buf, c) ← shake128IncSqueeze O (5 * 168) c
  let l ← uniformLoop O (rejUniform 256 buf) buf c
  return polyOfList C l

/-- The `while (ctr < N)` loop of `poly_uniform_eta` (poly.c:439-442). -/
def etaLoop (acc : List Int) (c : Inc) : Option (List Int) :=
  if acc.length < 256 then do
    let (buf, c) ← shake256IncSqueeze O (1 * 136) c
    etaLoop (acc ++ rejEta (256 - acc.length) buf) c
  else some acc
partial_fixpoint

/-- `poly_uniform_eta` (poly.c:425-444): `POLY_UNIFORM_ETA_NBLOCKS = 1`. -/
def polyUniformEta (seed : Bytes) (nonce : UInt16) : Option Poly := do
  let c ← stream256Init C O seed nonce
  let (buf, c) ← shake256IncSqueeze O (1 * 136) c
  let l ← etaLoop O (rejEta 256 buf) c
  return polyOfList C l

/-- `poly_uniform_gamma1` (poly.c:457-468): `POLY_UNIFORM_GAMMA1_NBLOCKS = 5`. -/
def polyUniformGamma1 (seed : Bytes) (nonce : UInt16) : Option Poly := do
  let c ← stream256Init C O seed nonce
  let (buf, _) ← shake256IncSqueeze O (5 * 136) c
  return polyzUnpack C buf

/-- The buffer, the read position in it, and the hash context. -/
structure ChalSt where
  buf : Bytes
  pos : Nat
  state : Inc

/-- Lines 502-505 of poly.c. -/
def refill (st : ChalSt) : Option ChalSt :=
  if st.pos ≥ 136 then do
    let (buf, c) ← shake256IncSqueeze O 136 st.state
    return ⟨buf, 0, c⟩
  else some st

/-- The `do … while (b > i)` loop of `poly_challenge` (poly.c:501-508). -/
def chalByte (i : Nat) (st : ChalSt) : Option (Nat × ChalSt) := do
  let st ← refill O st
  let b := (at8 C st.buf st.pos).toNat
  let st : ChalSt := ⟨st.buf, st.pos + 1, st.state⟩
  if b > i then chalByte i st else some (b, st)
partial_fixpoint

/-- One iteration of the sampling loop (poly.c:500-513). -/
def chalStep (x : Poly × Nat × ChalSt) (i : Nat) : Option (Poly × Nat × ChalSt) := do
  let (c, signs, st) := x
  let (b, st) ← chalByte C O i st
  let c := wr c i (rd C.oob c b)
  let c := wr c b (toI32 ((1 - 2 * ((signs % 2 : Nat) : Int)) % 18446744073709551616))
  return (c, signs / 2, st)

/-- `poly_challenge` (poly.c:480-515), `SEEDBYTES = 32`. -/
def polyChallenge (seed : Bytes) : Option Poly := do
  let c ← shake256IncAbsorb O shake256IncInit (bytesAt C 32 seed)
  let (buf, c) ← shake256IncSqueeze O 136 (shake256IncFinalize O c)
  let signs := ((List.range 8).map fun i => (at8 C buf i).toNat * 256 ^ i).sum
  let (p, _, _) ← (List.range' 217 39).foldlM (chalStep C O) (fun _ => 0, signs, ⟨buf, 8, c⟩)
  return p

/-- `polyvec_matrix_expand` (polyvec.c:16-24). -/
def matrixExpand (rho : Bytes) : Option Mat :=
  forVec fun i => forVec fun j => polyUniform C O rho (UInt16.ofNat (i.1 * 256 + j.1))

/-- `polyvecl_uniform_eta` and `polyveck_uniform_eta` (polyvec.c:38-44, 164-170). -/
def vecUniformEta (seed : Bytes) (nonce : UInt16) : Option Vec :=
  forVec fun i => polyUniformEta C O seed (nonce + UInt16.ofNat i.1)

/-- `polyvecl_uniform_gamma1` (polyvec.c:46-52). -/
def vecUniformGamma1 (seed : Bytes) (nonce : UInt16) : Option Vec :=
  forVec fun i => polyUniformGamma1 C O seed (4 * nonce + UInt16.ofNat i.1)

/-- `shake256_inc_init`, two `absorb` calls, `finalize` and one `squeeze` of `n` bytes (sign.c:129-134, 160-165, 286-291, 312-317). -/
def hash2 (n : Nat) (a b : Bytes) : Option Bytes := do
  let c ← shake256IncAbsorb O shake256IncInit a
  let c ← shake256IncAbsorb O c b
  let (h, _) ← shake256IncSqueeze O n (shake256IncFinalize O c)
  return h

/-- `crypto_sign_keypair_det` (sign.c:44-91). -/
def keypairDet (coins : Bytes) : Option (Bytes × Bytes) := do
  let seedbuf ← Keccak.shake256 O 128 (bytesAt C 32 coins)
  let rho := seedbuf.take 32
  let rhoprime := (seedbuf.drop 32).take 64
  let key := (seedbuf.drop 96).take 32
  let mat ← matrixExpand C O rho
  let s1 ← vecUniformEta C O rhoprime 0
  let s2 ← vecUniformEta C O rhoprime 4
  let s1hat := vecNtt C s1
  let t1 := matrixPointwise C mat s1hat
  let t1 := vecReduce C t1
  let t1 := vecInvntt C t1
  let t1 := vecAdd C t1 s2
  let t1 := vecCaddq C t1
  let (t1, t0) := vecPower2round C t1
  let pk := packPk rho t1
  let tr ← Keccak.shake256 O 64 (bytesAt C PKLEN pk)
  let sk := packSk C { rho := rho, tr := tr, key := key, t0 := t0, s1 := s1, s2 := s2 }
  return (pk, sk)

/-- The prologue of `crypto_sign_signature` (sign.c:126-145). -/
def signCtx (m sk : Bytes) : Option SignCtx := do
  let f := unpackSk C sk
  let mu ← hash2 O 64 (bytesAt C 64 f.tr) m
  let rnd := List.replicate 32 0
  let rhoprime ← Keccak.shake256 O 64 (bytesAt C 32 f.key ++ rnd ++ mu)
  let mat ← matrixExpand C O f.rho
  return { mu := mu, rhoprime := rhoprime, mat := mat, s1 := vecNtt C f.s1, s2 := vecNtt C f.s2, t0 := vecNtt C f.t0 }

/-- One pass from the label `rej` (sign.c:147-208); `some none` is `goto rej`. -/
def signAttempt (x : SignCtx) (nonce : UInt16) : Option (Option Bytes) := do
  let y ← vecUniformGamma1 C O x.rhoprime nonce
  let z := vecNtt C y
  let w1 := matrixPointwise C x.mat z
  let w1 := vecReduce C w1
  let w1 := vecInvntt C w1
  let w1 := vecCaddq C w1
  let (w1, w0) := vecDecompose C w1
  let sig := vecPackW1 w1
  let c ← hash2 O 32 (bytesAt C 64 x.mu) (bytesAt C 768 sig)
  let cp ← polyChallenge C O c
  let cp := polyNtt C cp
  let z := vecPointwisePoly C cp x.s1
  let z := vecInvntt C z
  let z := vecAdd C z y
  let z := vecReduce C z
  if vecChknorm C z (GAMMA1 - BETA) then return none else
  let h := vecPointwisePoly C cp x.s2
  let h := vecInvntt C h
  let w0 := vecSub C w0 h
  let w0 := vecReduce C w0
  if vecChknorm C w0 (GAMMA2 - BETA) then return none else
  let h := vecPointwisePoly C cp x.t0
  let h := vecInvntt C h
  let h := vecReduce C h
  if vecChknorm C h GAMMA2 then return none else
  let w0 := vecAdd C w0 h
  let (h, n) := vecMakeHint w0 w1
  if n > 80 then return none else
  return some (packSig C c z h)

/-- A `goto rej` loop with `nonce++` (a `uint16_t`). -/
def rejLoop (attempt : UInt16 → Option (Option Bytes)) (nonce : UInt16) : Option Bytes := do
  match ← attempt nonce with
  | some sig => some sig
  | none => rejLoop attempt (nonce + 1)
partial_fixpoint

/-- `crypto_sign_signature` (sign.c:106-209). -/
def signature (m sk : Bytes) : Option Bytes := do
  let x ← signCtx C O m sk
  rejLoop (signAttempt C O x) 0

/-- `crypto_sign` (sign.c:227-240). -/
def cryptoSign (m sk : Bytes) : Option Bytes := do
  let sig ← signature C O m sk
  return sig ++ m

/-- `crypto_sign_verify` (sign.c:255-326). -/
def verify (sig m pk : Bytes) : Option Bool :=
  if sig.length ≠ SIGLEN then some false else
  let (rho, t1) := unpackPk C pk
  match unpackSig C sig with
  | none => some false
  | some (c, z, h) =>
    if vecChknorm C z (GAMMA1 - BETA) then some false else do
    let mu ← Keccak.shake256 O 64 (bytesAt C PKLEN pk)
    let mu ← hash2 O 64 mu m
    let cp ← polyChallenge C O c
    let mat ← matrixExpand C O rho
    let z := vecNtt C z
    let w1 := matrixPointwise C mat z
    let cp := polyNtt C cp
    let t1 := vecShiftl C t1
    let t1 := vecNtt C t1
    let t1 := vecPointwisePoly C cp t1
    let w1 := vecSub C w1 t1
    let w1 := vecReduce C w1
    let w1 := vecInvntt C w1
    let w1 := vecCaddq C w1
    let w1 := vecUseHint C w1 h
    let buf := vecPackW1 w1
    let c2 ← hash2 O 32 mu (bytesAt C 768 buf)
    return decide (c = c2)

/-- `crypto_sign_open` (sign.c:342-372). -/
def cryptoOpen (sm pk : Bytes) : Option (Option Bytes) :=
  if sm.length < SIGLEN then some none
  else do
    let ok ← verify C O (sm.take SIGLEN) (sm.drop SIGLEN) pk
    return if ok then some (sm.drop SIGLEN) else none

end Verif.Dilithium.Linked
