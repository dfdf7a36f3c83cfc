import Verif.Dilithium35.Model
import Verif.Dilithium.Linked

/-!
# Dilithium3 and Dilithium5 linked with fips202.c

`Verif/Dilithium35/Model.lean` reads SHAKE output from streams.  Here are the functions of `symmetric-shake.c`, `poly.c`, `polyvec.c` and `sign.c` of
`dilithium3/clean` and `dilithium5/clean` that call fips202.c, once more, with the calls they make (as `Verif/Dilithium/Linked.lean` for dilithium2, from
which the functions with the same text are taken: the two stream initialisations, `poly_uniform`, `poly_uniform_eta` for `ETA = 2`, the byte loop of
`poly_challenge`).  `O` says what an array access of fips202.c outside its bounds does.
-/

namespace Verif.Dilithium35.Linked
open Verif.Dilithium
open Verif.Dilithium35
open Verif.Keccak (Oob Inc shake128IncInit shake128IncAbsorb shake128IncFinalize shake128IncSqueeze shake256IncInit shake256IncAbsorb
  shake256IncFinalize shake256IncSqueeze)
open Verif.Dilithium.Linked (bytesAt stream256Init chalStep hash2 rejLoop)

variable (md : Mode) (C : CSem) (O : Oob)

/-- The `while (ctr < N)` loop of `poly_uniform_eta` of dilithium3 (poly.c:438-441). -/
def etaLoop4 (acc : List Int) (c : Inc) : Option (List Int) :=
  if acc.length < 256 then do
    let (buf, c) ← shake256IncSqueeze O (1 * 136) c
    etaLoop4 (acc ++ rejEta4 (256 - acc.length) buf) c
  else some acc
partial_fixpoint

/-- `poly_uniform_eta` (poly.c:424-443; dilithium5: 426-445): `POLY_UNIFORM_ETA_NBLOCKS` is 2 in dilithium3 (poly.c:423) and 1 in dilithium5. -/
def polyUniformEta (seed : Bytes) (nonce : UInt16) : Option Poly :=
  match md with
  | .three => do
    let c ← stream256Init C O seed nonce
    let (buf, c) ← shake256IncSqueeze O (2 * 136) c
    let l ← etaLoop4 O (rejEta4 256 buf) c
    return polyOfList C l
  | .five => Dilithium.Linked.polyUniformEta C O seed nonce

/-- `poly_uniform_gamma1` (poly.c:456-467; dilithium5: 458-469): `POLY_UNIFORM_GAMMA1_NBLOCKS = 5`. -/
def polyUniformGamma1 (seed : Bytes) (nonce : UInt16) : Option Poly := do
  let c ← stream256Init C O seed nonce
  let (buf, _) ← shake256IncSqueeze O (5 * 136) c
  return polyzUnpack C buf

/-- `poly_challenge` (poly.c:478-514; dilithium5: 480-516): `SEEDBYTES = 32` bytes of the seed are absorbed. -/
def polyChallenge (seed : Bytes) : Option Poly := do
  let c ← shake256IncAbsorb O shake256IncInit (bytesAt C 32 seed)
  let (buf, c) ← shake256IncSqueeze O 136 (shake256IncFinalize O c)
  let signs := ((List.range 8).map fun i => (at8 C buf i).toNat * 256 ^ i).sum
  let (p, _, _) ← (List.range' (256 - md.TAU) md.TAU).foldlM (chalStep C O) (fun _ => 0, signs, ⟨buf, 8, c⟩)
  return p

/-- `polyvec_matrix_expand` (polyvec.c:16-24). -/
def matrixExpand (rho : Bytes) : Option (Mat md) :=
  forVec md.K fun i => forVec md.L fun j => Dilithium.Linked.polyUniform C O rho (UInt16.ofNat (i.1 * 256 + j.1))

/-- `polyvecl_uniform_eta` and `polyveck_uniform_eta` (polyvec.c:38-44, 164-170). -/
def vecUniformEta (n : Nat) (seed : Bytes) (nonce : UInt16) : Option (Vec n) :=
  forVec n fun i => polyUniformEta md C O seed (nonce + UInt16.ofNat i.1)

/-- `polyvecl_uniform_gamma1` (polyvec.c:46-52). -/
def vecUniformGamma1 (seed : Bytes) (nonce : UInt16) : Option (Vec md.L) :=
  forVec md.L fun i => polyUniformGamma1 C O seed (UInt16.ofNat md.L * nonce + UInt16.ofNat i.1)

/-- `crypto_sign_keypair_det` (sign.c:44-91). -/
def keypairDet (coins : Bytes) : Option (Bytes × Bytes) := do
  let seedbuf ← Keccak.shake256 O 128 (bytesAt C 32 coins)
  let rho := seedbuf.take 32
  let rhoprime := (seedbuf.drop 32).take 64
  let key := (seedbuf.drop 96).take 32
  let mat ← matrixExpand md C O rho
  let s1 ← vecUniformEta md C O md.L rhoprime 0
  let s2 ← vecUniformEta md C O md.K rhoprime (UInt16.ofNat md.L)
  let s1hat := vecNtt C s1
  let t1 := matrixPointwise md C mat s1hat
  let t1 := vecReduce C t1
  let t1 := vecInvntt C t1
  let t1 := vecAdd C t1 s2
  let t1 := vecCaddq C t1
  let (t1, t0) := vecPower2round C t1
  let pk := packPk md rho t1
  let tr ← Keccak.shake256 O 64 (bytesAt C md.PKLEN pk)
  let sk := packSk md C { rho := rho, tr := tr, key := key, t0 := t0, s1 := s1, s2 := s2 }
  return (pk, sk)

/-- The prologue of `crypto_sign_signature` (sign.c:126-145). -/
def signCtx (m sk : Bytes) : Option (SignCtx md) := do
  let f := unpackSk md C sk
  let mu ← hash2 O 64 (bytesAt C 64 f.tr) m
  let rnd := List.replicate 32 0
  let rhoprime ← Keccak.shake256 O 64 (bytesAt C 32 f.key ++ rnd ++ mu)
  let mat ← matrixExpand md C O f.rho
  return { mu := mu, rhoprime := rhoprime, mat := mat, s1 := vecNtt C f.s1, s2 := vecNtt C f.s2, t0 := vecNtt C f.t0 }

/-- One pass from the label `rej` (sign.c:147-208); `some none` is `goto rej`. -/
def signAttempt (x : SignCtx md) (nonce : UInt16) : Option (Option Bytes) := do
  let y ← vecUniformGamma1 md C O x.rhoprime nonce
  let z := vecNtt C y
  let w1 := matrixPointwise md C x.mat z
  let w1 := vecReduce C w1
  let w1 := vecInvntt C w1
  let w1 := vecCaddq C w1
  let (w1, w0) := vecDecompose C w1
  let sig := vecPackW1 w1
  let c ← hash2 O md.CTILDE (bytesAt C 64 x.mu) (bytesAt C (md.K * 128) sig)
  let cp ← polyChallenge md C O c
  let cp := polyNtt C cp
  let z := vecPointwisePoly C cp x.s1
  let z := vecInvntt C z
  let z := vecAdd C z y
  let z := vecReduce C z
  if vecChknorm C z (GAMMA1 - md.BETA) then return none else
  let h := vecPointwisePoly C cp x.s2
  let h := vecInvntt C h
  let w0 := vecSub C w0 h
  let w0 := vecReduce C w0
  if vecChknorm C w0 (GAMMA2 - md.BETA) then return none else
  let h := vecPointwisePoly C cp x.t0
  let h := vecInvntt C h
  let h := vecReduce C h
  if vecChknorm C h GAMMA2 then return none else
  let w0 := vecAdd C w0 h
  let (h, n) := vecMakeHint w0 w1
  if n > md.OMEGA then return none else
  return some (packSig md C c z h)

/-- `crypto_sign_signature` (sign.c:106-209). -/
def signature (m sk : Bytes) : Option Bytes := do
  let x ← signCtx md C O m sk
  rejLoop (signAttempt md C O x) 0

/-- `crypto_sign` (sign.c:227-240). -/
def cryptoSign (m sk : Bytes) : Option Bytes := do
  let sig ← signature md C O m sk
  return sig ++ m

/-- `crypto_sign_verify` (sign.c:255-326). -/
def verify (sig m pk : Bytes) : Option Bool :=
  if sig.length ≠ md.SIGLEN then some false else
  let (rho, t1) := unpackPk md C pk
  match unpackSig md C sig with
  | none => some false
  | some (c, z, h) =>
    if vecChknorm C z (GAMMA1 - md.BETA) then some false else do
    let mu ← Keccak.shake256 O 64 (bytesAt C md.PKLEN pk)
    let mu ← hash2 O 64 mu m
    let cp ← polyChallenge md C O c
    let mat ← matrixExpand md C O rho
    let z := vecNtt C z
    let w1 := matrixPointwise md C mat z
    let cp := polyNtt C cp
    let t1 := vecShiftl C t1
    let t1 := vecNtt C t1
    let t1 := vecPointwisePoly C cp t1
    let w1 := vecSub C w1 t1
    let w1 := vecReduce C w1
    let w1 := vecInvntt C w1
    let w1 := vecCaddq C w1
    let w1 := vecUseHint C w1 h
    let buf := vecPackW1 w1
    let c2 ← hash2 O md.CTILDE mu (bytesAt C (md.K * 128) buf)
    return decide (c = c2)

/-- `crypto_sign_open` (sign.c:342-372). -/
def cryptoOpen (sm pk : Bytes) : Option (Option Bytes) :=
  if sm.length < md.SIGLEN then some none
  else do
    let ok ← verify md C O (sm.take md.SIGLEN) (sm.drop md.SIGLEN) pk
    return if ok then some (sm.drop md.SIGLEN) else none

end Verif.Dilithium35.Linked
