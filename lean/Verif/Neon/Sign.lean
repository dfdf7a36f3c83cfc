import Verif.Neon.Poly
import Verif.Avx2.Sign

/-!
# poly.c, polyvec.c and sign.c of pqclean/crypto_sign/dilithium2/aarch64

What pqcrypto-dilithium runs on aarch64 with NEON (dilithium2.rs:214-220, 254-257, 297-300, 330-333, 370-374; build.rs:136-160).  packing.c, rounding.c and the
coefficient-wise C loops are those of the clean implementation; only the functions below differ.  Polynomials are integer arrays as in the clean model;
the assembly runs on their 32-bit words.  `M` is what the machine held before a call: the same one at every call, which is no restriction, as the results
do not depend on it.  The two-way Keccak (fips202x2.c, feat.S) appears as two streams of `H`; it is linked in in `SignLinked.lean`.
-/

namespace Verif.Neon

open Verif.Avx2 (VPoly ti ofP)
open Verif.Dilithium hiding W32 toI32_id

variable (C : CSem) (H : Shake) (M : Mach)

/-- `poly_ntt` (aarch64/poly.c:172-178, ntt.h:45-48). -/
def nttP (a : Poly) : Poly := ti (nttN M (ofP a))
/-- `poly_invntt_tomont` (aarch64/poly.c:189-195, ntt.h:50-53). -/
def invnttP (a : Poly) : Poly := ti (invnttN M (ofP a))
/-- `poly_reduce` (aarch64/poly.c:60-67). -/
def reduceP (a : Poly) : Poly := ti (reduceN M (ofP a))
/-- `poly_caddq` (aarch64/poly.c:77-84). -/
def caddqP (a : Poly) : Poly := ti (caddqN M (ofP a))
/-- `poly_pointwise_montgomery` (aarch64/poly.c:208-215). -/
def pointwiseP (a b : Poly) : Poly := ti (pointwiseN M (ofP a) (ofP b))
/-- `poly_pointwise_montgomery` with the output over the second input. -/
def pointwiseP' (a b : Poly) : Poly := ti (pointwiseN' M (ofP a) (ofP b))
/-- `polyvecl_pointwise_acc_montgomery` (aarch64/polyvec.c:180-187). -/
def pointwiseAccP (u v : Vec) : Poly := ti (pointwiseAccN M (fun j => ofP (u j)) fun j => ofP (v j))
/-- `poly_power2round` (aarch64/poly.c:229-236). -/
def power2roundP (a : Poly) : Poly × Poly := (ti (power2roundN M (ofP a)).1, ti (power2roundN M (ofP a)).2)
/-- `polyt1_unpack` (aarch64/poly.c:733-740). -/
def t1UnpackP (b : Bytes) : Poly := ti (t1UnpackN C M b)

/-- The loop of `poly_uniformx2` (aarch64/poly.c:440-444): one new block per lane goes to the front of the buffer, and all 840 bytes are read again. -/
def uniformLoop2 (s : Fin 2 → Nat → UInt8) (acc : Fin 2 → List Int) (buf : Fin 2 → Bytes) (pos : Nat) : Option (Fin 2 → List Int) :=
  if (acc 0).length < 256 ∨ (acc 1).length < 256 then
    let buf := fun k => squeeze (s k) pos 168 ++ (buf k).drop 168
    uniformLoop2 s (fun k => acc k ++ rejUniform (256 - (acc k).length) (buf k)) buf (pos + 168)
  else some acc
partial_fixpoint

/-- `poly_uniformx2` (aarch64/poly.c:424-446). -/
def polyUniformX2 (seed : Bytes) (nonce0 nonce1 : UInt16) : Option (Poly × Poly) :=
  let s : Fin 2 → Nat → UInt8 := ![stream128 H seed nonce0, stream128 H seed nonce1]
  let buf := fun k => squeeze (s k) 0 840
  (uniformLoop2 s (fun k => rejUniform 256 (buf k)) buf 840).map fun l => (polyOfList C (l 0), polyOfList C (l 1))

/-- `poly_uniform_gamma1x2` (aarch64/poly.c:568-583). -/
def polyUniformGamma1X2 (seed : Bytes) (nonce0 nonce1 : UInt16) : Poly × Poly :=
  (polyzUnpack C (squeeze (stream256 H seed nonce0) 0 680), polyzUnpack C (squeeze (stream256 H seed nonce1) 0 680))

/-- `polyvec_matrix_expand` (aarch64/polyvec.c:54-62): column by column, two rows at a time. -/
def matrixExpandN (rho : Bytes) : Option Mat := do
  let cols ← forVec fun j => do
    let (a, b) ← polyUniformX2 C H rho (UInt16.ofNat (0 * 256 + j.1)) (UInt16.ofNat (1 * 256 + j.1))
    let (c, d) ← polyUniformX2 C H rho (UInt16.ofNat (2 * 256 + j.1)) (UInt16.ofNat (3 * 256 + j.1))
    return (![a, b, c, d] : Vec)
  return fun i j => cols j i

/-- `polyvecl_uniform_gamma1` (aarch64/polyvec.c:84-93). -/
def vecUniformGamma1N (seed : Bytes) (nonce : UInt16) : Vec :=
  let p := polyUniformGamma1X2 C H seed (4 * nonce + 0) (4 * nonce + 0 + 1)
  let q := polyUniformGamma1X2 C H seed (4 * nonce + 2) (4 * nonce + 2 + 1)
  ![p.1, p.2, q.1, q.2]

/-- `polyvecl_ntt`, `polyveck_ntt` (aarch64/polyvec.c:145-151, 333-339). -/
def vecNttP (v : Vec) : Vec := fun i => nttP M (v i)
/-- `polyvecl_invntt_tomont`, `polyveck_invntt_tomont` (aarch64/polyvec.c:153-159, 350-356). -/
def vecInvnttP (v : Vec) : Vec := fun i => invnttP M (v i)
/-- `polyvecl_reduce`, `polyveck_reduce` (aarch64/polyvec.c:95-101, 232-238). -/
def vecReduceP (v : Vec) : Vec := fun i => reduceP M (v i)
/-- `polyveck_caddq` (aarch64/polyvec.c:248-254). -/
def vecCaddqP (v : Vec) : Vec := fun i => caddqP M (v i)
/-- `polyvecl_pointwise_poly_montgomery`, `polyveck_pointwise_poly_montgomery` (aarch64/polyvec.c:161-167, 358-364). -/
def vecPointwisePolyP (a : Poly) (v : Vec) : Vec := fun i => pointwiseP M a (v i)
/-- The same with the output over the vector (sign.c:318). -/
def vecPointwisePolyP' (a : Poly) (v : Vec) : Vec := fun i => pointwiseP' M a (v i)
/-- `polyvec_matrix_pointwise_montgomery` (aarch64/polyvec.c:64-70). -/
def matrixPointwiseP (mat : Mat) (v : Vec) : Vec := fun i => pointwiseAccP M (mat i) v
/-- `polyveck_power2round` (aarch64/polyvec.c:404-410): `(v1, v0)`. -/
def vecPower2roundP (v : Vec) : Vec × Vec := (fun i => (power2roundP M (v i)).1, fun i => (power2roundP M (v i)).2)
/-- `unpack_pk` (aarch64/packing.c:46-59). -/
def unpackPkP (pk : Bytes) : Bytes × Vec := (pk.take 32, fun i => t1UnpackP C M (pk.drop (32 + i.1 * 320)))

/-- `use_hint` (aarch64/rounding.c:88-101), written with conditional expressions. -/
def useHintN (a : Int) (hint : Int) : Int :=
  let a1 := (decompose C a).1
  let a0 := (decompose C a).2
  if hint = 0 then a1
  else if a0 > 0 then (if a1 = 43 then 0 else C.i32 (a1 + 1)) else (if a1 = 0 then 43 else C.i32 (a1 - 1))
/-- `polyveck_use_hint` (aarch64/polyvec.c:468-474). -/
def vecUseHintN (u h : Vec) : Vec := fun k i => useHintN C (u k i) (h k i)

/-- `crypto_sign_keypair` (aarch64/sign.c:55-97), with the bytes that `randombytes` writes to the front of `seedbuf`. -/
def keypairN (coins : Bytes) : Option (Bytes × Bytes) := do
  let seedbuf := shake256 H 128 (coins.take 32)
  let rho := seedbuf.take 32
  let rhoprime := (seedbuf.drop 32).take 64
  let key := (seedbuf.drop 96).take 32
  let mat ← matrixExpandN C H rho
  let s1 ← vecUniformEta C H rhoprime 0
  let s2 ← vecUniformEta C H rhoprime 4
  let s1hat := vecNttP M s1
  let t1 := matrixPointwiseP M mat s1hat
  let t1 := vecReduceP M t1
  let t1 := vecInvnttP M t1
  let t1 := vecAdd C t1 s2
  let t1 := vecCaddqP M t1
  let (t1, t0) := vecPower2roundP M t1
  let pk := packPk rho t1
  let tr := shake256 H 64 pk
  let sk := packSk C { rho := rho, tr := tr, key := key, t0 := t0, s1 := s1, s2 := s2 }
  return (pk, sk)

/-- The prologue of `crypto_sign_signature` (aarch64/sign.c:112-151). -/
def signCtxN (m sk : Bytes) : Option SignCtx := do
  let f := unpackSk C sk
  let mu := shake256 H 64 (f.tr ++ m)
  let rnd := List.replicate 32 0
  let rhoprime := shake256 H 64 (f.key ++ rnd ++ mu)
  let mat ← matrixExpandN C H f.rho
  return { mu := mu, rhoprime := rhoprime, mat := mat, s1 := vecNttP M f.s1, s2 := vecNttP M f.s2, t0 := vecNttP M f.t0 }

/-- One pass from the label `rej` (aarch64/sign.c:153-214); `some none` is `goto rej`. -/
def signAttemptN (x : SignCtx) (nonce : UInt16) : Option (Option Bytes) := do
  let y := vecUniformGamma1N C H x.rhoprime nonce
  let z := vecNttP M y
  let w1 := matrixPointwiseP M x.mat z
  let w1 := vecReduceP M w1
  let w1 := vecInvnttP M w1
  let w1 := vecCaddqP M w1
  let (w1, w0) := vecDecompose C w1
  let sig := vecPackW1 w1
  let c := shake256 H 32 (x.mu ++ sig)
  let cp ← polyChallenge C H c
  let cp := nttP M cp
  let z := vecPointwisePolyP M cp x.s1
  let z := vecInvnttP M z
  let z := vecAdd C z y
  let z := vecReduceP M z
  if vecChknorm C z (GAMMA1 - BETA) then return none else
  let h := vecPointwisePolyP M cp x.s2
  let h := vecInvnttP M h
  let w0 := vecSub C w0 h
  let w0 := vecReduceP M w0
  if vecChknorm C w0 (GAMMA2 - BETA) then return none else
  let h := vecPointwisePolyP M cp x.t0
  let h := vecInvnttP M h
  let h := vecReduceP M h
  if vecChknorm C h GAMMA2 then return none else
  let w0 := vecAdd C w0 h
  let (h, n) := vecMakeHint w0 w1
  if n > 80 then return none else
  return some (packSig C c z h)

/-- The `goto rej` loop, with `nonce++` (a `uint16_t`). -/
def signLoopN (x : SignCtx) (nonce : UInt16) : Option Bytes := do
  match ← signAttemptN C H M x nonce with
  | some sig => some sig
  | none => signLoopN x (nonce + 1)
partial_fixpoint

/-- `crypto_sign_signature` (aarch64/sign.c:112-215). -/
def signatureN (m sk : Bytes) : Option Bytes := do
  let x ← signCtxN C H M m sk
  signLoopN C H M x 0

/-- `crypto_sign` (aarch64/sign.c:233-246). -/
def cryptoSignN (m sk : Bytes) : Option Bytes := do
  let sig ← signatureN C H M m sk
  return sig ++ m

/-- `crypto_sign_verify` (aarch64/sign.c:261-333): `some true` is the return value 0. -/
def verifyN (sig m pk : Bytes) : Option Bool :=
  if sig.length ≠ SIGLEN then some false else
  let (rho, t1) := unpackPkP C M pk
  match unpackSig C sig with
  | none => some false
  | some (c, z, h) =>
    if vecChknorm C z (GAMMA1 - BETA) then some false else do
    let mu := shake256 H 64 (pk.take PKLEN)
    let mu := shake256 H 64 (mu ++ m)
    let cp ← polyChallenge C H c
    let mat ← matrixExpandN C H rho
    let z := vecNttP M z
    let w1 := matrixPointwiseP M mat z
    let cp := nttP M cp
    let t1 := vecShiftl C t1
    let t1 := vecNttP M t1
    let t1 := vecPointwisePolyP' M cp t1
    let w1 := vecSub C w1 t1
    let w1 := vecReduceP M w1
    let w1 := vecInvnttP M w1
    let w1 := vecCaddqP M w1
    let w1 := vecUseHintN C w1 h
    let buf := vecPackW1 w1
    let c2 := shake256 H 32 (mu ++ buf)
    return decide (c = c2)

/-- `crypto_sign_open` (aarch64/sign.c:349-379). -/
def cryptoOpenN (sm pk : Bytes) : Option (Option Bytes) :=
  if sm.length < SIGLEN then some none
  else do
    let ok ← verifyN C H M (sm.take SIGLEN) (sm.drop SIGLEN) pk
    return if ok then some (sm.drop SIGLEN) else none

end Verif.Neon
