import Verif.Neon35.Poly
import Verif.Neon.Sign

/-!
# poly.c, polyvec.c and sign.c of dilithium3/aarch64 and dilithium5/aarch64

What pqcrypto-dilithium runs for these parameter sets on aarch64 with NEON (dilithium3.rs and dilithium5.rs; build.rs:136-160).  The assembly of all three
parameter sets is the same text, except that the inner product is assembled for `L` = 5 and 7 (`Neon35/Asm.lean`); sign.c is the same text too.  packing.c,
rounding.c and the coefficient-wise C loops are those of the clean implementations.  Line numbers are those of dilithium3; sign.c and polyvec.c of dilithium5
have the same ones.  As in `Neon/Sign.lean`, the two-way Keccak appears as two streams of `H`, and `M` is what the machine held before a call.
-/

namespace Verif.Neon35

open Verif.Neon (Mach nttP invnttP reduceP caddqP pointwiseP pointwiseP' power2roundP t1UnpackP polyUniformX2)
open Verif.Avx2 (VPoly ti ofP)
open Verif.Dilithium (CSem Shake Poly stream256 squeeze shake256)
open Verif.Dilithium35

variable (md : Mode) (C : CSem) (H : Shake) (M : Mach)

theorem K_half (md : Mode) (i : Fin md.K) : i.1 / 2 < md.K / 2 := by
  cases md
  · have h : i.1 < 6 := i.2
    show i.1 / 2 < 6 / 2
    omega
  · have h : i.1 < 8 := i.2
    show i.1 / 2 < 8 / 2
    omega

/-- `polyvecl_pointwise_acc_montgomery` (aarch64/polyvec.c:181-185). -/
def pointwiseAccP (u v : Vec md.L) : Poly := ti (pointwiseAccN md M (fun j => ofP (u j)) fun j => ofP (v j))

/-- `poly_uniform_gamma1x2` (aarch64/poly.c:566-581; dilithium5: 568-583). -/
def polyUniformGamma1X2 (seed : Bytes) (nonce0 nonce1 : UInt16) : Poly × Poly :=
  (polyzUnpack C (squeeze (stream256 H seed nonce0) 0 680), polyzUnpack C (squeeze (stream256 H seed nonce1) 0 680))

/-- `polyvec_matrix_expand` (aarch64/polyvec.c:54-62): column by column, two rows at a time. -/
def matrixExpandN (rho : Bytes) : Option (Mat md) := do
  let cols ← forVec md.L fun j => forVec (md.K / 2) fun i =>
    polyUniformX2 C H rho (UInt16.ofNat (2 * i.1 * 256 + j.1)) (UInt16.ofNat ((2 * i.1 + 1) * 256 + j.1))
  return fun i j => if i.1 % 2 = 0 then (cols j ⟨i.1 / 2, K_half md i⟩).1 else (cols j ⟨i.1 / 2, K_half md i⟩).2

/-- `polyvecl_uniform_gamma1` (aarch64/polyvec.c:84-93): two at a time, the last one (both `L` are odd) alone. -/
def vecUniformGamma1N (seed : Bytes) (nonce : UInt16) : Vec md.L := fun k =>
  if k.1 < md.L - 1 then
    let i := 2 * (k.1 / 2)
    let p := polyUniformGamma1X2 C H seed (UInt16.ofNat md.L * nonce + UInt16.ofNat i + 0) (UInt16.ofNat md.L * nonce + UInt16.ofNat i + 1)
    if k.1 % 2 = 0 then p.1 else p.2
  else polyUniformGamma1 C H seed (UInt16.ofNat md.L * nonce + UInt16.ofNat md.L - 1)

section
variable {n : Nat}
/-- `polyvecl_ntt`, `polyveck_ntt` (aarch64/polyvec.c:145-151, 333-339). -/
def vecNttP (v : Vec n) : Vec n := fun i => nttP M (v i)
/-- `polyvecl_invntt_tomont`, `polyveck_invntt_tomont` (aarch64/polyvec.c:153-159, 350-356). -/
def vecInvnttP (v : Vec n) : Vec n := fun i => invnttP M (v i)
/-- `polyvecl_reduce`, `polyveck_reduce` (aarch64/polyvec.c:95-101, 232-238). -/
def vecReduceP (v : Vec n) : Vec n := fun i => reduceP M (v i)
/-- `polyveck_caddq` (aarch64/polyvec.c:248-254). -/
def vecCaddqP (v : Vec n) : Vec n := fun i => caddqP M (v i)
/-- `polyvecl_pointwise_poly_montgomery`, `polyveck_pointwise_poly_montgomery` (aarch64/polyvec.c:161-167, 358-364). -/
def vecPointwisePolyP (a : Poly) (v : Vec n) : Vec n := fun i => pointwiseP M a (v i)
/-- The same with the output over the vector (sign.c:318). -/
def vecPointwisePolyP' (a : Poly) (v : Vec n) : Vec n := fun i => pointwiseP' M a (v i)
/-- `polyveck_power2round` (aarch64/polyvec.c:404-410): `(v1, v0)`. -/
def vecPower2roundP (v : Vec n) : Vec n × Vec n := (fun i => (power2roundP M (v i)).1, fun i => (power2roundP M (v i)).2)
end
/-- `polyvec_matrix_pointwise_montgomery` (aarch64/polyvec.c:64-70). -/
def matrixPointwiseP (mat : Mat md) (v : Vec md.L) : Vec md.K := fun i => pointwiseAccP md M (mat i) v
/-- `unpack_pk` (aarch64/packing.c:46-59). -/
def unpackPkP (pk : Bytes) : Bytes × Vec md.K := (pk.take 32, fun i => t1UnpackP C M (pk.drop (32 + i.1 * 320)))

/-- `crypto_sign_keypair` (aarch64/sign.c:55-97), with the bytes that `randombytes` writes to the front of `seedbuf`. -/
def keypairN (coins : Bytes) : Option (Bytes × Bytes) := do
  let seedbuf := shake256 H 128 (coins.take 32)
  let rho := seedbuf.take 32
  let rhoprime := (seedbuf.drop 32).take 64
  let key := (seedbuf.drop 96).take 32
  let mat ← matrixExpandN md C H rho
  let s1 ← vecUniformEta md C H md.L rhoprime 0
  let s2 ← vecUniformEta md C H md.K rhoprime (UInt16.ofNat md.L)
  let s1hat := vecNttP M s1
  let t1 := matrixPointwiseP md M mat s1hat
  let t1 := vecReduceP M t1
  let t1 := vecInvnttP M t1
  let t1 := vecAdd C t1 s2
  let t1 := vecCaddqP M t1
  let (t1, t0) := vecPower2roundP M t1
  let pk := packPk md rho t1
  let tr := shake256 H 64 pk
  let sk := packSk md C { rho := rho, tr := tr, key := key, t0 := t0, s1 := s1, s2 := s2 }
  return (pk, sk)

/-- The prologue of `crypto_sign_signature` (aarch64/sign.c:112-151). -/
def signCtxN (m sk : Bytes) : Option (SignCtx md) := do
  let f := unpackSk md C sk
  let mu := shake256 H 64 (f.tr ++ m)
  let rnd := List.replicate 32 0
  let rhoprime := shake256 H 64 (f.key ++ rnd ++ mu)
  let mat ← matrixExpandN md C H f.rho
  return { mu := mu, rhoprime := rhoprime, mat := mat, s1 := vecNttP M f.s1, s2 := vecNttP M f.s2, t0 := vecNttP M f.t0 }

/-- One pass from the label `rej` (aarch64/sign.c:153-214); `some none` is `goto rej`. -/
def signAttemptN (x : SignCtx md) (nonce : UInt16) : Option (Option Bytes) := do
  let y := vecUniformGamma1N md C H x.rhoprime nonce
  let z := vecNttP M y
  let w1 := matrixPointwiseP md M x.mat z
  let w1 := vecReduceP M w1
  let w1 := vecInvnttP M w1
  let w1 := vecCaddqP M w1
  let (w1, w0) := vecDecompose C w1
  let sig := vecPackW1 w1
  let c := shake256 H md.CTILDE (x.mu ++ sig)
  let cp ← polyChallenge md C H c
  let cp := nttP M cp
  let z := vecPointwisePolyP M cp x.s1
  let z := vecInvnttP M z
  let z := vecAdd C z y
  let z := vecReduceP M z
  if vecChknorm C z (GAMMA1 - md.BETA) then return none else
  let h := vecPointwisePolyP M cp x.s2
  let h := vecInvnttP M h
  let w0 := vecSub C w0 h
  let w0 := vecReduceP M w0
  if vecChknorm C w0 (GAMMA2 - md.BETA) then return none else
  let h := vecPointwisePolyP M cp x.t0
  let h := vecInvnttP M h
  let h := vecReduceP M h
  if vecChknorm C h GAMMA2 then return none else
  let w0 := vecAdd C w0 h
  let (h, n) := vecMakeHint w0 w1
  if n > md.OMEGA then return none else
  return some (packSig md C c z h)

/-- The `goto rej` loop, with `nonce++` (a `uint16_t`). -/
def signLoopN (x : SignCtx md) (nonce : UInt16) : Option Bytes := do
  match ← signAttemptN md C H M x nonce with
  | some sig => some sig
  | none => signLoopN x (nonce + 1)
partial_fixpoint

/-- `crypto_sign_signature` (aarch64/sign.c:112-215). -/
def signatureN (m sk : Bytes) : Option Bytes := do
  let x ← signCtxN md C H M m sk
  signLoopN md C H M x 0

/-- `crypto_sign` (aarch64/sign.c:233-246). -/
def cryptoSignN (m sk : Bytes) : Option Bytes := do
  let sig ← signatureN md C H M m sk
  return sig ++ m

/-- `crypto_sign_verify` (aarch64/sign.c:261-333): `some true` is the return value 0. -/
def verifyN (sig m pk : Bytes) : Option Bool :=
  if sig.length ≠ md.SIGLEN then some false else
  let (rho, t1) := unpackPkP md C M pk
  match unpackSig md C sig with
  | none => some false
  | some (c, z, h) =>
    if vecChknorm C z (GAMMA1 - md.BETA) then some false else do
    let mu := shake256 H 64 (pk.take md.PKLEN)
    let mu := shake256 H 64 (mu ++ m)
    let cp ← polyChallenge md C H c
    let mat ← matrixExpandN md C H rho
    let z := vecNttP M z
    let w1 := matrixPointwiseP md M mat z
    let cp := nttP M cp
    let t1 := vecShiftl C t1
    let t1 := vecNttP M t1
    let t1 := vecPointwisePolyP' M cp t1
    let w1 := vecSub C w1 t1
    let w1 := vecReduceP M w1
    let w1 := vecInvnttP M w1
    let w1 := vecCaddqP M w1
    let w1 := vecUseHint C w1 h
    let buf := vecPackW1 w1
    let c2 := shake256 H md.CTILDE (mu ++ buf)
    return decide (c = c2)

/-- `crypto_sign_open` (aarch64/sign.c:349-379). -/
def cryptoOpenN (sm pk : Bytes) : Option (Option Bytes) :=
  if sm.length < md.SIGLEN then some none
  else do
    let ok ← verifyN md C H M (sm.take md.SIGLEN) (sm.drop md.SIGLEN) pk
    return if ok then some (sm.drop md.SIGLEN) else none

end Verif.Neon35
