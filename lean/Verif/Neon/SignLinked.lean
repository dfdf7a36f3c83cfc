import Verif.Neon.SampleLinked
import Verif.Dilithium.Linked

/-!
# The aarch64 signature scheme linked with fips202.c and fips202x2.c

The functions of `Verif/Neon/Sign.lean` that hash, once more, with the calls they make: the two-way samplers on the two-way Keccak (`SampleLinked.lean`),
and the portable `shake256` functions of common/fips202.c (`Verif/Keccak/Fips202.lean`) elsewhere.  `KJ` is the machine state at each call of a two-way
function.
-/

namespace Verif.Neon.Linked

open Verif.Dilithium hiding W32 toI32_id
open Verif.Dilithium.Linked (bytesAt hash2 polyChallenge vecUniformEta)
open Verif.Keccak (Oob)
open Verif.Neon.X2 (KJ)

variable (C : CSem) (O : Oob) (M : Mach)

/-- `polyvec_matrix_expand` (aarch64/polyvec.c:54-62). -/
def matrixExpand (E : Fin 4 → Fin 2 → KJ) (rho : Bytes) : Option Mat := do
  let cols ← forVec fun j => do
    let (a, b) ← X2.polyUniformX2 C (E j 0) rho (UInt16.ofNat (0 * 256 + j.1)) (UInt16.ofNat (1 * 256 + j.1))
    let (c, d) ← X2.polyUniformX2 C (E j 1) rho (UInt16.ofNat (2 * 256 + j.1)) (UInt16.ofNat (3 * 256 + j.1))
    return (![a, b, c, d] : Vec)
  return fun i j => cols j i

/-- `polyvecl_uniform_gamma1` (aarch64/polyvec.c:84-93). -/
def vecUniformGamma1 (E : Fin 2 → KJ) (seed : Bytes) (nonce : UInt16) : Option Vec := do
  let p ← X2.polyUniformGamma1X2 C (E 0) seed (4 * nonce + 0) (4 * nonce + 0 + 1)
  let q ← X2.polyUniformGamma1X2 C (E 1) seed (4 * nonce + 2) (4 * nonce + 2 + 1)
  return ![p.1, p.2, q.1, q.2]

/-- `crypto_sign_keypair` (aarch64/sign.c:55-97), with the bytes that `randombytes` writes to the front of `seedbuf`. -/
def keypair (E : Fin 4 → Fin 2 → KJ) (coins : Bytes) : Option (Bytes × Bytes) := do
  let seedbuf ← Keccak.shake256 O 128 (bytesAt C 32 coins)
  let rho := seedbuf.take 32
  let rhoprime := (seedbuf.drop 32).take 64
  let key := (seedbuf.drop 96).take 32
  let mat ← matrixExpand C E rho
  let s1 ← vecUniformEta C O rhoprime 0
  let s2 ← vecUniformEta C O rhoprime 4
  let s1hat := vecNttP M s1
  let t1 := matrixPointwiseP M mat s1hat
  let t1 := vecReduceP M t1
  let t1 := vecInvnttP M t1
  let t1 := vecAdd C t1 s2
  let t1 := vecCaddqP M t1
  let (t1, t0) := vecPower2roundP M t1
  let pk := packPk rho t1
  let tr ← Keccak.shake256 O 64 (bytesAt C PKLEN pk)
  let sk := packSk C { rho := rho, tr := tr, key := key, t0 := t0, s1 := s1, s2 := s2 }
  return (pk, sk)

/-- The prologue of `crypto_sign_signature` (aarch64/sign.c:112-151). -/
def signCtx (E : Fin 4 → Fin 2 → KJ) (m sk : Bytes) : Option SignCtx := do
  let f := unpackSk C sk
  let mu ← hash2 O 64 (bytesAt C 64 f.tr) m
  let rnd := List.replicate 32 0
  let rhoprime ← Keccak.shake256 O 64 (bytesAt C 32 f.key ++ rnd ++ mu)
  let mat ← matrixExpand C E f.rho
  return { mu := mu, rhoprime := rhoprime, mat := mat, s1 := vecNttP M f.s1, s2 := vecNttP M f.s2, t0 := vecNttP M f.t0 }

/-- One pass from the label `rej` (aarch64/sign.c:153-214); `some none` is `goto rej`. -/
def signAttempt (E : Fin 2 → KJ) (x : SignCtx) (nonce : UInt16) : Option (Option Bytes) := do
  let y ← vecUniformGamma1 C E x.rhoprime nonce
  let z := vecNttP M y
  let w1 := matrixPointwiseP M x.mat z
  let w1 := vecReduceP M w1
  let w1 := vecInvnttP M w1
  let w1 := vecCaddqP M w1
  let (w1, w0) := vecDecompose C w1
  let sig := vecPackW1 w1
  let c ← hash2 O 32 (bytesAt C 64 x.mu) (bytesAt C 768 sig)
  let cp ← polyChallenge C O c
  let cp := nttP M cp
  let z := vecPointwisePolyP M cp x.s1
  let z := vecInvnttP M z
  let z := vecAdd C z y
  let z := vecReduceP M z
  if vecChknorm C z (GAMMA1 - BETA) then return none else
  let h := vecPointwisePolyP M cp x.s2
  let h := vecInvnttP M h
  let w0 := vecSub C w0 h
  let w0 := vecReduceP M w0
  if vecChknorm C w0 (GAMMA2 - BETA) then return none else
  let h := vecPointwisePolyP M cp x.t0
  let h := vecInvnttP M h
  let h := vecReduceP M h
  if vecChknorm C h GAMMA2 then return none else
  let w0 := vecAdd C w0 h
  let (h, n) := vecMakeHint w0 w1
  if n > 80 then return none else
  return some (packSig C c z h)

/-- The `goto rej` loop, with `nonce++` (a `uint16_t`); `t` counts the passes. -/
def signLoop (E : Nat → Fin 2 → KJ) (x : SignCtx) (nonce : UInt16) (t : Nat) : Option Bytes := do
  match ← signAttempt C O M (E t) x nonce with
  | some sig => some sig
  | none => signLoop E x (nonce + 1) (t + 1)
partial_fixpoint

/-- `crypto_sign_signature` (aarch64/sign.c:112-215). -/
def signature (E : Fin 4 → Fin 2 → KJ) (E' : Nat → Fin 2 → KJ) (m sk : Bytes) : Option Bytes := do
  let x ← signCtx C O M E m sk
  signLoop C O M E' x 0 0

/-- `crypto_sign` (aarch64/sign.c:233-246). -/
def cryptoSign (E : Fin 4 → Fin 2 → KJ) (E' : Nat → Fin 2 → KJ) (m sk : Bytes) : Option Bytes := do
  let sig ← signature C O M E E' m sk
  return sig ++ m

/-- `crypto_sign_verify` (aarch64/sign.c:261-333): `some true` is the return value 0. -/
def verify (E : Fin 4 → Fin 2 → KJ) (sig m pk : Bytes) : Option Bool :=
  if sig.length ≠ SIGLEN then some false else
  let (rho, t1) := unpackPkP C M pk
  match unpackSig C sig with
  | none => some false
  | some (c, z, h) =>
    if vecChknorm C z (GAMMA1 - BETA) then some false else do
    let mu ← Keccak.shake256 O 64 (bytesAt C PKLEN pk)
    let mu ← hash2 O 64 mu m
    let cp ← polyChallenge C O c
    let mat ← matrixExpand C E rho
    let z := vecNttP M z
    let w1 := matrixPointwiseP M mat z
    let cp := nttP M cp
    let t1 := vecShiftl C t1
    let t1 := vecNttP M t1
    let t1 := vecPointwisePolyP' M cp t1
    let w1 := vecSub C w1 t1
    let w1 := vecReduceP M w1
    let w1 := vecInvnttP M w1
    let w1 := vecCaddqP M w1
    let w1 := vecUseHintN C w1 h
    let buf := vecPackW1 w1
    let c2 ← hash2 O 32 mu (bytesAt C 768 buf)
    return decide (c = c2)

/-- `crypto_sign_open` (aarch64/sign.c:349-379). -/
def cryptoOpen (E : Fin 4 → Fin 2 → KJ) (sm pk : Bytes) : Option (Option Bytes) :=
  if sm.length < SIGLEN then some none
  else do
    let ok ← verify C O M E (sm.take SIGLEN) (sm.drop SIGLEN) pk
    return if ok then some (sm.drop SIGLEN) else none

end Verif.Neon.Linked
