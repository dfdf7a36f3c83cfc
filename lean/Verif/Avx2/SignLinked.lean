import Verif.Avx2.Sign
import Verif.Avx2.SampleLinked
import Verif.Dilithium.Linked

/-!
# The AVX2 signature scheme linked with fips202.c and fips202x4.c

The functions of `Verif/Avx2/Sign.lean` that hash, once more, with the calls they make: the four-way samplers on the four-way Keccak (`SampleLinked.lean`),
and the portable `shake256` functions of common/fips202.c (`Verif/Keccak/Fips202.lean`) elsewhere.  `KJ` is the machine state at the calls of the four-way
functions: the registers and the uninitialised `keccakx4_state`.
-/

namespace Verif.Avx2.Linked

open Verif.Dilithium (CSem polyetaPack polyt1Pack polyt0Pack polyzPack unpackSk)
open Verif.Dilithium.Linked (bytesAt hash2 polyChallenge)
open Verif.Keccak (Oob)
open Verif.Avx2.F1600 (Q4)
open Verif.Avx2.X4 (Regs)

/-- Registers and uninitialised state at a call of a four-way function. -/
structure KJ where
  R : Regs
  s : Nat → Q4

variable (C : CSem) (O : Oob)

/-- `polyvec_matrix_expand_row` (sign.c:13-32, polyvec.c:28-62). -/
def expandRow (K : KJ) (J : Fin 5 → Junk) (rho : Bytes) (i : Fin 4) : Option (Fin 4 → VPoly) := do
  let r ← X4.polyUniform4x K.R K.s (J 0) rho (rowNonce i)
  return fun j => nttunpackC (J j.succ).mach (r j)

/-- One iteration of the loop of `crypto_sign_keypair` (sign.c:82-98) on `(pk, sk)`. -/
def keypairStep (K : Fin 4 → KJ) (J : Fin 4 → Fin 10 → Junk) (rho : Bytes) (s1hat s2 : Fin 4 → VPoly) (st : (Nat → UInt8) × (Nat → UInt8)) (i : Fin 4) :
    Option ((Nat → UInt8) × (Nat → UInt8)) := do
  let row ← expandRow (K i) (fun n => J i (n.castLE (by omega))) rho i
  let t1 := pointwiseAccC (J i 5).mach row s1hat
  let t1 := invnttC (J i 6).mach t1
  let t1 := polyAddV t1 (s2 i)
  let t1 := polyCaddqV t1
  let (t1, t0) := polyPower2roundV t1
  let pk := writeAt st.1 (32 + i.1 * 320) (polyt1Pack (ti t1))
  let sk := writeAt st.2 (128 + 8 * 96 + i.1 * 416) (polyt0Pack C (ti t0))
  return (pk, sk)

/-- `crypto_sign_keypair` (sign.c:46-104) after `randombytes`. -/
def keypairA (K : Fin 2 → KJ) (K' : Fin 4 → KJ) (J : Fin 8 → Junk) (J' : Fin 4 → Fin 10 → Junk) (coins : Bytes) : Option (Bytes × Bytes) := do
  let seedbuf ← Keccak.shake256 O 128 (coins.take 32)
  let rho := seedbuf.take 32
  let rhoprime := (seedbuf.drop 32).take 64
  let key := (seedbuf.drop 96).take 32
  let pk := writeAt (J 0).bytes 0 rho
  let sk := writeAt (J 1).bytes 0 rho
  let sk := writeAt sk 32 key
  let s1 ← X4.polyUniformEta4x (K 0).R (K 0).s (J 2) rhoprime ![0, 1, 2, 3]
  let s2 ← X4.polyUniformEta4x (K 1).R (K 1).s (J 3) rhoprime ![4, 5, 6, 7]
  let sk := (List.finRange 4).foldl (fun sk i => writeAt sk (128 + i.1 * 96) (polyetaPack C (ti (s1 i)))) sk
  let sk := (List.finRange 4).foldl (fun sk i => writeAt sk (128 + (4 + i.1) * 96) (polyetaPack C (ti (s2 i)))) sk
  let s1hat := fun i => nttC (J (i.castLE (by omega) + 4)).mach (s1 i)
  let (pk, sk) ← (List.finRange 4).foldlM (keypairStep C K' J' rho s1hat s2) (pk, sk)
  let tr ← Keccak.shake256 O 64 (readB pk 0 1312)
  let sk := writeAt sk 64 tr
  return (readB pk 0 1312, readB sk 0 2560)

/-- The prologue of `crypto_sign_signature` (sign.c:133-158). -/
def signCtxA (K : Fin 4 → KJ) (J : Fin 3 → Fin 4 → Junk) (J' : Fin 4 → Fin 5 → Junk) (m sk : Bytes) : Option CtxA := do
  let f := unpackSk C sk
  let mu ← hash2 O 64 f.tr m
  let rnd := List.replicate 32 0
  let rhoprime ← Keccak.shake256 O 64 (f.key ++ rnd ++ mu)
  let mat ← Dilithium.forVec fun i => expandRow (K i) (J' i) f.rho i
  return { mu := mu, rhoprime := rhoprime, mat := mat, s1 := fun i => nttC (J 0 i).mach (ofP (f.s1 i)), s2 := fun i => nttC (J 1 i).mach (ofP (f.s2 i)),
           t0 := fun i => nttC (J 2 i).mach (ofP (f.t0 i)) }

/-- The rest of a pass (sign.c:174-235). -/
def respondA (J : Junk) (J1 : Fin 4 → Fin 2 → Junk) (J2 : Fin 4 → Fin 5 → Junk) (x : CtxA) (sig : Nat → UInt8) (z w1 : Fin 4 → VPoly) :
    Option ((Nat → UInt8) × Bool) := do
  let w0 := fun i => (polyDecomposeV (w1 i)).2
  let w1 := fun i => (polyDecomposeV (w1 i)).1
  let sig := (List.finRange 4).foldl (fun sig i => polyw1PackV sig (i.1 * 192) (w1 i)) sig
  let ctilde ← hash2 O 32 x.mu (readB sig 0 768)
  let sig := writeAt sig 0 ctilde
  let c ← polyChallenge C O (readB sig 0 32)
  let c := nttC J.mach (ofP c)
  let z := fun i => polyReduceV (polyAddV (z i) (mulPoly (J1 i) c (x.s1 i)))
  if (List.finRange 4).any fun i => decide (polyChknormV (z i) (131072 - 78) ≠ 0) then return (sig, false) else
  let sig := writeAt sig 2336 (List.replicate 80 0)
  return finishA C z ((List.finRange 4).foldlM (hintStepA J2 x c w0 w1) (sig, 0))

/-- One pass from the label `rej` (sign.c:160-235). -/
def signAttemptA (K : KJ) (Jy Jc : Junk) (J : Fin 3 → Fin 4 → Junk) (J1 : Fin 4 → Fin 2 → Junk) (J2 : Fin 4 → Fin 5 → Junk) (x : CtxA) (sig : Nat → UInt8)
    (nonce : UInt64) : Option ((Nat → UInt8) × Bool) := do
  let z ← X4.polyUniformGamma14x K.R K.s Jy x.rhoprime fun i => (nonce + UInt64.ofNat i.1).toUInt16
  respondA C O Jc J1 J2 x sig z (commitA J x z)

/-- The `goto rej` loop with `nonce += 4`; `t` counts the passes. -/
def signLoopA (K : Nat → KJ) (J : LoopJunk) (x : CtxA) (sig : Nat → UInt8) (nonce : UInt64) (t : Nat) : Option (Nat → UInt8) := do
  let (sig, done) ← signAttemptA C O (K t) (J.y t) (J.chal t) (J.a t) (J.b t) (J.c t) x sig nonce
  if done then some sig else signLoopA K J x sig (nonce + 4) (t + 1)
partial_fixpoint

/-- `crypto_sign_signature` (sign.c:119-238). -/
def signatureA (K : Fin 4 → KJ) (K' : Nat → KJ) (J : SignJunk) (m sk : Bytes) : Option Bytes := do
  let x ← signCtxA C O K J.vec J.mat m sk
  let sig ← signLoopA C O K' J.loop x J.sig 0 0
  return readB sig 0 2420

/-- `crypto_sign` (sign.c:256-265). -/
def cryptoSignA (K : Fin 4 → KJ) (K' : Nat → KJ) (J : SignJunk) (m sk : Bytes) : Option Bytes := do
  let sig ← signatureA C O K K' J m sk
  return sig ++ m

/-- One row of `crypto_sign_verify` (sign.c:315-349): `some none` is `return -1`. -/
def verifyRow (K : Fin 4 → KJ) (J : Fin 4 → Fin 5 → Junk) (J' : Fin 4 → Fin 4 → Junk) (sig pk : Bytes) (c : VPoly) (z : Fin 4 → VPoly)
    (st : (Nat → UInt8) × Nat) (i : Fin 4) : Option (Option ((Nat → UInt8) × Nat)) := do
  let row ← expandRow (K i) (J i) (pk.take 32) i
  let w1 := verifyMul C (J' i) pk c z i row
  return (rowHintA C (sig.drop 2336) st.2 i).map fun h => (polyw1PackV st.1 (i.1 * 192) (polyUseHintV (polyCaddqV w1) (ofP h.1)), h.2)

/-- The rows in order, until one returns -1. -/
def verifyRows (K : Fin 4 → KJ) (J : Fin 4 → Fin 5 → Junk) (J' : Fin 4 → Fin 4 → Junk) (sig pk : Bytes) (c : VPoly) (z : Fin 4 → VPoly) :
    List (Fin 4) → (Nat → UInt8) × Nat → Option (Option ((Nat → UInt8) × Nat))
  | [], st => some (some st)
  | i :: l, st => (verifyRow C K J J' sig pk c z st i).bind fun o => o.elim (some none) (verifyRows K J J' sig pk c z l)

/-- After the rows (sign.c:351-371). -/
def verifyEnd (sig mu : Bytes) (st : (Nat → UInt8) × Nat) : Option Bool :=
  if (List.range' st.2 (80 - st.2)).any fun j => decide (Dilithium.at8 C (sig.drop 2336) j ≠ 0) then some false else do
  let c2 ← hash2 O 32 mu (readB st.1 0 768)
  let buf := writeAt st.1 0 c2
  return (List.range 32).all fun k => decide (buf k = sig.getD k 0)

/-- `crypto_sign_verify` (sign.c:280-372): `some true` is the return value 0. -/
def verifyA (K : Fin 4 → KJ) (J : VerifyJunk) (sig m pk : Bytes) : Option Bool :=
  if sig.length ≠ 2420 then some false else do
  let mu ← Keccak.shake256 O 64 (pk.take 1312)
  let mu ← hash2 O 64 mu m
  let c ← polyChallenge C O sig
  let c := nttC J.chal.mach (ofP c)
  let z := fun i : Fin 4 => polyzUnpackV fun k => sig.getD (32 + i.1 * 576 + k) 0
  let z := fun i => nttC (J.z i).mach (z i)
  let o ← verifyRows C K J.row J.mul sig pk c z (List.finRange 4) (J.buf, 0)
  o.elim (some false) (verifyEnd C O sig mu)

/-- `crypto_sign_open` (sign.c:388-414): the message on success. -/
def cryptoOpenA (K : Fin 4 → KJ) (J : VerifyJunk) (sm pk : Bytes) : Option (Option Bytes) :=
  if sm.length < 2420 then some none
  else do
    let ok ← verifyA C O K J (sm.take 2420) (sm.drop 2420) pk
    return if ok then some (sm.drop 2420) else none

end Verif.Avx2.Linked
