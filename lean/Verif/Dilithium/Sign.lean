import Verif.Dilithium.Poly

/-!
# `polyvec.c`, `packing.c` and `sign.c` of pqclean/crypto_sign/dilithium2/clean

`K = L = 4`: `polyvecl` and `polyveck` are both `Fin 4 → Poly`; the vector functions apply the polynomial function to each entry.
A pointer into a buffer is the list of bytes from there on.
-/

namespace Verif.Dilithium

/-- `polyvecl`, `polyveck` (polyvec.h). -/
abbrev Vec := Fin 4 → Poly
/-- `polyvecl mat[K]`. -/
abbrev Mat := Fin 4 → Vec

/-- `CRYPTO_PUBLICKEYBYTES` (params.h:33). -/
abbrev PKLEN : Nat := 1312
/-- `CRYPTO_SECRETKEYBYTES` (params.h:34-38). -/
abbrev SKLEN : Nat := 2560
/-- `CRYPTO_BYTES` (params.h:39). -/
abbrev SIGLEN : Nat := 2420

/-- Run `f` for the four indices in order. -/
def forVec {α : Type} (f : Fin 4 → Option α) : Option (Fin 4 → α) := do
  let a ← f 0; let b ← f 1; let c ← f 2; let d ← f 3
  return ![a, b, c, d]

variable (C : CSem) (H : Shake)

/-- `polyvec_matrix_expand` (polyvec.c:16-24). -/
def matrixExpand (rho : Bytes) : Option Mat :=
  forVec fun i => forVec fun j => polyUniform C H rho (UInt16.ofNat (i.1 * 256 + j.1))

/-- `polyvecl_pointwise_acc_montgomery` (polyvec.c:123-134). -/
def pointwiseAcc (u v : Vec) : Poly :=
  let w := polyPointwise C (u 0) (v 0)
  let w := polyAdd C w (polyPointwise C (u 1) (v 1))
  let w := polyAdd C w (polyPointwise C (u 2) (v 2))
  polyAdd C w (polyPointwise C (u 3) (v 3))

/-- `polyvec_matrix_pointwise_montgomery` (polyvec.c:26-32). -/
def matrixPointwise (mat : Mat) (v : Vec) : Vec := fun i => pointwiseAcc C (mat i) v

/-- `polyvecl_uniform_eta` and `polyveck_uniform_eta` (polyvec.c:38-44, 164-170); the nonce is a `uint16_t`. -/
def vecUniformEta (seed : Bytes) (nonce : UInt16) : Option Vec :=
  forVec fun i => polyUniformEta C H seed (nonce + UInt16.ofNat i.1)

/-- `polyvecl_uniform_gamma1` (polyvec.c:46-52): nonce `(uint16_t)(L * nonce + i)`. -/
def vecUniformGamma1 (seed : Bytes) (nonce : UInt16) : Vec := fun i =>
  polyUniformGamma1 C H seed (4 * nonce + UInt16.ofNat i.1)

/-- `polyvecl_reduce`, `polyveck_reduce` (polyvec.c:54-60, 180-186). -/
def vecReduce (v : Vec) : Vec := fun i => polyReduce C (v i)
/-- `polyveck_caddq` (polyvec.c:196-202). -/
def vecCaddq (v : Vec) : Vec := fun i => polyCaddq C (v i)
/-- `polyvecl_add`, `polyveck_add` (polyvec.c:72-78, 214-220). -/
def vecAdd (u v : Vec) : Vec := fun i => polyAdd C (u i) (v i)
/-- `polyveck_sub` (polyvec.c:233-239). -/
def vecSub (u v : Vec) : Vec := fun i => polySub C (u i) (v i)
/-- `polyveck_shiftl` (polyvec.c:249-255). -/
def vecShiftl (v : Vec) : Vec := fun i => polyShiftl C (v i)
/-- `polyvecl_ntt`, `polyveck_ntt` (polyvec.c:88-94, 265-271). -/
def vecNtt (v : Vec) : Vec := fun i => polyNtt C (v i)
/-- `polyvecl_invntt_tomont`, `polyveck_invntt_tomont` (polyvec.c:96-102, 282-288). -/
def vecInvntt (v : Vec) : Vec := fun i => polyInvntt C (v i)
/-- `polyvecl_pointwise_poly_montgomery`, `polyveck_pointwise_poly_montgomery` (polyvec.c:104-110, 290-296). -/
def vecPointwisePoly (a : Poly) (v : Vec) : Vec := fun i => polyPointwise C a (v i)
/-- `polyvecl_chknorm`, `polyveck_chknorm` (polyvec.c:148-158, 310-320). -/
def vecChknorm (v : Vec) (bound : Int) : Bool := (List.finRange 4).any fun i => polyChknorm C (v i) bound
/-- `polyveck_power2round` (polyvec.c:336-342): `(v1, v0)`. -/
def vecPower2round (v : Vec) : Vec × Vec := (fun i => (polyPower2round C (v i)).1, fun i => (polyPower2round C (v i)).2)
/-- `polyveck_decompose` (polyvec.c:359-365): `(v1, v0)`. -/
def vecDecompose (v : Vec) : Vec × Vec := (fun i => (polyDecompose C (v i)).1, fun i => (polyDecompose C (v i)).2)
/-- `polyveck_make_hint` (polyvec.c:378-388): the hints and their number. -/
def vecMakeHint (v0 v1 : Vec) : Vec × Int :=
  (fun i => (polyMakeHint (v0 i) (v1 i)).1, ((List.finRange 4).map fun i => (polyMakeHint (v0 i) (v1 i)).2).sum)
/-- `polyveck_use_hint` (polyvec.c:400-406). -/
def vecUseHint (u h : Vec) : Vec := fun i => polyUseHint C (u i) (h i)
/-- `polyveck_pack_w1` (polyvec.c:408-414). -/
def vecPackW1 (w1 : Vec) : Bytes := (List.finRange 4).flatMap fun i => polyw1Pack (w1 i)

/-! ## packing.c -/

/-- `pack_pk` (packing.c:15-28). -/
def packPk (rho : Bytes) (t1 : Vec) : Bytes := rho.take 32 ++ (List.finRange 4).flatMap fun i => polyt1Pack (t1 i)

/-- `unpack_pk` (packing.c:39-52): `(rho, t1)`. -/
def unpackPk (pk : Bytes) : Bytes × Vec := (pk.take 32, fun i => polyt1Unpack C (pk.drop (32 + i.1 * 320)))

/-- The fields of an unpacked secret key. -/
structure SkFields where
  rho : Bytes
  tr : Bytes
  key : Bytes
  t0 : Vec
  s1 : Vec
  s2 : Vec

/-- `pack_sk` (packing.c:67-104). -/
def packSk (f : SkFields) : Bytes :=
  f.rho.take 32 ++ f.key.take 32 ++ f.tr.take 64 ++ ((List.finRange 4).flatMap fun i => polyetaPack C (f.s1 i)) ++
  ((List.finRange 4).flatMap fun i => polyetaPack C (f.s2 i)) ++ (List.finRange 4).flatMap fun i => polyt0Pack C (f.t0 i)

/-- `unpack_sk` (packing.c:119-156). -/
def unpackSk (sk : Bytes) : SkFields where
  rho := sk.take 32
  key := (sk.drop 32).take 32
  tr := (sk.drop 64).take 64
  s1 := fun i => polyetaUnpack C (sk.drop (128 + i.1 * 96))
  s2 := fun i => polyetaUnpack C (sk.drop (512 + i.1 * 96))
  t0 := fun i => polyt0Unpack C (sk.drop (896 + i.1 * 416))

/-- The inner loop of the hint encoder for one polynomial (packing.c:191-195). -/
def packHintPoly (p : Poly) (s : Bytes × Nat) : Bytes × Nat :=
  (List.finRange 256).foldl (fun s j => if p j ≠ 0 then (s.1.set s.2 (UInt8.ofNat j.1), s.2 + 1) else s) s

/-- The hint encoder (packing.c:185-198). -/
def packHint (h : Vec) : Bytes :=
  ((List.finRange 4).foldl (fun s i =>
    let s := packHintPoly (h i) s
    (s.1.set (80 + i.1) (UInt8.ofNat s.2), s.2)) (List.replicate 84 0, 0)).1

/-- `pack_sig` (packing.c:168-199). -/
def packSig (c : Bytes) (z h : Vec) : Bytes :=
  c.take 32 ++ ((List.finRange 4).flatMap fun i => polyzPack C (z i)) ++ packHint h

/-- The inner loop of the hint decoder (packing.c:241-247); `none` is `return 1`. -/
def unpackHintPoly (b : Bytes) (k hi : Nat) : Option Poly :=
  (List.range' k (hi - k)).foldlM (fun (p : Poly) j =>
    if j > k ∧ (at8 C b j).toNat ≤ (at8 C b (j - 1)).toNat then none
    else some (wr p (at8 C b j).toNat 1)) (fun _ => 0)

/-- One iteration of the hint decoder's outer loop (packing.c:232-250). -/
def unpackHintStep (b : Bytes) (s : Nat × Vec) (i : Fin 4) : Option (Nat × Vec) :=
  let hi := (at8 C b (80 + i.1)).toNat
  if hi < s.1 ∨ hi > 80 then none
  else (unpackHintPoly C b s.1 hi).map fun p => (hi, Function.update s.2 i p)

/-- The hint decoder (packing.c:231-259); the initial contents of `h` are overwritten. -/
def unpackHint (b : Bytes) : Option Vec := do
  let (k, h) ← (List.finRange 4).foldlM (unpackHintStep C b) (0, fun _ _ => C.oob)
  if (List.range' k (80 - k)).any fun j => at8 C b j ≠ 0 then none else some h

/-- `unpack_sig` (packing.c:214-260): `(c, z, h)`. -/
def unpackSig (sig : Bytes) : Option (Bytes × Vec × Vec) :=
  (unpackHint C (sig.drop 2336)).map fun h => (sig.take 32, fun i => polyzUnpack C (sig.drop (32 + i.1 * 576)), h)

/-! ## sign.c -/

/-- `crypto_sign_keypair_det` (sign.c:44-91): `(pk, sk)`.  (`crypto_sign_keypair`, sign.c:23-28, draws the coins.) -/
def keypairDet (coins : Bytes) : Option (Bytes × Bytes) := do
  let seedbuf := shake256 H 128 (coins.take 32)
  let rho := seedbuf.take 32
  let rhoprime := (seedbuf.drop 32).take 64
  let key := (seedbuf.drop 96).take 32
  let mat ← matrixExpand C H rho
  let s1 ← vecUniformEta C H rhoprime 0
  let s2 ← vecUniformEta C H rhoprime 4
  let s1hat := vecNtt C s1
  let t1 := matrixPointwise C mat s1hat
  let t1 := vecReduce C t1
  let t1 := vecInvntt C t1
  let t1 := vecAdd C t1 s2
  let t1 := vecCaddq C t1
  let (t1, t0) := vecPower2round C t1
  let pk := packPk rho t1
  let tr := shake256 H 64 pk
  let sk := packSk C { rho := rho, tr := tr, key := key, t0 := t0, s1 := s1, s2 := s2 }
  return (pk, sk)

/-- What the signing loop works with (sign.c:126-145). -/
structure SignCtx where
  mu : Bytes
  rhoprime : Bytes
  mat : Mat
  s1 : Vec
  s2 : Vec
  t0 : Vec

/-- The prologue of `crypto_sign_signature` (sign.c:126-145). -/
def signCtx (m sk : Bytes) : Option SignCtx := do
  let f := unpackSk C sk
  let mu := shake256 H 64 (f.tr ++ m)
  let rnd := List.replicate 32 0
  let rhoprime := shake256 H 64 (f.key ++ rnd ++ mu)
  let mat ← matrixExpand C H f.rho
  return { mu := mu, rhoprime := rhoprime, mat := mat, s1 := vecNtt C f.s1, s2 := vecNtt C f.s2, t0 := vecNtt C f.t0 }

/-- One pass from the label `rej` (sign.c:147-208); `some none` is `goto rej`. -/
def signAttempt (x : SignCtx) (nonce : UInt16) : Option (Option Bytes) := do
  let y := vecUniformGamma1 C H x.rhoprime nonce
  let z := vecNtt C y
  let w1 := matrixPointwise C x.mat z
  let w1 := vecReduce C w1
  let w1 := vecInvntt C w1
  let w1 := vecCaddq C w1
  let (w1, w0) := vecDecompose C w1
  let sig := vecPackW1 w1
  let c := shake256 H 32 (x.mu ++ sig)
  let cp ← polyChallenge C H c
  let cp := polyNtt C cp
  let z := vecPointwisePoly C cp x.s1
  let z := vecInvntt C z
  let z := vecAdd C z y
  let z := vecReduce C z
  if vecChknorm C z (GAMMA1 - BETA) then return none else
  let h := vecPointwisePoly C cp x.s2
  let h := vecInvntt C h
  let w0 := vecSub C w0 h
  let w0 := vecReduce C w0
  if vecChknorm C w0 (GAMMA2 - BETA) then return none else
  let h := vecPointwisePoly C cp x.t0
  let h := vecInvntt C h
  let h := vecReduce C h
  if vecChknorm C h GAMMA2 then return none else
  let w0 := vecAdd C w0 h
  let (h, n) := vecMakeHint w0 w1
  if n > 80 then return none else
  return some (packSig C c z h)

/-- The `goto rej` loop, with `nonce++` (a `uint16_t`). -/
def signLoop (x : SignCtx) (nonce : UInt16) : Option Bytes := do
  match ← signAttempt C H x nonce with
  | some sig => some sig
  | none => signLoop x (nonce + 1)
partial_fixpoint

/-- `crypto_sign_signature` (sign.c:106-209). -/
def signature (m sk : Bytes) : Option Bytes := do
  let x ← signCtx C H m sk
  signLoop C H x 0

/-- `crypto_sign` (sign.c:227-240): signature followed by message. -/
def cryptoSign (m sk : Bytes) : Option Bytes := do
  let sig ← signature C H m sk
  return sig ++ m

/-- `crypto_sign_verify` (sign.c:255-326): `some true` is the return value 0; `none` is non-termination. -/
def verify (sig m pk : Bytes) : Option Bool :=
  if sig.length ≠ SIGLEN then some false else
  let (rho, t1) := unpackPk C pk
  match unpackSig C sig with
  | none => some false
  | some (c, z, h) =>
    if vecChknorm C z (GAMMA1 - BETA) then some false else do
    let mu := shake256 H 64 (pk.take PKLEN)
    let mu := shake256 H 64 (mu ++ m)
    let cp ← polyChallenge C H c
    let mat ← matrixExpand C H rho
    let z := vecNtt C z
    let w1 := matrixPointwise C mat z
    let cp := polyNtt C cp
    let t1 := vecShiftl C t1
    let t1 := vecNtt C t1
    let t1 := vecPointwisePoly C cp t1
    let w1 := vecSub C w1 t1
    let w1 := vecReduce C w1
    let w1 := vecInvntt C w1
    let w1 := vecCaddq C w1
    let w1 := vecUseHint C w1 h
    let buf := vecPackW1 w1
    let c2 := shake256 H 32 (mu ++ buf)
    return decide (c = c2)

/-- `crypto_sign_open` (sign.c:342-372): the message on success. -/
def cryptoOpen (sm pk : Bytes) : Option (Option Bytes) :=
  if sm.length < SIGLEN then some none
  else do
    let ok ← verify C H (sm.take SIGLEN) (sm.drop SIGLEN) pk
    return if ok then some (sm.drop SIGLEN) else none

end Verif.Dilithium
