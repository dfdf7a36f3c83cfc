import Verif.Dilithium.Sign

/-!
# The `clean` implementations of dilithium3 and dilithium5

`pqclean/crypto_sign/dilithium3/clean` and `pqclean/crypto_sign/dilithium5/clean` consist of the same text as `dilithium2/clean` except for `params.h`,
the functions of `poly.c` and `rounding.c` that depend on `η`, `γ1` and `γ2`, and the names; line numbers below are those of dilithium3 (the files of
dilithium5 have the same numbers except in `poly.c`, where they are given too).  What does not depend on the parameters (reduce.c, ntt.c, the
coefficient-wise functions, `poly_uniform`, the formats of `t0` and `t1`) is the model of dilithium2.
-/

namespace Verif.Dilithium35

open Verif.Dilithium

/-- The two parameter sets. -/
inductive Mode
  | three
  | five
deriving DecidableEq, Repr

namespace Mode
/-- `K` (params.h:13). -/
abbrev K : Mode → Nat | three => 6 | five => 8
/-- `L` (params.h:14). -/
abbrev L : Mode → Nat | three => 5 | five => 7
/-- `ETA` (params.h:15). -/
abbrev ETA : Mode → Int | three => 4 | five => 2
/-- `TAU` (params.h:16). -/
abbrev TAU : Mode → Nat | three => 49 | five => 60
/-- `BETA` (params.h:17). -/
abbrev BETA : Mode → Int | three => 196 | five => 120
/-- `OMEGA` (params.h:20). -/
abbrev OMEGA : Mode → Nat | three => 55 | five => 75
/-- `CTILDEBYTES` (params.h:21). -/
abbrev CTILDE : Mode → Nat | three => 48 | five => 64
/-- `POLYETA_PACKEDBYTES` (params.h:31). -/
abbrev ETABYTES : Mode → Nat | three => 128 | five => 96
/-- `CRYPTO_PUBLICKEYBYTES` (params.h:33). -/
abbrev PKLEN (md : Mode) : Nat := 32 + md.K * 320
/-- `CRYPTO_SECRETKEYBYTES` (params.h:34-38). -/
abbrev SKLEN (md : Mode) : Nat := 2 * 32 + 64 + md.L * md.ETABYTES + md.K * md.ETABYTES + md.K * 416
/-- `CRYPTO_BYTES` (params.h:39). -/
abbrev SIGLEN (md : Mode) : Nat := md.CTILDE + md.L * 640 + (md.OMEGA + md.K)
end Mode

/-- `GAMMA1` (params.h:18). -/
abbrev GAMMA1 : Int := 524288
/-- `GAMMA2` (params.h:19). -/
abbrev GAMMA2 : Int := 261888

/-- `polyvecl`, `polyveck` (polyvec.h). -/
abbrev Vec (n : Nat) := Fin n → Poly
/-- `polyvecl mat[K]`. -/
abbrev Mat (md : Mode) := Fin md.K → Vec md.L

/-- Run `f` for the indices `0`, …, `n-1` in this order. -/
def forVec {α : Type} : (n : Nat) → (Fin n → Option α) → Option (Fin n → α)
  | 0, _ => some fun i => i.elim0
  | n + 1, f => do
    let v ← forVec n fun i => f i.castSucc
    let a ← f (Fin.last n)
    return fun i => if h : i.1 < n then v ⟨i.1, h⟩ else a

variable (md : Mode) (C : CSem) (H : Shake)

/-! ## rounding.c -/

/-- `decompose` (rounding.c:39-49): `(a1, a0)`. -/
def decompose (a : Int) : Int × Int :=
  let a1 := C.i32 (a + 127) / 128
  let a1 := C.i32 (C.i32 (a1 * 1025) + 2097152) / 4194304
  let a1 := Int.land a1 15
  let a0 := C.i32 (a - C.i32 (C.i32 (a1 * 2) * GAMMA2))
  let a0 := C.i32 (a0 - Int.land (C.i32 ((Q - 1) / 2 - a0) / 2147483648) Q)
  (a1, a0)

/-- `make_hint` (rounding.c:62-68). -/
def makeHint (a0 a1 : Int) : Int :=
  if a0 > GAMMA2 ∨ a0 < -GAMMA2 ∨ (a0 = -GAMMA2 ∧ a1 ≠ 0) then 1 else 0

/-- `use_hint` (rounding.c:80-92). -/
def useHint (a hint : Int) : Int :=
  let (a1, a0) := decompose C a
  if hint = 0 then a1
  else if a0 > 0 then Int.land (C.i32 (a1 + 1)) 15
  else Int.land (C.i32 (a1 - 1)) 15

/-! ## poly.c -/

/-- `poly_decompose` (poly.c:202-211): `(a1, a0)`. -/
def polyDecompose (a : Poly) : Poly × Poly := (fun i => (decompose C (a i)).1, fun i => (decompose C (a i)).2)
/-- `poly_make_hint` (poly.c:226-237): the hint and its weight. -/
def polyMakeHint (a0 a1 : Poly) : Poly × Int :=
  (fun i => makeHint (a0 i) (a1 i), ((List.finRange 256).map fun i => makeHint (a0 i) (a1 i)).sum)
/-- `poly_use_hint` (poly.c:248-257). -/
def polyUseHint (a h : Poly) : Poly := fun i => useHint C (a i) (h i)

/-- `rej_eta` of dilithium3 (poly.c:387-410); that of dilithium5 is the one of dilithium2. -/
def rejEta4 : Nat → Bytes → List Int
  | 0, _ => []
  | len + 1, b :: rest =>
    let t0 := b.toNat % 16
    let t1 := b.toNat / 16
    if t0 < 9 then
      if t1 < 9 ∧ 0 < len then (4 - (t0 : Int)) :: (4 - (t1 : Int)) :: rejEta4 (len - 1) rest
      else (4 - (t0 : Int)) :: rejEta4 len rest
    else if t1 < 9 then (4 - (t1 : Int)) :: rejEta4 len rest
    else rejEta4 (len + 1) rest
  | _ + 1, [] => []

/-- The `while (ctr < N)` loop of `poly_uniform_eta` (poly.c:438-441) of dilithium3. -/
def etaLoop4 (s : Nat → UInt8) (acc : List Int) (pos : Nat) : Option (List Int) :=
  if acc.length < 256 then etaLoop4 s (acc ++ rejEta4 (256 - acc.length) (squeeze s pos 136)) (pos + 136)
  else some acc
partial_fixpoint

/-- `poly_uniform_eta` (poly.c:424-443): two blocks of 136 bytes first in dilithium3, one in dilithium5 (poly.c:426-445 there, as in dilithium2). -/
def polyUniformEta (seed : Bytes) (nonce : UInt16) : Option Poly :=
  match md with
  | .three =>
    let s := stream256 H seed nonce
    (etaLoop4 s (rejEta4 256 (squeeze s 0 272)) 272).map (polyOfList C)
  | .five => Dilithium.polyUniformEta C H seed nonce

/-- Loop body of `polyeta_pack` of dilithium3 (poly.c:532). -/
def eta4PackChunk (t : Fin 2 → U8) : Fin 1 → U8 := ![low (ext (t 0) ||| (ext (t 1) <<< 4))]
/-- `polyeta_pack` of dilithium3 (poly.c:524-536). -/
def polyeta4Pack (a : Poly) : Bytes := List.ofFn fun i : Fin 128 => UInt8.ofBitVec
  (eta4PackChunk (fun m => BitVec.ofInt 8 (C.i32 (4 - a ⟨2 * (i.1 / 1) + m.1, by omega⟩))) ⟨i.1 % 1, by omega⟩)
/-- Loop body of `polyeta_unpack` of dilithium3 (poly.c:551-552). -/
def eta4UnpackChunk (a : Fin 1 → U8) : Fin 2 → W32 := ![ext (a 0) &&& 0x0F, ext (a 0) >>> 4]
/-- `polyeta_unpack` of dilithium3 (poly.c:546-558). -/
def polyeta4Unpack (b : Bytes) : Poly := fun i =>
  C.i32 (4 - (eta4UnpackChunk (fun j => at8 C b (1 * (i.1 / 2) + j.1)) ⟨i.1 % 2, by omega⟩).toInt)

/-- `polyeta_pack` (poly.c:524-536 of dilithium3, 526-547 of dilithium5). -/
def polyetaPack (a : Poly) : Bytes := match md with | .three => polyeta4Pack C a | .five => Dilithium.polyetaPack C a
/-- `polyeta_unpack` (poly.c:546-558 of dilithium3, 557-582 of dilithium5). -/
def polyetaUnpack (b : Bytes) : Poly := match md with | .three => polyeta4Unpack C b | .five => Dilithium.polyetaUnpack C b

/-- Loop body of `polyz_pack` (poly.c:738-743; dilithium5: 762-767). -/
def zPackChunk (t : Fin 2 → W32) : Fin 5 → U8 := ![
  low (t 0),
  low (t 0 >>> 8),
  low (t 0 >>> 16) ||| low (t 1 <<< 4),
  low (t 1 >>> 4),
  low (t 1 >>> 12)]
/-- `polyz_pack` (poly.c:729-747; dilithium5: 753-771). -/
def polyzPack (a : Poly) : Bytes := List.ofFn fun i : Fin 640 => UInt8.ofBitVec
  (zPackChunk (fun m => BitVec.ofInt 32 (C.i32 (GAMMA1 - a ⟨2 * (i.1 / 5) + m.1, by omega⟩))) ⟨i.1 % 5, by omega⟩)
/-- Loop body of `polyz_unpack` (poly.c:763-771; dilithium5: 787-795).  The second masking (poly.c:771) hits the first coefficient once more; the second is never masked. -/
def zUnpackChunk (a : Fin 5 → U8) : Fin 2 → W32 := ![
  (ext (a 0) ||| (ext (a 1) <<< 8) ||| (ext (a 2) <<< 16)) &&& 0xFFFFF &&& 0xFFFFF,
  (ext (a 2) >>> 4) ||| (ext (a 3) <<< 4) ||| (ext (a 4) <<< 12)]
/-- `polyz_unpack` (poly.c:758-778; dilithium5: 782-802). -/
def polyzUnpack (b : Bytes) : Poly := fun i =>
  C.i32 (GAMMA1 - (zUnpackChunk (fun j => at8 C b (5 * (i.1 / 2) + j.1)) ⟨i.1 % 2, by omega⟩).toInt)

/-- Loop body of `polyw1_pack` (poly.c:795; dilithium5: 819). -/
def w1PackChunk (a : Fin 2 → W32) : Fin 1 → U8 := ![low (a 0 ||| (a 1 <<< 4))]
/-- `polyw1_pack` (poly.c:790-799; dilithium5: 814-823). -/
def polyw1Pack (a : Poly) : Bytes := List.ofFn fun i : Fin 128 => UInt8.ofBitVec
  (w1PackChunk (fun m => BitVec.ofInt 32 (a ⟨2 * (i.1 / 1) + m.1, by omega⟩)) ⟨i.1 % 1, by omega⟩)

/-- `poly_uniform_gamma1` (poly.c:456-467; dilithium5: 458-469): 5 blocks of 136 bytes. -/
def polyUniformGamma1 (seed : Bytes) (nonce : UInt16) : Poly := polyzUnpack C (squeeze (stream256 H seed nonce) 0 680)

/-- `poly_challenge` (poly.c:478-514; dilithium5: 480-516): only the first `SEEDBYTES` bytes of the seed are absorbed, `TAU` coefficients are set. -/
def polyChallenge (seed : Bytes) : Option Poly := do
  let s := H.shake256 (seed.take 32)
  let buf := squeeze s 0 136
  let signs := ((List.range 8).map fun i => (at8 C buf i).toNat * 256 ^ i).sum
  let (c, _, _) ← (List.range' (256 - md.TAU) md.TAU).foldlM (chalStep C s) (fun _ => 0, signs, ⟨buf, 8, 136⟩)
  return c

/-! ## polyvec.c -/

/-- `polyvec_matrix_expand` (polyvec.c:16-24). -/
def matrixExpand (rho : Bytes) : Option (Mat md) :=
  forVec md.K fun i => forVec md.L fun j => polyUniform C H rho (UInt16.ofNat (i.1 * 256 + j.1))

/-- `polyvecl_pointwise_acc_montgomery` (polyvec.c:123-134), for any number of entries: the first product, then one addition per further entry. -/
def pointwiseAcc : (n : Nat) → Vec n → Vec n → Poly
  | 0, _, _ => fun _ => 0
  | 1, u, v => polyPointwise C (u 0) (v 0)
  | n + 2, u, v => polyAdd C (pointwiseAcc (n + 1) (fun i => u i.castSucc) fun i => v i.castSucc) (polyPointwise C (u (Fin.last (n + 1))) (v (Fin.last (n + 1))))

/-- `polyvec_matrix_pointwise_montgomery` (polyvec.c:26-32). -/
def matrixPointwise (mat : Mat md) (v : Vec md.L) : Vec md.K := fun i => pointwiseAcc C md.L (mat i) v
/-- `polyvecl_uniform_eta` and `polyveck_uniform_eta` (polyvec.c:38-44, 164-170). -/
def vecUniformEta (n : Nat) (seed : Bytes) (nonce : UInt16) : Option (Vec n) := forVec n fun i => polyUniformEta md C H seed (nonce + UInt16.ofNat i.1)
/-- `polyvecl_uniform_gamma1` (polyvec.c:46-52): nonce `(uint16_t)(L * nonce + i)`. -/
def vecUniformGamma1 (seed : Bytes) (nonce : UInt16) : Vec md.L := fun i => polyUniformGamma1 C H seed (UInt16.ofNat md.L * nonce + UInt16.ofNat i.1)

section
variable {n : Nat}
/-- `polyvecl_reduce`, `polyveck_reduce` (polyvec.c:54-60, 180-186). -/
def vecReduce (v : Vec n) : Vec n := fun i => polyReduce C (v i)
/-- `polyveck_caddq` (polyvec.c:196-202). -/
def vecCaddq (v : Vec n) : Vec n := fun i => polyCaddq C (v i)
/-- `polyvecl_add`, `polyveck_add` (polyvec.c:72-78, 214-220). -/
def vecAdd (u v : Vec n) : Vec n := fun i => polyAdd C (u i) (v i)
/-- `polyveck_sub` (polyvec.c:233-239). -/
def vecSub (u v : Vec n) : Vec n := fun i => polySub C (u i) (v i)
/-- `polyveck_shiftl` (polyvec.c:249-255). -/
def vecShiftl (v : Vec n) : Vec n := fun i => polyShiftl C (v i)
/-- `polyvecl_ntt`, `polyveck_ntt` (polyvec.c:88-94, 265-271). -/
def vecNtt (v : Vec n) : Vec n := fun i => polyNtt C (v i)
/-- `polyvecl_invntt_tomont`, `polyveck_invntt_tomont` (polyvec.c:96-102, 282-288). -/
def vecInvntt (v : Vec n) : Vec n := fun i => polyInvntt C (v i)
/-- `polyvecl_pointwise_poly_montgomery`, `polyveck_pointwise_poly_montgomery` (polyvec.c:104-110, 290-296). -/
def vecPointwisePoly (a : Poly) (v : Vec n) : Vec n := fun i => polyPointwise C a (v i)
/-- `polyvecl_chknorm`, `polyveck_chknorm` (polyvec.c:148-158, 310-320). -/
def vecChknorm (v : Vec n) (bound : Int) : Bool := (List.finRange n).any fun i => polyChknorm C (v i) bound
/-- `polyveck_power2round` (polyvec.c:336-342): `(v1, v0)`. -/
def vecPower2round (v : Vec n) : Vec n × Vec n := (fun i => (polyPower2round C (v i)).1, fun i => (polyPower2round C (v i)).2)
/-- `polyveck_decompose` (polyvec.c:359-365): `(v1, v0)`. -/
def vecDecompose (v : Vec n) : Vec n × Vec n := (fun i => (polyDecompose C (v i)).1, fun i => (polyDecompose C (v i)).2)
/-- `polyveck_make_hint` (polyvec.c:378-388): the hints and their number. -/
def vecMakeHint (v0 v1 : Vec n) : Vec n × Int :=
  (fun i => (polyMakeHint (v0 i) (v1 i)).1, ((List.finRange n).map fun i => (polyMakeHint (v0 i) (v1 i)).2).sum)
/-- `polyveck_use_hint` (polyvec.c:400-406). -/
def vecUseHint (u h : Vec n) : Vec n := fun i => polyUseHint C (u i) (h i)
/-- `polyveck_pack_w1` (polyvec.c:408-414). -/
def vecPackW1 (w1 : Vec n) : Bytes := (List.finRange n).flatMap fun i => polyw1Pack (w1 i)
end

/-! ## packing.c -/

/-- `pack_pk` (packing.c:15-28). -/
def packPk (rho : Bytes) (t1 : Vec md.K) : Bytes := rho.take 32 ++ (List.finRange md.K).flatMap fun i => polyt1Pack (t1 i)
/-- `unpack_pk` (packing.c:39-52): `(rho, t1)`. -/
def unpackPk (pk : Bytes) : Bytes × Vec md.K := (pk.take 32, fun i => polyt1Unpack C (pk.drop (32 + i.1 * 320)))

/-- The fields of an unpacked secret key. -/
structure SkFields (md : Mode) where
  rho : Bytes
  tr : Bytes
  key : Bytes
  t0 : Vec md.K
  s1 : Vec md.L
  s2 : Vec md.K

/-- `pack_sk` (packing.c:67-104). -/
def packSk (f : SkFields md) : Bytes :=
  f.rho.take 32 ++ f.key.take 32 ++ f.tr.take 64 ++ ((List.finRange md.L).flatMap fun i => polyetaPack md C (f.s1 i)) ++
  ((List.finRange md.K).flatMap fun i => polyetaPack md C (f.s2 i)) ++ (List.finRange md.K).flatMap fun i => polyt0Pack C (f.t0 i)
/-- `unpack_sk` (packing.c:119-156). -/
def unpackSk (sk : Bytes) : SkFields md where
  rho := sk.take 32
  key := (sk.drop 32).take 32
  tr := (sk.drop 64).take 64
  s1 := fun i => polyetaUnpack md C (sk.drop (128 + i.1 * md.ETABYTES))
  s2 := fun i => polyetaUnpack md C (sk.drop (128 + md.L * md.ETABYTES + i.1 * md.ETABYTES))
  t0 := fun i => polyt0Unpack C (sk.drop (128 + md.L * md.ETABYTES + md.K * md.ETABYTES + i.1 * 416))

/-- The hint encoder (packing.c:185-198). -/
def packHint (n ω : Nat) (h : Vec n) : Bytes :=
  ((List.finRange n).foldl (fun s i =>
    let s := packHintPoly (h i) s
    (s.1.set (ω + i.1) (UInt8.ofNat s.2), s.2)) (List.replicate (ω + n) 0, 0)).1
/-- `pack_sig` (packing.c:168-199). -/
def packSig (c : Bytes) (z : Vec md.L) (h : Vec md.K) : Bytes :=
  c.take md.CTILDE ++ ((List.finRange md.L).flatMap fun i => polyzPack C (z i)) ++ packHint md.K md.OMEGA h

/-- One iteration of the hint decoder's outer loop (packing.c:232-250). -/
def unpackHintStep {n : Nat} (ω : Nat) (b : Bytes) (s : Nat × Vec n) (i : Fin n) : Option (Nat × Vec n) :=
  let hi := (at8 C b (ω + i.1)).toNat
  if hi < s.1 ∨ hi > ω then none
  else (unpackHintPoly C b s.1 hi).map fun p => (hi, Function.update s.2 i p)
/-- The hint decoder (packing.c:231-259); the initial contents of `h` are overwritten. -/
def unpackHint (n ω : Nat) (b : Bytes) : Option (Vec n) := do
  let (k, h) ← (List.finRange n).foldlM (unpackHintStep C ω b) (0, fun _ _ => C.oob)
  if (List.range' k (ω - k)).any fun j => at8 C b j ≠ 0 then none else some h
/-- `unpack_sig` (packing.c:214-260): `(c, z, h)`. -/
def unpackSig (sig : Bytes) : Option (Bytes × Vec md.L × Vec md.K) :=
  (unpackHint C md.K md.OMEGA (sig.drop (md.CTILDE + md.L * 640))).map fun h =>
    (sig.take md.CTILDE, fun i => polyzUnpack C (sig.drop (md.CTILDE + i.1 * 640)), h)

/-! ## sign.c -/

/-- `crypto_sign_keypair_det` (sign.c:44-91): `(pk, sk)`.  (`crypto_sign_keypair`, sign.c:23-28, draws the coins.) -/
def keypairDet (coins : Bytes) : Option (Bytes × Bytes) := do
  let seedbuf := shake256 H 128 (coins.take 32)
  let rho := seedbuf.take 32
  let rhoprime := (seedbuf.drop 32).take 64
  let key := (seedbuf.drop 96).take 32
  let mat ← matrixExpand md C H rho
  let s1 ← vecUniformEta md C H md.L rhoprime 0
  let s2 ← vecUniformEta md C H md.K rhoprime (UInt16.ofNat md.L)
  let s1hat := vecNtt C s1
  let t1 := matrixPointwise md C mat s1hat
  let t1 := vecReduce C t1
  let t1 := vecInvntt C t1
  let t1 := vecAdd C t1 s2
  let t1 := vecCaddq C t1
  let (t1, t0) := vecPower2round C t1
  let pk := packPk md rho t1
  let tr := shake256 H 64 pk
  let sk := packSk md C { rho := rho, tr := tr, key := key, t0 := t0, s1 := s1, s2 := s2 }
  return (pk, sk)

/-- What the signing loop works with (sign.c:126-145). -/
structure SignCtx (md : Mode) where
  mu : Bytes
  rhoprime : Bytes
  mat : Mat md
  s1 : Vec md.L
  s2 : Vec md.K
  t0 : Vec md.K

/-- The prologue of `crypto_sign_signature` (sign.c:120-145). -/
def signCtx (m sk : Bytes) : Option (SignCtx md) := do
  let f := unpackSk md C sk
  let mu := shake256 H 64 (f.tr ++ m)
  let rnd := List.replicate 32 0
  let rhoprime := shake256 H 64 (f.key ++ rnd ++ mu)
  let mat ← matrixExpand md C H f.rho
  return { mu := mu, rhoprime := rhoprime, mat := mat, s1 := vecNtt C f.s1, s2 := vecNtt C f.s2, t0 := vecNtt C f.t0 }

/-- One pass from the label `rej` (sign.c:147-208); `some none` is `goto rej`. -/
def signAttempt (x : SignCtx md) (nonce : UInt16) : Option (Option Bytes) := do
  let y := vecUniformGamma1 md C H x.rhoprime nonce
  let z := vecNtt C y
  let w1 := matrixPointwise md C x.mat z
  let w1 := vecReduce C w1
  let w1 := vecInvntt C w1
  let w1 := vecCaddq C w1
  let (w1, w0) := vecDecompose C w1
  let sig := vecPackW1 w1
  let c := shake256 H md.CTILDE (x.mu ++ sig)
  let cp ← polyChallenge md C H c
  let cp := polyNtt C cp
  let z := vecPointwisePoly C cp x.s1
  let z := vecInvntt C z
  let z := vecAdd C z y
  let z := vecReduce C z
  if vecChknorm C z (GAMMA1 - md.BETA) then return none else
  let h := vecPointwisePoly C cp x.s2
  let h := vecInvntt C h
  let w0 := vecSub C w0 h
  let w0 := vecReduce C w0
  if vecChknorm C w0 (GAMMA2 - md.BETA) then return none else
  let h := vecPointwisePoly C cp x.t0
  let h := vecInvntt C h
  let h := vecReduce C h
  if vecChknorm C h GAMMA2 then return none else
  let w0 := vecAdd C w0 h
  let (h, n) := vecMakeHint w0 w1
  if n > md.OMEGA then return none else
  return some (packSig md C c z h)

/-- The `goto rej` loop, with `nonce++` (a `uint16_t`). -/
def signLoop (x : SignCtx md) (nonce : UInt16) : Option Bytes := do
  match ← signAttempt md C H x nonce with
  | some sig => some sig
  | none => signLoop x (nonce + 1)
partial_fixpoint

/-- `crypto_sign_signature` (sign.c:106-209). -/
def signature (m sk : Bytes) : Option Bytes := do
  let x ← signCtx md C H m sk
  signLoop md C H x 0

/-- `crypto_sign` (sign.c:227-240): signature followed by message. -/
def cryptoSign (m sk : Bytes) : Option Bytes := do
  let sig ← signature md C H m sk
  return sig ++ m

/-- `crypto_sign_verify` (sign.c:255-326): `some true` is the return value 0; `none` is non-termination. -/
def verify (sig m pk : Bytes) : Option Bool :=
  if sig.length ≠ md.SIGLEN then some false else
  let (rho, t1) := unpackPk md C pk
  match unpackSig md C sig with
  | none => some false
  | some (c, z, h) =>
    if vecChknorm C z (GAMMA1 - md.BETA) then some false else do
    let mu := shake256 H 64 (pk.take md.PKLEN)
    let mu := shake256 H 64 (mu ++ m)
    let cp ← polyChallenge md C H c
    let mat ← matrixExpand md C H rho
    let z := vecNtt C z
    let w1 := matrixPointwise md C mat z
    let cp := polyNtt C cp
    let t1 := vecShiftl C t1
    let t1 := vecNtt C t1
    let t1 := vecPointwisePoly C cp t1
    let w1 := vecSub C w1 t1
    let w1 := vecReduce C w1
    let w1 := vecInvntt C w1
    let w1 := vecCaddq C w1
    let w1 := vecUseHint C w1 h
    let buf := vecPackW1 w1
    let c2 := shake256 H md.CTILDE (mu ++ buf)
    return decide (c = c2)

/-- `crypto_sign_open` (sign.c:342-372): the message on success. -/
def cryptoOpen (sm pk : Bytes) : Option (Option Bytes) :=
  if sm.length < md.SIGLEN then some none
  else do
    let ok ← verify md C H (sm.take md.SIGLEN) (sm.drop md.SIGLEN) pk
    return if ok then some (sm.drop md.SIGLEN) else none

end Verif.Dilithium35
