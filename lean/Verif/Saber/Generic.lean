import Verif.Saber.Poly

/-!
# saber-rust/src/generic.rs, params.rs, newtype.rs, non_generic.rs, lightsaber.rs, saber.rs, firesaber.rs

The hash functions of crate `sha3` are parameters (`Hashes`), uninterpreted.  Randomness (`OsRng::fill_bytes`) is an explicit argument of
the functions that draw it.
-/

namespace Verif.Saber

/-- Crate `sha3`: `Shake128` as an infinite output stream, `Sha3_256::digest`, `Sha3_512::digest`. -/
structure Hashes where
  shake128 : Bytes → Nat → UInt8
  sha3_256 : Bytes → ByteArr 32
  sha3_512 : Bytes → ByteArr 64

/-- `trait SaberImpl` (generic.rs:290-330): the constants and functions that differ between the three parameter sets.
`recBytes` is `RECONBYTES_KEM = (RECON_SIZE + 1) * N / 8` (params.rs:50). -/
structure Impl where
  /-- `K` -/
  K : Nat
  /-- `MU` -/
  mu : Nat
  /-- `RECON_SIZE` -/
  reconSize : Nat
  /-- `recon_poly_read_bytes_xbit` -/
  recRead : Poly → ByteArr ((reconSize + 1) * 32)
  /-- `recon_poly_from_bytes_xbit` -/
  recFrom : ByteArr ((reconSize + 1) * 32) → Poly
  /-- number of bytes one call of `cbd` reads from the XOF -/
  cbdLen : Nat
  /-- `cbd`, as a function of the remaining XOF output -/
  cbd : (Nat → UInt8) → Poly

/-- `load_littleendian` (generic.rs:345-351). -/
def loadLE {n : Nat} (b : Fin n → U8) : U64 :=
  (List.finRange n).foldl (fun r i => r ||| ((b i).setWidth 64 <<< (8 * i.1))) 0

/-- The loop `for idx in 0..buf.len() { d += (t >> idx) & mask }` of the three `cbd`s. -/
def bitSums (n : Nat) (mask t : U64) : U64 :=
  (List.range n).foldl (fun d idx => d + ((t >>> idx) &&& mask)) 0

/-- One chunk of LightSaber's `cbd` (lightsaber.rs:62-91). -/
def cbdLightChunk (b : Fin 5 → U8) : Fin 4 → U16 :=
  let d := bitSums 5 0x0008_4210_8421 (loadLE b)
  let a0 : U16 := (d &&& 0x1F).setWidth 16
  let b0 : U16 := ((d >>> 5) &&& 0x1F).setWidth 16
  let a1 : U16 := ((d >>> 10) &&& 0x1F).setWidth 16
  let b1 : U16 := ((d >>> 15) &&& 0x1F).setWidth 16
  let a2 : U16 := ((d >>> 20) &&& 0x1F).setWidth 16
  let b2 : U16 := ((d >>> 25) &&& 0x1F).setWidth 16
  let a3 : U16 := ((d >>> 30) &&& 0x1F).setWidth 16
  let b3 : U16 := (d >>> 35).setWidth 16
  ![a0 - b0, a1 - b1, a2 - b2, a3 - b3]

/-- One chunk of Saber's `cbd` (saber.rs:62-91). -/
def cbdSaberChunk (b : Fin 4 → U8) : Fin 4 → U16 :=
  let d := bitSums 4 0x1111_1111 (loadLE b)
  let a0 : U16 := (d &&& 0xF).setWidth 16
  let b0 : U16 := ((d >>> 4) &&& 0xF).setWidth 16
  let a1 : U16 := ((d >>> 8) &&& 0xF).setWidth 16
  let b1 : U16 := ((d >>> 12) &&& 0xF).setWidth 16
  let a2 : U16 := ((d >>> 16) &&& 0xF).setWidth 16
  let b2 : U16 := ((d >>> 20) &&& 0xF).setWidth 16
  let a3 : U16 := ((d >>> 24) &&& 0xF).setWidth 16
  let b3 : U16 := (d >>> 28).setWidth 16
  ![a0 - b0, a1 - b1, a2 - b2, a3 - b3]

/-- One chunk of FireSaber's `cbd` (firesaber.rs:62-91). -/
def cbdFireChunk (b : Fin 3 → U8) : Fin 4 → U16 :=
  let d := bitSums 3 0x0024_9249 (loadLE b)
  let a0 : U16 := (d &&& 0x07).setWidth 16
  let b0 : U16 := ((d >>> 3) &&& 0x07).setWidth 16
  let a1 : U16 := ((d >>> 6) &&& 0x07).setWidth 16
  let b1 : U16 := ((d >>> 9) &&& 0x07).setWidth 16
  let a2 : U16 := ((d >>> 12) &&& 0x07).setWidth 16
  let b2 : U16 := ((d >>> 15) &&& 0x07).setWidth 16
  let a3 : U16 := ((d >>> 18) &&& 0x07).setWidth 16
  let b3 : U16 := ((d >>> 21) &&& 0x07).setWidth 16
  ![a0 - b0, a1 - b1, a2 - b2, a3 - b3]

/-- `cbd`'s outer loop: `poly.coeffs.chunks_exact_mut(4)`, each filled from the next `n` XOF bytes. -/
def cbdWith {n : Nat} (chunk : (Fin n → U8) → Fin 4 → U16) (xof : Nat → UInt8) : Poly := fun i =>
  chunk (fun j => (xof (n * (i.1 / 4) + j.1)).toBitVec) ⟨i.1 % 4, by omega⟩

/-- `impl SaberImpl for LightSaber` (lightsaber.rs:32-92). -/
def light : Impl where
  K := 2
  mu := 10
  reconSize := 2
  recRead := Poly.readBytes3
  recFrom := Poly.fromBytes3
  cbdLen := 320
  cbd := cbdWith cbdLightChunk

/-- `impl SaberImpl for Saber` (saber.rs:32-92). -/
def saber : Impl where
  K := 3
  mu := 8
  reconSize := 3
  recRead := Poly.readBytes4
  recFrom := Poly.fromBytes4
  cbdLen := 256
  cbd := cbdWith cbdSaberChunk

/-- `impl SaberImpl for FireSaber` (firesaber.rs:32-92). -/
def fire : Impl where
  K := 4
  mu := 6
  reconSize := 5
  recRead := Poly.readBytes6
  recFrom := Poly.fromBytes6
  cbdLen := 192
  cbd := cbdWith cbdFireChunk

/-! ## Vectors and matrices -/

/-- `struct Vector { polys: [Poly; K] }` (non_generic.rs). -/
abbrev Vec (K : Nat) := Fin K → Poly

/-- `struct Matrix { vecs: [Vector; K] }` (non_generic.rs). -/
abbrev Mat (K : Nat) := Fin K → Vec K

theorem chunk_lt {K n : Nat} {k : Fin K} {j : Fin n} : n * k.1 + j.1 < K * n := by
  have h1 := k.2; have h2 := j.2
  calc n * k.1 + j.1 < n * k.1 + n := by omega
    _ = (k.1 + 1) * n := by rw [Nat.add_mul, Nat.one_mul, Nat.mul_comm]
    _ ≤ K * n := Nat.mul_le_mul_right n h1

theorem div_lt_of {K n : Nat} (i : Fin (K * n)) : i.1 / n < K := by
  rw [Nat.div_lt_iff_lt_mul]
  · exact i.2
  · rcases Nat.eq_zero_or_pos n with h | h
    · have := i.2; simp [h] at this
    · exact h

theorem mod_lt_of {K n : Nat} (i : Fin (K * n)) : i.1 % n < n := by
  rcases Nat.eq_zero_or_pos n with h | h
  · have := i.2; simp [h] at this
  · exact Nat.mod_lt _ h

/-- The `k`-th chunk of `chunks_exact(n)`. -/
def chunkOf {K n : Nat} (b : ByteArr (K * n)) (k : Fin K) : ByteArr n :=
  bufOf fun j => byteAt b ⟨n * k.1 + j.1, chunk_lt⟩

/-- A buffer written through `chunks_exact_mut(n)`. -/
def joinChunks {K n : Nat} (c : Fin K → ByteArr n) : ByteArr (K * n) :=
  bufOf fun i => byteAt (c ⟨i.1 / n, div_lt_of i⟩) ⟨i.1 % n, mod_lt_of i⟩

namespace Vec
variable {K : Nat}

/-- `from_bytes_mod_q` (generic.rs:16-27). -/
def fromBytesModQ (b : ByteArr (K * 416)) : Vec K := fun k => Poly.fromBytes13 (chunkOf b k)

/-- `from_bytes_mod_p` (generic.rs:29-40). -/
def fromBytesModP (b : ByteArr (K * 320)) : Vec K := fun k => Poly.fromBytes10 (chunkOf b k)

/-- `read_mod_q` (generic.rs:42-52). -/
def readModQ (v : Vec K) : ByteArr (K * 416) := joinChunks fun k => Poly.readBytes13 (v k)

/-- `read_mod_p` (generic.rs:54-64). -/
def readModP (v : Vec K) : ByteArr (K * 320) := joinChunks fun k => Poly.readBytes10 (v k)

/-- `add_u16` (generic.rs:75-82). -/
def addU16 (v : Vec K) (r : U16) : Vec K := fun k => (v k).addU16 r

/-- `shr` (generic.rs:84-90). -/
def shr (v : Vec K) (n : Nat) : Vec K := fun k => (v k).shr n

/-- `mul` (generic.rs:92-101): the inner product. -/
def mul (v w : Vec K) : Poly :=
  (List.finRange K).foldl (fun acc k => acc.add ((v k).mul (w k))) Poly.default

end Vec

namespace Mat
variable {K : Nat}

/-- `Matrix::mul` (generic.rs:111-120). -/
def mul (A : Mat K) (v : Vec K) : Vec K := fun i => (A i).mul v

/-- `Matrix::mul_transpose` (generic.rs:122-134). -/
def mulTranspose (A : Mat K) (v : Vec K) : Vec K := fun i =>
  (List.finRange K).foldl (fun acc j => acc.add ((A j i).mul (v j))) Poly.default

end Mat

/-! ## Keys -/

/-- `struct INDCPAPublicKey { vec, seed }` (non_generic.rs). -/
structure CpaPk (I : Impl) where
  vec : Vec I.K
  seed : ByteArr 32

/-- `struct INDCPASecretKey { vec }` (non_generic.rs). -/
structure CpaSk (I : Impl) where
  vec : Vec I.K

/-- `struct PublicKey { pk_cpa }` (non_generic.rs). -/
structure PublicKey (I : Impl) where
  pkCpa : CpaPk I

/-- `struct SecretKey { z, hash_pk, pk_cca, sk_cpa }` (non_generic.rs). -/
structure SecretKey (I : Impl) where
  z : ByteArr 32
  hashPk : ByteArr 32
  pkCca : PublicKey I
  skCpa : CpaSk I

/-- `POLYVECCOMPRESSEDBYTES = K * (N * EPS_P) / 8` (params.rs:35-36). -/
abbrev Impl.polyvecBytes (I : Impl) : Nat := I.K * 320
/-- `PUBLIC_KEY_BYTES = INDCPA_PUBLICKEYBYTES` (params.rs:37, 42). -/
abbrev Impl.pkBytes (I : Impl) : Nat := I.K * 320 + 32
/-- `INDCPA_SECRETKEYBYTES = K * EPS_Q * N / 8` (params.rs:38-39). -/
abbrev Impl.cpaSkBytes (I : Impl) : Nat := I.K * 416
/-- `SECRET_KEY_BYTES` (params.rs:43-46). -/
abbrev Impl.skBytes (I : Impl) : Nat := I.K * 416 + (I.K * 320 + 32) + 32 + 32
/-- `BYTES_CCA_DEC = POLYVECCOMPRESSEDBYTES + RECONBYTES_KEM` (params.rs:47). -/
abbrev Impl.ctBytes (I : Impl) : Nat := I.K * 320 + (I.reconSize + 1) * 32

/-- `saber::Error::BadLength { name, actual, expected }` (lib.rs). -/
inductive Error where
  | badLength (name : String) (actual expected : Nat)
  deriving DecidableEq

/-- Two adjacent buffers; `split_at_mut(n)` followed by `copy_from_slice` on both halves. -/
def cat {n m : Nat} (a : ByteArr n) (b : ByteArr m) : ByteArr (n + m) := ⟨a.1 ++ b.1, by simp [a.2, b.2]⟩

/-- First half of `split_at(n)`. -/
def fstPart {n m : Nat} (b : ByteArr (n + m)) : ByteArr n := ⟨b.1.take n, by simp [b.2]⟩

/-- Second half of `split_at(n)`. -/
def sndPart {n m : Nat} (b : ByteArr (n + m)) : ByteArr m := ⟨b.1.drop n, by simp [b.2]⟩

/-- `from_bytes` of every `__byte_array_newtype!` (newtype.rs:59-71): `PublicKeyBytes`, `SecretKeyBytes`, `Ciphertext`, `SharedSecret`, … -/
def newtypeFromBytes (name : String) (n : Nat) (b : Bytes) : Res Error (ByteArr n) :=
  if h : b.length = n then .ok ⟨b, h⟩ else .err (.badLength name b.length n)

/-- `as_bytes` / `as_slice` / `into_bytes` of a newtype (newtype.rs:39-54). -/
def newtypeAsSlice {n : Nat} (x : ByteArr n) : Bytes := x.1

namespace CpaPk
variable {I : Impl}

/-- `INDCPAPublicKey::to_bytes` (generic.rs:142-149). -/
def toBytes (pk : CpaPk I) : ByteArr I.pkBytes := cat pk.vec.readModP pk.seed

/-- `INDCPAPublicKey::from_bytes` (generic.rs:151-158).  Length mismatches (a `debug_assert`, then a panic in `copy_from_slice`
or silent truncation) are excluded by the type; every caller in the workspace passes `INDCPA_PUBLICKEYBYTES`. -/
def fromBytes (b : ByteArr I.pkBytes) : CpaPk I := ⟨Vec.fromBytesModP (fstPart b), sndPart b⟩

end CpaPk

namespace CpaSk
variable {I : Impl}

/-- `INDCPASecretKey::to_bytes` (generic.rs:168-173). -/
def toBytes (sk : CpaSk I) : ByteArr I.cpaSkBytes := sk.vec.readModQ

/-- `INDCPASecretKey::from_bytes` (generic.rs:175-185). -/
def fromBytes (b : Bytes) : Res Error (CpaSk I) :=
  if h : b.length = I.cpaSkBytes then .ok ⟨Vec.fromBytesModQ ⟨b, h⟩⟩ else .err (.badLength "bytes" b.length I.cpaSkBytes)

end CpaSk

namespace PublicKey
variable {I : Impl}

/-- `PublicKey::to_bytes` (non_generic.rs:19-21). -/
def toBytes (pk : PublicKey I) : ByteArr I.pkBytes := pk.pkCpa.toBytes

/-- `PublicKey::from_bytes` (generic.rs:202-213). -/
def fromBytes (b : Bytes) : Res Error (PublicKey I) :=
  if h : b.length = I.pkBytes then .ok ⟨CpaPk.fromBytes ⟨b, h⟩⟩ else .err (.badLength "bytes" b.length I.pkBytes)

end PublicKey

namespace SecretKey
variable {I : Impl}

/-- `SecretKey::to_bytes` (generic.rs:249-261). -/
def toBytes (sk : SecretKey I) : ByteArr I.skBytes :=
  cat (cat (cat sk.skCpa.toBytes sk.pkCca.toBytes) sk.hashPk) sk.z

/-- `SecretKey::from_bytes` (generic.rs:267-287). -/
def fromBytes (b : Bytes) : Res Error (SecretKey I) :=
  if b.length ≠ I.skBytes then .err (.badLength "bytes" b.length I.skBytes)
  else
    let skCpaBytes := b.take I.cpaSkBytes
    let rest := b.drop I.cpaSkBytes
    let pkBytes := rest.take I.pkBytes
    let rest := rest.drop I.pkBytes
    let hashBytes := rest.take 32
    let zBytes := rest.drop 32
    match CpaSk.fromBytes (I := I) skCpaBytes with
    | .err e => .err e
    | .panic => .panic
    | .ok skCpa =>
      match PublicKey.fromBytes (I := I) pkBytes with
      | .err e => .err e
      | .panic => .panic
      | .ok pk =>
        match toArr? 32 hashBytes, toArr? 32 zBytes with
        | some h, some z => .ok ⟨z, h, pk, skCpa⟩
        | _, _ => .panic

end SecretKey

/-! ## Algorithms -/

variable (H : Hashes) (I : Impl)

/-- `gen_secret` (generic.rs:332-343). -/
def genSecret (seed : ByteArr 32) : Vec I.K := fun k =>
  I.cbd fun n => H.shake128 seed.1 (I.cbdLen * k.1 + n)

/-- `gen_matrix` (generic.rs:353-369). -/
def genMatrix (seed : ByteArr 32) : Mat I.K := fun i j =>
  Poly.fromBytes13 (bufOf fun n => (H.shake128 seed.1 (416 * (I.K * i.1 + j.1) + n.1)).toBitVec)

/-- `recon_data_gen` (generic.rs:371-376); `EPS_P = 10`, `P = 1024`. -/
def reconDataGen (p : Poly) : ByteArr ((I.reconSize + 1) * 32) :=
  I.recRead ((p.reduce 1024).shr (10 - I.reconSize - 1))

/-- `recon` (generic.rs:378-400). -/
def recon (recData : ByteArr ((I.reconSize + 1) * 32)) (p : Poly) : Poly :=
  let c0 := 10 - I.reconSize - 1
  let c1 : U16 := BitVec.ofNat 16 ((1 <<< (10 - 2)) - (1 <<< (10 - 2 - I.reconSize)))
  let recPoly := I.recFrom recData
  fun i =>
    let temp := recPoly i <<< c0
    let temp := p i - temp + c1
    (0 : U16) ||| ((temp >>> (10 - 1)) &&& 0x1)

/-- `indcpa_kem_keypair_deterministic` (generic.rs:413-433); `indcpa_kem_keypair` (generic.rs:402-411) draws the two seeds. -/
def cpaKeypair (seed noiseseed : ByteArr 32) : CpaPk I × CpaSk I :=
  let A := genMatrix H I seed
  let s := genSecret H I noiseseed
  let b := (A.mul s).addU16 4 |>.shr 3
  (⟨b, seed⟩, ⟨s⟩)

/-- `indcpa_kem_enc` (generic.rs:435-480). -/
def cpaEnc (m noiseseed : ByteArr 32) (pk : CpaPk I) : ByteArr I.ctBytes :=
  let A := genMatrix H I pk.seed
  let s' := genSecret H I noiseseed
  let b' := (A.mulTranspose s').addU16 4 |>.shr 3
  let ct := b'.readModP
  let pol := pk.vec.mul s'
  let mp := (Poly.fromMsg m).add pol
  let recData := reconDataGen I mp
  cat ct recData

/-- `indcpa_kem_dec` (generic.rs:482-507). -/
def cpaDec (sk : CpaSk I) (ct : ByteArr I.ctBytes) : ByteArr 32 :=
  let recData := sndPart ct
  let b := Vec.fromBytesModP (K := I.K) (fstPart ct)
  let v := b.mul sk.vec
  (recon I recData v).readBytesMsg

/-- `encapsulate_ind_cpa` (generic.rs:545-555): coins are the message and the noise seed; the shared secret is the message. -/
def encapsulateCpa (m r : ByteArr 32) (pk : CpaPk I) : ByteArr 32 × ByteArr I.ctBytes :=
  (m, cpaEnc H I m r pk)

/-- `decapsulate_ind_cpa` (generic.rs:588-593). -/
def decapsulateCpa (ct : ByteArr I.ctBytes) (sk : CpaSk I) : ByteArr 32 := cpaDec I sk ct

/-- `keygen` (generic.rs:515-525); coins: the two seeds and `z`. -/
def keygen (seed noiseseed z : ByteArr 32) : SecretKey I :=
  let (pk, sk) := cpaKeypair H I seed noiseseed
  ⟨z, H.sha3_256 pk.toBytes.1, ⟨pk⟩, sk⟩

/-- `encapsulate` (generic.rs:528-543); the coin is the message.  `kr[0..32]` is used as noise seed, then overwritten. -/
def encapsulate (m : ByteArr 32) (pk : PublicKey I) : ByteArr 32 × ByteArr I.ctBytes :=
  let hashPk := H.sha3_256 pk.toBytes.1
  let kr : ByteArr (32 + 32) := H.sha3_512 (hashPk.1 ++ m.1)
  let r := fstPart kr
  let ct := cpaEnc H I m r pk.pkCpa
  let kr' := cat (H.sha3_256 ct.1) (sndPart kr)
  (H.sha3_256 kr'.1, ct)

/-- `u8_eq_mask` (generic.rs:633-637). -/
def u8EqMask (x y : U8) : U8 :=
  let z := x ^^^ y
  let z := z ||| (-z)
  (z >>> 7) - 1

/-- `bytes_eq_mask` (generic.rs:600-607). -/
def bytesEqMask (a b : Bytes) : U8 :=
  (a.zip b).foldl (fun acc p => acc &&& u8EqMask p.1.toBitVec p.2.toBitVec) 0xFF

/-- `decapsulate` (generic.rs:556-586). -/
def decapsulate (ct : ByteArr I.ctBytes) (sk : SecretKey I) : ByteArr 32 :=
  let m := cpaDec I sk.skCpa ct
  let kr : ByteArr (32 + 32) := H.sha3_512 (sk.hashPk.1 ++ m.1)
  let r := fstPart kr
  let k := sndPart kr
  let ct' := cpaEnc H I m r sk.pkCca.pkCpa
  let fail := 0xFF ^^^ bytesEqMask ct'.1 ct.1
  let r := H.sha3_256 ct'.1
  let first := (r.1.zip sk.z.1).map fun p =>
    UInt8.ofBitVec ((p.1.toBitVec &&& ~~~fail) ||| (p.2.toBitVec &&& fail))
  H.sha3_256 (first ++ k.1)

end Verif.Saber
