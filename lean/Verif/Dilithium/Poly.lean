import Verif.Dilithium.Ntt
import Verif.Basic.Bytes
import Mathlib.Data.Fin.VecNotation
import Mathlib.Data.BitVec

/-!
# `poly.c` and `symmetric-shake.c` of pqclean/crypto_sign/dilithium2/clean

SHAKE128 and SHAKE256 are a parameter here: a `Shake` gives, for each absorbed byte string, an arbitrary infinite output stream. `Verif/Keccak`
models fips202.c, and C84 gives the `Shake` it computes.
Loops over the stream that need not terminate are written with `partial_fixpoint` in `Option`: `none` means that the loop runs for ever.

A C loop `for (i = 0; i < N; ++i) c[i] = f(a[i], b[i])` is the function `fun i => f (a i) (b i)`.
Packing loops fill output byte `i` from the coefficient chunk `i / bytes-per-chunk`; the `…Chunk` functions transcribe the loop bodies.
-/

namespace Verif.Dilithium

/-- `uint8_t`. -/
abbrev U8 := BitVec 8
/-- `uint32_t`, and the bit pattern of an `int32_t`. -/
abbrev W32 := BitVec 32
/-- Promotion of a `uint8_t`. -/
abbrev ext (x : U8) : W32 := x.setWidth 32
/-- Conversion to `uint8_t`. -/
abbrev low (x : W32) : U8 := x.setWidth 8

/-- The two extendable-output functions (fips202.c): absorbed bytes to output stream. -/
structure Shake where
  shake128 : Bytes → Nat → UInt8
  shake256 : Bytes → Nat → UInt8

/-- `n` output bytes starting at stream position `pos`. -/
def squeeze (s : Nat → UInt8) (pos n : Nat) : Bytes := (List.range n).map fun i => s (pos + i)

/-- `shake256(out, n, in, inlen)`. -/
def shake256 (H : Shake) (n : Nat) (inp : Bytes) : Bytes := squeeze (H.shake256 inp) 0 n

/-- The two nonce bytes (symmetric-shake.c:7-9, 18-20). -/
def nonceBytes (nonce : UInt16) : Bytes := [nonce.toUInt8, (nonce >>> 8).toUInt8]

/-- `dilithium_shake128_stream_init` (symmetric-shake.c:6-15). -/
def stream128 (H : Shake) (seed : Bytes) (nonce : UInt16) : Nat → UInt8 := H.shake128 (seed ++ nonceBytes nonce)
/-- `dilithium_shake256_stream_init` (symmetric-shake.c:17-26). -/
def stream256 (H : Shake) (seed : Bytes) (nonce : UInt16) : Nat → UInt8 := H.shake256 (seed ++ nonceBytes nonce)

variable (C : CSem)

/-- `poly_reduce` (poly.c:20-29). -/
def polyReduce (a : Poly) : Poly := fun i => reduce32 C (a i)
/-- `poly_caddq` (poly.c:39-48). -/
def polyCaddq (a : Poly) : Poly := fun i => caddq C (a i)
/-- `poly_add` (poly.c:59-68). -/
def polyAdd (a b : Poly) : Poly := fun i => C.i32 (a i + b i)
/-- `poly_sub` (poly.c:81-90). -/
def polySub (a b : Poly) : Poly := fun i => C.i32 (a i - b i)
/-- `poly_shiftl` (poly.c:100-109), `D = 13`. -/
def polyShiftl (a : Poly) : Poly := fun i => C.i32 (a i * 8192)
/-- `poly_ntt` (poly.c:119-125). -/
def polyNtt (a : Poly) : Poly := ntt C C.oob a
/-- `poly_invntt_tomont` (poly.c:136-142). -/
def polyInvntt (a : Poly) : Poly := invnttTomont C C.oob a
/-- `poly_pointwise_montgomery` (poly.c:155-164). -/
def polyPointwise (a b : Poly) : Poly := fun i => montgomeryReduce C (C.i64 (a i * b i))
/-- `poly_power2round` (poly.c:178-187): `(a1, a0)`. -/
def polyPower2round (a : Poly) : Poly × Poly := (fun i => (power2round C (a i)).1, fun i => (power2round C (a i)).2)
/-- `poly_decompose` (poly.c:202-211): `(a1, a0)`. -/
def polyDecompose (a : Poly) : Poly × Poly := (fun i => (decompose C (a i)).1, fun i => (decompose C (a i)).2)
/-- `poly_make_hint` (poly.c:226-237): the hint and its weight. -/
def polyMakeHint (a0 a1 : Poly) : Poly × Int :=
  (fun i => makeHint (a0 i) (a1 i), ((List.finRange 256).map fun i => makeHint (a0 i) (a1 i)).sum)
/-- `poly_use_hint` (poly.c:248-257). -/
def polyUseHint (a h : Poly) : Poly := fun i => useHint C (a i) (h i)

/-- The absolute value computed by `poly_chknorm` (poly.c:284-285). -/
def ctAbs (a : Int) : Int := C.i32 (a - Int.land (a / 2147483648) (C.i32 (2 * a)))
/-- `poly_chknorm` (poly.c:270-295): true means a violation. -/
def polyChknorm (a : Poly) (B : Int) : Bool :=
  if B > (Q - 1) / 8 then true else (List.finRange 256).any fun i => decide (ctAbs C (a i) ≥ B)

/-- `rej_uniform` (poly.c:311-333): the accepted coefficients, in order.  `t` is a 23-bit little-endian number. -/
def rejUniform : Nat → Bytes → List Int
  | 0, _ => []
  | len + 1, b0 :: b1 :: b2 :: rest =>
    let t : Int := ((b0.toNat + 256 * b1.toNat + 65536 * b2.toNat) % 8388608 : Nat)
    if t < Q then t :: rejUniform len rest else rejUniform (len + 1) rest
  | _ + 1, _ => []

/-- A coefficient array whose first entries are `l`. -/
def polyOfList (l : List Int) : Poly := fun i => l.getD i.1 C.oob

/-- The `while (ctr < N)` loop of `poly_uniform` (poly.c:360-369); `acc` is `coeffs[0..ctr)`. -/
def uniformLoop (s : Nat → UInt8) (acc : List Int) (buf : Bytes) (pos : Nat) : Option (List Int) :=
  if acc.length < 256 then
    let off := buf.length % 3
    let buf := buf.drop (buf.length - off) ++ squeeze s pos 168
    uniformLoop s (acc ++ rejUniform (256 - acc.length) buf) buf (pos + 168)
  else some acc
partial_fixpoint

/-- `poly_uniform` (poly.c:346-371): 5 blocks of 168 bytes first. -/
def polyUniform (H : Shake) (seed : Bytes) (nonce : UInt16) : Option Poly :=
  let s := stream128 H seed nonce
  let buf := squeeze s 0 840
  (uniformLoop s (rejUniform 256 buf) buf 840).map (polyOfList C)

/-- The value stored for an accepted nibble (poly.c:401-402, 405-406): `2 - (t - (205*t >> 10)*5)`. -/
def etaOf (t : Nat) : Int := 2 - ((t - (205 * t / 1024) * 5 : Nat) : Int)

/-- `rej_eta` (poly.c:387-412). -/
def rejEta : Nat → Bytes → List Int
  | 0, _ => []
  | len + 1, b :: rest =>
    let t0 := b.toNat % 16
    let t1 := b.toNat / 16
    if t0 < 15 then
      if t1 < 15 ∧ 0 < len then etaOf t0 :: etaOf t1 :: rejEta (len - 1) rest
      else etaOf t0 :: rejEta len rest
    else if t1 < 15 then etaOf t1 :: rejEta len rest
    else rejEta (len + 1) rest
  | _ + 1, [] => []

/-- The `while (ctr < N)` loop of `poly_uniform_eta` (poly.c:439-442). -/
def etaLoop (s : Nat → UInt8) (acc : List Int) (pos : Nat) : Option (List Int) :=
  if acc.length < 256 then etaLoop s (acc ++ rejEta (256 - acc.length) (squeeze s pos 136)) (pos + 136)
  else some acc
partial_fixpoint

/-- `poly_uniform_eta` (poly.c:425-444): one block of 136 bytes first. -/
def polyUniformEta (H : Shake) (seed : Bytes) (nonce : UInt16) : Option Poly :=
  let s := stream256 H seed nonce
  (etaLoop s (rejEta 256 (squeeze s 0 136)) 136).map (polyOfList C)

/-- `b[i]`. -/
def at8 (b : Bytes) (i : Nat) : U8 := (b.getD i C.oobByte).toBitVec

/-! ## Packing -/

/-- Loop body of `polyeta_pack` (poly.c:541-543). -/
def etaPackChunk (t : Fin 8 → U8) : Fin 3 → U8 := ![
  low ((ext (t 0) >>> 0) ||| (ext (t 1) <<< 3) ||| (ext (t 2) <<< 6)),
  low ((ext (t 2) >>> 2) ||| (ext (t 3) <<< 1) ||| (ext (t 4) <<< 4) ||| (ext (t 5) <<< 7)),
  low ((ext (t 5) >>> 1) ||| (ext (t 6) <<< 2) ||| (ext (t 7) <<< 5))]

/-- `polyeta_pack` (poly.c:526-547). -/
def polyetaPack (a : Poly) : Bytes := List.ofFn fun i : Fin 96 => UInt8.ofBitVec
  (etaPackChunk (fun m => BitVec.ofInt 8 (C.i32 (ETA - a ⟨8 * (i.1 / 3) + m.1, by omega⟩))) ⟨i.1 % 3, by omega⟩)

/-- Loop body of `polyeta_unpack` (poly.c:562-569). -/
def etaUnpackChunk (a : Fin 3 → U8) : Fin 8 → W32 := ![
  (ext (a 0) >>> 0) &&& 7,
  (ext (a 0) >>> 3) &&& 7,
  ((ext (a 0) >>> 6) ||| (ext (a 1) <<< 2)) &&& 7,
  (ext (a 1) >>> 1) &&& 7,
  (ext (a 1) >>> 4) &&& 7,
  ((ext (a 1) >>> 7) ||| (ext (a 2) <<< 1)) &&& 7,
  (ext (a 2) >>> 2) &&& 7,
  (ext (a 2) >>> 5) &&& 7]

/-- `polyeta_unpack` (poly.c:557-582). -/
def polyetaUnpack (b : Bytes) : Poly := fun i =>
  C.i32 (ETA - (etaUnpackChunk (fun j => at8 C b (3 * (i.1 / 8) + j.1)) ⟨i.1 % 8, by omega⟩).toInt)

/-- Loop body of `polyt1_pack` (poly.c:599-603).  The right shifts of an `int32_t` are arithmetic; the left shifts act on the bit pattern
(in C they are defined for the non-negative coefficients that occur). -/
def t1PackChunk (a : Fin 4 → W32) : Fin 5 → U8 := ![
  low ((a 0).sshiftRight 0),
  low ((a 0).sshiftRight 8 ||| (a 1 <<< 2)),
  low ((a 1).sshiftRight 6 ||| (a 2 <<< 4)),
  low ((a 2).sshiftRight 4 ||| (a 3 <<< 6)),
  low ((a 3).sshiftRight 2)]

/-- `polyt1_pack` (poly.c:594-607). -/
def polyt1Pack (a : Poly) : Bytes := List.ofFn fun i : Fin 320 => UInt8.ofBitVec
  (t1PackChunk (fun m => BitVec.ofInt 32 (a ⟨4 * (i.1 / 5) + m.1, by omega⟩)) ⟨i.1 % 5, by omega⟩)

/-- Loop body of `polyt1_unpack` (poly.c:623-626). -/
def t1UnpackChunk (a : Fin 5 → U8) : Fin 4 → W32 := ![
  ((ext (a 0) >>> 0) ||| (ext (a 1) <<< 8)) &&& 0x3FF,
  ((ext (a 1) >>> 2) ||| (ext (a 2) <<< 6)) &&& 0x3FF,
  ((ext (a 2) >>> 4) ||| (ext (a 3) <<< 4)) &&& 0x3FF,
  ((ext (a 3) >>> 6) ||| (ext (a 4) <<< 2)) &&& 0x3FF]

/-- `polyt1_unpack` (poly.c:618-630). -/
def polyt1Unpack (b : Bytes) : Poly := fun i =>
  (t1UnpackChunk (fun j => at8 C b (5 * (i.1 / 4) + j.1)) ⟨i.1 % 4, by omega⟩).toInt

/-- Loop body of `polyt0_pack` (poly.c:656-675). -/
def t0PackChunk (t : Fin 8 → W32) : Fin 13 → U8 := ![
  low (t 0),
  low (t 0 >>> 8) ||| low (t 1 <<< 5),
  low (t 1 >>> 3),
  low (t 1 >>> 11) ||| low (t 2 <<< 2),
  low (t 2 >>> 6) ||| low (t 3 <<< 7),
  low (t 3 >>> 1),
  low (t 3 >>> 9) ||| low (t 4 <<< 4),
  low (t 4 >>> 4),
  low (t 4 >>> 12) ||| low (t 5 <<< 1),
  low (t 5 >>> 7) ||| low (t 6 <<< 6),
  low (t 6 >>> 2),
  low (t 6 >>> 10) ||| low (t 7 <<< 3),
  low (t 7 >>> 5)]

/-- `polyt0_pack` (poly.c:641-679). -/
def polyt0Pack (a : Poly) : Bytes := List.ofFn fun i : Fin 416 => UInt8.ofBitVec
  (t0PackChunk (fun m => BitVec.ofInt 32 (C.i32 (4096 - a ⟨8 * (i.1 / 13) + m.1, by omega⟩))) ⟨i.1 % 13, by omega⟩)

/-- Loop body of `polyt0_unpack` (poly.c:694-728). -/
def t0UnpackChunk (a : Fin 13 → U8) : Fin 8 → W32 := ![
  (ext (a 0) ||| (ext (a 1) <<< 8)) &&& 0x1FFF,
  ((ext (a 1) >>> 5) ||| (ext (a 2) <<< 3) ||| (ext (a 3) <<< 11)) &&& 0x1FFF,
  ((ext (a 3) >>> 2) ||| (ext (a 4) <<< 6)) &&& 0x1FFF,
  ((ext (a 4) >>> 7) ||| (ext (a 5) <<< 1) ||| (ext (a 6) <<< 9)) &&& 0x1FFF,
  ((ext (a 6) >>> 4) ||| (ext (a 7) <<< 4) ||| (ext (a 8) <<< 12)) &&& 0x1FFF,
  ((ext (a 8) >>> 1) ||| (ext (a 9) <<< 7)) &&& 0x1FFF,
  ((ext (a 9) >>> 6) ||| (ext (a 10) <<< 2) ||| (ext (a 11) <<< 10)) &&& 0x1FFF,
  ((ext (a 11) >>> 3) ||| (ext (a 12) <<< 5)) &&& 0x1FFF]

/-- `polyt0_unpack` (poly.c:689-741). -/
def polyt0Unpack (b : Bytes) : Poly := fun i =>
  C.i32 (4096 - (t0UnpackChunk (fun j => at8 C b (13 * (i.1 / 8) + j.1)) ⟨i.1 % 8, by omega⟩).toInt)

/-- Loop body of `polyz_pack` (poly.c:764-775). -/
def zPackChunk (t : Fin 4 → W32) : Fin 9 → U8 := ![
  low (t 0),
  low (t 0 >>> 8),
  low (t 0 >>> 16) ||| low (t 1 <<< 2),
  low (t 1 >>> 6),
  low (t 1 >>> 14) ||| low (t 2 <<< 4),
  low (t 2 >>> 4),
  low (t 2 >>> 12) ||| low (t 3 <<< 6),
  low (t 3 >>> 2),
  low (t 3 >>> 10)]

/-- `polyz_pack` (poly.c:753-779). -/
def polyzPack (a : Poly) : Bytes := List.ofFn fun i : Fin 576 => UInt8.ofBitVec
  (zPackChunk (fun m => BitVec.ofInt 32 (C.i32 (GAMMA1 - a ⟨4 * (i.1 / 9) + m.1, by omega⟩))) ⟨i.1 % 9, by omega⟩)

/-- Loop body of `polyz_unpack` (poly.c:795-813). -/
def zUnpackChunk (a : Fin 9 → U8) : Fin 4 → W32 := ![
  (ext (a 0) ||| (ext (a 1) <<< 8) ||| (ext (a 2) <<< 16)) &&& 0x3FFFF,
  ((ext (a 2) >>> 2) ||| (ext (a 3) <<< 6) ||| (ext (a 4) <<< 14)) &&& 0x3FFFF,
  ((ext (a 4) >>> 4) ||| (ext (a 5) <<< 4) ||| (ext (a 6) <<< 12)) &&& 0x3FFFF,
  ((ext (a 6) >>> 6) ||| (ext (a 7) <<< 2) ||| (ext (a 8) <<< 10)) &&& 0x3FFFF]

/-- `polyz_unpack` (poly.c:790-822). -/
def polyzUnpack (b : Bytes) : Poly := fun i =>
  C.i32 (GAMMA1 - (zUnpackChunk (fun j => at8 C b (9 * (i.1 / 4) + j.1)) ⟨i.1 % 4, by omega⟩).toInt)

/-- Loop body of `polyw1_pack` (poly.c:839-844). -/
def w1PackChunk (a : Fin 4 → W32) : Fin 3 → U8 := ![
  low (a 0) ||| low (a 1 <<< 6),
  low ((a 1).sshiftRight 2) ||| low (a 2 <<< 4),
  low ((a 2).sshiftRight 4) ||| low (a 3 <<< 2)]

/-- `polyw1_pack` (poly.c:834-848). -/
def polyw1Pack (a : Poly) : Bytes := List.ofFn fun i : Fin 192 => UInt8.ofBitVec
  (w1PackChunk (fun m => BitVec.ofInt 32 (a ⟨4 * (i.1 / 3) + m.1, by omega⟩)) ⟨i.1 % 3, by omega⟩)

/-- `poly_uniform_gamma1` (poly.c:457-468): 5 blocks of 136 bytes. -/
def polyUniformGamma1 (H : Shake) (seed : Bytes) (nonce : UInt16) : Poly :=
  polyzUnpack C (squeeze (stream256 H seed nonce) 0 680)

/-! ## The challenge -/

/-- The buffer, the read position in it, and the stream position of the next block. -/
structure ChalSt where
  buf : Bytes
  pos : Nat
  off : Nat

/-- The `do … while (b > i)` loop of `poly_challenge` (poly.c:501-508). -/
def chalByte (s : Nat → UInt8) (i : Nat) (st : ChalSt) : Option (Nat × ChalSt) :=
  let st := if st.pos ≥ 136 then ⟨squeeze s st.off 136, 0, st.off + 136⟩ else st
  let b := (at8 C st.buf st.pos).toNat
  let st : ChalSt := ⟨st.buf, st.pos + 1, st.off⟩
  if b > i then chalByte s i st else some (b, st)
partial_fixpoint

/-- One iteration of the sampling loop (poly.c:500-513); `1 - 2 * (signs & 1)` is a `uint64_t` converted to `int32_t`. -/
def chalStep (s : Nat → UInt8) (x : Poly × Nat × ChalSt) (i : Nat) : Option (Poly × Nat × ChalSt) := do
  let (c, signs, st) := x
  let (b, st) ← chalByte C s i st
  let c := wr c i (rd C.oob c b)
  let c := wr c b (toI32 ((1 - 2 * ((signs % 2 : Nat) : Int)) % 18446744073709551616))
  return (c, signs / 2, st)

/-- `poly_challenge` (poly.c:480-515), for a seed of which only the first `SEEDBYTES` bytes are absorbed. -/
def polyChallenge (H : Shake) (seed : Bytes) : Option Poly := do
  let s := H.shake256 (seed.take 32)
  let buf := squeeze s 0 136
  let signs := ((List.range 8).map fun i => (at8 C buf i).toNat * 256 ^ i).sum
  let (c, _, _) ← (List.range' 217 39).foldlM (chalStep C s) (fun _ => 0, signs, ⟨buf, 8, 136⟩)
  return c

end Verif.Dilithium
