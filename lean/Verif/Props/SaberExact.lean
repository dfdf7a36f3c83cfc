import Verif.Props.Saber
import Verif.Saber.BitSpec

/-!
# C77, C78: the byte formats of Saber and what its algorithms compute, over the integers

Round trips (C45–C49) and correctness of decryption (C52) survive any change made consistently on both sides.  Here every byte of keys and
ciphertexts is given as a function of the seeds, in terms of stream bits, integer arithmetic and the textbook product of
`Z[X]/(X^256+1)` only.
-/

namespace Verif.Props

open Verif.Saber Verif.Saber.Spec

/-! ## C77: byte formats -/

/-- C77: unpacking.  Coefficient `i` is the number formed by bits `w·i … w·i+w-1` of the buffer, least significant first; for all widths used. -/
theorem C77_unpack_fields (i : Fin 256) :
    (∀ b : ByteArr 416, (Poly.fromBytes13 b i).toNat = field 13 (bitOf b.1) i.1) ∧
    (∀ b : ByteArr 320, (Poly.fromBytes10 b i).toNat = field 10 (bitOf b.1) i.1) ∧
    (∀ b : ByteArr 192, (Poly.fromBytes6 b i).toNat = field 6 (bitOf b.1) i.1) ∧
    (∀ b : ByteArr 128, (Poly.fromBytes4 b i).toNat = field 4 (bitOf b.1) i.1) ∧
    (∀ b : ByteArr 96, (Poly.fromBytes3 b i).toNat = field 3 (bitOf b.1) i.1) :=
  ⟨fun b => fromBytes13_field b i, fun b => fromBytes10_field b i, fun b => fromBytes6_field b i, fun b => fromBytes4_field b i,
    fun b => fromBytes3_field b i⟩

/-- C77: packing writes those fields, except that the 3-bit packing puts bit 2 in the place of bit 0 at positions `≡ 5 (mod 8)`. -/
theorem C77_pack_fields (p : Poly) (i : Fin 256) :
    field 13 (bitOf p.readBytes13.1) i.1 = (p i).toNat % 2 ^ 13 ∧ field 10 (bitOf p.readBytes10.1) i.1 = (p i).toNat % 2 ^ 10 ∧
    field 6 (bitOf p.readBytes6.1) i.1 = (p i).toNat % 2 ^ 6 ∧ field 4 (bitOf p.readBytes4.1) i.1 = (p i).toNat % 2 ^ 4 ∧
    field 3 (bitOf p.readBytes3.1) i.1 =
      if i.1 % 8 = 5 then (p i).toNat % 8 - (p i).toNat % 2 + (p i).toNat % 8 / 4 else (p i).toNat % 2 ^ 3 :=
  ⟨readBytes13_field p i, readBytes10_field p i, readBytes6_field p i, readBytes4_field p i, readBytes3_field p i⟩

/-- The fields read what one expects: the bytes `0x21 0x43` hold the 4-bit numbers 1, 2, 3, 4, and the bytes `0xFF 0x01` a 10-bit 511. -/
example : (field 4 (bitOf [0x21, 0x43]) 0, field 4 (bitOf [0x21, 0x43]) 1, field 4 (bitOf [0x21, 0x43]) 2, field 4 (bitOf [0x21, 0x43]) 3,
    field 10 (bitOf [0xFF, 0x01]) 0) = (1, 2, 3, 4, 511) := by decide

/-! ### vectors -/

private theorem bitOf_chunk {K n : Nat} (b : ByteArr (K * n)) (k : Fin K) (m : Nat) (hm : m < 8 * n) :
    bitOf (chunkOf b k).1 m = bitOf b.1 (8 * (n * k.1) + m) := by
  have h0 : m / 8 < n := by omega
  have h1 := byteAt_bit (chunkOf b k) 0 m (by omega)
  rw [show 8 * 0 + m = m by omega] at h1
  have hlt : n * k.1 + m / 8 < K * n := chunk_lt (k := k) (j := ⟨m / 8, h0⟩)
  rw [← h1, ← byteAt_bit b (n * k.1) m hlt]
  unfold chunkOf
  rw [Poly.byteAt_bufOf]
  simp only [Nat.zero_add]

private theorem field_chunk (w n : Nat) (hn : 8 * n = 256 * w) {K : Nat} (b : ByteArr (K * n)) (k : Fin K) (i : Fin 256) :
    field w (bitOf (chunkOf b k).1) i.1 = field w (bitOf b.1) (256 * k.1 + i.1) := by
  unfold field
  refine Finset.sum_congr rfl fun t ht => ?_
  have ht := Finset.mem_range.1 ht
  have hlt : w * i.1 + t < 8 * n := by
    rw [hn]
    calc w * i.1 + t < w * i.1 + w := by omega
      _ = w * (i.1 + 1) := by rw [Nat.mul_add, Nat.mul_one]
      _ ≤ w * 256 := Nat.mul_le_mul_left _ (by have := i.2; omega)
      _ = 256 * w := Nat.mul_comm _ _
  rw [bitOf_chunk b k _ hlt]
  congr 3
  rw [← Nat.mul_assoc, hn, Nat.mul_add, Nat.add_assoc]
  congr 1
  rw [Nat.mul_comm 256 w, Nat.mul_assoc]

/-- C77: vectors are packed polynomial after polynomial: coefficient `i` of component `k` is field number `256·k + i` of the whole buffer. -/
theorem C77_vector_fields {K : Nat} (k : Fin K) (i : Fin 256) :
    (∀ b : ByteArr (K * 416), (Vec.fromBytesModQ b k i).toNat = field 13 (bitOf b.1) (256 * k.1 + i.1)) ∧
    (∀ b : ByteArr (K * 320), (Vec.fromBytesModP b k i).toNat = field 10 (bitOf b.1) (256 * k.1 + i.1)) ∧
    (∀ v : Vec K, field 13 (bitOf v.readModQ.1) (256 * k.1 + i.1) = (v k i).toNat % 2 ^ 13) ∧
    (∀ v : Vec K, field 10 (bitOf v.readModP.1) (256 * k.1 + i.1) = (v k i).toNat % 2 ^ 10) := by
  have hq : ∀ b : ByteArr (K * 416), (Vec.fromBytesModQ b k i).toNat = field 13 (bitOf b.1) (256 * k.1 + i.1) := fun b => by
    unfold Vec.fromBytesModQ
    rw [fromBytes13_field, field_chunk 13 416 (by decide)]
  have hp : ∀ b : ByteArr (K * 320), (Vec.fromBytesModP b k i).toNat = field 10 (bitOf b.1) (256 * k.1 + i.1) := fun b => by
    unfold Vec.fromBytesModP
    rw [fromBytes10_field, field_chunk 10 320 (by decide)]
  exact ⟨hq, hp, fun v => by rw [← hq]; exact (C45_vectors v k i).1, fun v => by rw [← hp]; exact (C45_vectors v k i).2.1⟩

/-! ## C78: the algorithms over the integers -/

/-- Specification: the public matrix of a seed.  Entry `(i, j)` is the `K·i + j`-th group of 256 13-bit numbers of the SHAKE-128 stream of the seed. -/
def specMatrix (H : Hashes) (K : Nat) (seed : ByteArr 32) : Fin K → Fin K → Fin 256 → ℤ :=
  fun i j n => (field 13 (streamBit (H.shake128 seed.1)) (256 * (K * i.1 + j.1) + n.1) : ℤ)

/-- Specification: the secret of a seed for binomial parameter `mu`: coefficient `i` of component `k` is the difference of the numbers of ones in
two consecutive groups of `mu/2` bits, at bit `mu·(256·k + i)` of the SHAKE-128 stream of the seed. -/
def specSecret (H : Hashes) (mu K : Nat) (seed : ByteArr 32) : Fin K → Fin 256 → ℤ := fun k i =>
  (onesAt (H.shake128 seed.1) (mu * (256 * k.1 + i.1)) (mu / 2) : ℤ) - onesAt (H.shake128 seed.1) (mu * (256 * k.1 + i.1) + mu / 2) (mu / 2)

/-- Specification: multiply by `1024/8192`, rounding to nearest, modulo 1024. -/
def rnd (x : ℤ) : ℤ := (x + 4) / 8 % 1024

/-- One of the three parameter sets. -/
def IsParamSet (I : Impl) : Prop := I = light ∨ I = saber ∨ I = fire

example : IsParamSet light ∧ IsParamSet saber ∧ IsParamSet fire := ⟨.inl rfl, .inr (.inl rfl), .inr (.inr rfl)⟩

example : (rnd 0, rnd 3, rnd 4, rnd 11, rnd 8187, rnd 8188, rnd (-5)) = (0, 0, 1, 1, 1023, 0, 1023) := by decide

/-- C78: the parameters: rank, binomial parameter, bits per reconciliation value. -/
theorem C78_parameters : (light.K, light.mu, light.reconSize + 1) = (2, 10, 3) ∧ (saber.K, saber.mu, saber.reconSize + 1) = (3, 8, 4) ∧
    (fire.K, fire.mu, fire.reconSize + 1) = (4, 6, 6) := by decide

private theorem stream_bit (f : Nat → UInt8) (base n w i : Nat) (h : 8 * n = 256 * w) (hi : i < 256) :
    field w (bitOf (bufOf (n := n) fun m => (f (n * base + m.1)).toBitVec).1) i = field w (streamBit f) (256 * base + i) := by
  unfold field
  refine Finset.sum_congr rfl fun t ht => ?_
  have ht := Finset.mem_range.1 ht
  have hlt : w * i + t < 8 * n := by
    rw [h]
    calc w * i + t < w * i + w := by omega
      _ = w * (i + 1) := by rw [Nat.mul_add, Nat.mul_one]
      _ ≤ w * 256 := Nat.mul_le_mul_left _ (by omega)
      _ = 256 * w := Nat.mul_comm _ _
  have h0 : (w * i + t) / 8 < n := by omega
  have h1 := byteAt_bit (bufOf (n := n) fun m => (f (n * base + m.1)).toBitVec) 0 (w * i + t) (by omega)
  rw [show 8 * 0 + (w * i + t) = w * i + t by omega] at h1
  rw [← h1, Poly.byteAt_bufOf]
  unfold streamBit
  have e : w * (256 * base + i) + t = 8 * (n * base) + (w * i + t) := by
    rw [← Nat.mul_assoc, h, Nat.mul_add, Nat.add_assoc, Nat.mul_comm 256 w, Nat.mul_assoc]
  rw [e, show (8 * (n * base) + (w * i + t)) / 8 = n * base + (w * i + t) / 8 by omega,
    show (8 * (n * base) + (w * i + t)) % 8 = (w * i + t) % 8 by omega]
  simp only [Nat.zero_add]

/-- C78: matrix generation. -/
theorem C78_matrix (H : Hashes) (I : Impl) (seed : ByteArr 32) (i j : Fin I.K) (n : Fin 256) :
    ((genMatrix H I seed i j n).toNat : ℤ) = specMatrix H I.K seed i j n := by
  unfold genMatrix specMatrix
  rw [fromBytes13_field, stream_bit _ _ 416 13 n.1 (by decide) n.2]

private theorem ones_shift (f : Nat → UInt8) (L a c : Nat) : onesAt (fun n => f (L + n)) a c = onesAt f (8 * L + a) c := by
  unfold onesAt streamBit
  refine Finset.sum_congr rfl fun t _ => ?_
  rw [show (8 * L + a + t) / 8 = L + (a + t) / 8 by omega, show (8 * L + a + t) % 8 = (a + t) % 8 by omega]

/-- C78: secret generation. -/
theorem C78_secret (H : Hashes) (I : Impl) (hI : IsParamSet I) (seed : ByteArr 32) (k : Fin I.K) (i : Fin 256) :
    (genSecret H I seed k i).toInt = specSecret H I.mu I.K seed k i := by
  have key : ∀ (mu L : Nat), 8 * L = 256 * mu → ∀ a, a < mu → 8 * (L * k.1) + (mu * i.1 + a) = mu * (256 * k.1 + i.1) + a := by
    intro mu L h a _
    rw [← Nat.mul_assoc, h, Nat.mul_add, Nat.mul_comm 256 mu, Nat.mul_assoc, Nat.add_assoc]
  have hc := C51_cbd (fun n => H.shake128 seed.1 (I.cbdLen * k.1 + n)) i
  unfold genSecret specSecret
  rcases hI with rfl | rfl | rfl
  · refine hc.1.trans ?_
    rw [ones_shift (H.shake128 seed.1), ones_shift (H.shake128 seed.1)]
    have h1 := key 10 320 rfl 0 (by decide); have h2 := key 10 320 rfl 5 (by decide)
    simp only [Nat.add_zero] at h1
    show (onesAt _ (8 * (320 * k.1) + _) _ : ℤ) - onesAt _ (8 * (320 * k.1) + _) _ = _
    rw [h1, h2]; rfl
  · refine hc.2.1.trans ?_
    rw [ones_shift (H.shake128 seed.1), ones_shift (H.shake128 seed.1)]
    have h1 := key 8 256 rfl 0 (by decide); have h2 := key 8 256 rfl 4 (by decide)
    simp only [Nat.add_zero] at h1
    show (onesAt _ (8 * (256 * k.1) + _) _ : ℤ) - onesAt _ (8 * (256 * k.1) + _) _ = _
    rw [h1, h2]; rfl
  · refine hc.2.2.trans ?_
    rw [ones_shift (H.shake128 seed.1), ones_shift (H.shake128 seed.1)]
    have h1 := key 6 192 rfl 0 (by decide); have h2 := key 6 192 rfl 3 (by decide)
    simp only [Nat.add_zero] at h1
    show (onesAt _ (8 * (192 * k.1) + _) _ : ℤ) - onesAt _ (8 * (192 * k.1) + _) _ = _
    rw [h1, h2]; rfl

/-- A 16-bit inner product is the integer one modulo any divisor of `2^16`. -/
private theorem inner_int {p : Nat} (hp : p ∣ 65536) {K : Nat} (u v : Vec K) (u' v' : Fin K → Fin 256 → ℤ)
    (hu : ∀ k i, ((u k i).toNat : ZMod p) = (u' k i : ZMod p)) (hv : ∀ k i, ((v k i).toNat : ZMod p) = (v' k i : ZMod p)) (i : Fin 256) :
    (((inner u v i).toNat : ℤ) - inner u' v' i) % p = 0 := by
  have h : (((inner u v i).toNat : ℤ) : ZMod p) = ((inner u' v' i : ℤ) : ZMod p) := by
    rw [cast_inner]
    have := red_inner hp u v i
    rw [red_apply] at this
    rw [Int.cast_natCast, this]
    congr 1
    · funext k j; exact hu k j
    · funext k j; exact hv k j
  rw [← sub_eq_zero, ← Int.cast_sub, ZMod.intCast_zmod_eq_zero_iff_dvd] at h
  exact Int.emod_eq_zero_of_dvd h

private theorem nat_of_int {p : Nat} (x : U16) (z : ℤ) (h : (x.toNat : ℤ) = z) : (x.toNat : ZMod p) = (z : ZMod p) := by
  rw [← h, Int.cast_natCast]

private theorem nat_of_toInt {p : Nat} (hp : p ∣ 65536) (x : U16) (z : ℤ) (h : x.toInt = z) : (x.toNat : ZMod p) = (z : ZMod p) := by
  rw [← h, ← red_toInt hp, red_apply]

private theorem rnd_of (x : U16) (z : ℤ) (h : ((x.toNat : ℤ) - z) % 8192 = 0) : ((((x + 4) >>> 3).toNat % 2 ^ 10 : Nat) : ℤ) = rnd z := by
  have h1 : ((x + 4) >>> 3).toNat = (x.toNat + 4) % 65536 / 8 := by
    rw [BitVec.toNat_ushiftRight, BitVec.toNat_add, Nat.shiftRight_eq_div_pow]; rfl
  rw [h1]; unfold rnd
  have := x.isLt
  omega

/-- The rounded products of key generation and encryption. -/
private theorem rounded_field (H : Hashes) (I : Impl) (hI : IsParamSet I) (seed ns : ByteArr 32) (k : Fin I.K) (i : Fin 256) :
    ((((((genMatrix H I seed).mul (genSecret H I ns)).addU16 4).shr 3 k i).toNat % 2 ^ 10 : Nat) : ℤ)
      = rnd (matVec (specMatrix H I.K seed) (specSecret H I.mu I.K ns) k i) ∧
    ((((((genMatrix H I seed).mulTranspose (genSecret H I ns)).addU16 4).shr 3 k i).toNat % 2 ^ 10 : Nat) : ℤ)
      = rnd (matVec (transpose (specMatrix H I.K seed)) (specSecret H I.mu I.K ns) k i) := by
  have hs : ∀ k i, ((genSecret H I ns k i).toNat : ZMod 8192) = (specSecret H I.mu I.K ns k i : ZMod 8192) := fun k i =>
    nat_of_toInt d8192 _ _ (C78_secret H I hI ns k i)
  constructor
  · rw [matMul_eq]
    refine rnd_of _ _ ?_
    have := inner_int d8192 (genMatrix H I seed k) (genSecret H I ns) (specMatrix H I.K seed k) (specSecret H I.mu I.K ns)
      (fun j n => nat_of_int _ _ (C78_matrix H I seed k j n)) hs i
    unfold inner at this
    exact this
  · rw [matMulT_eq]
    refine rnd_of _ _ ?_
    have := inner_int d8192 (transpose (genMatrix H I seed) k) (genSecret H I ns) (transpose (specMatrix H I.K seed) k) (specSecret H I.mu I.K ns)
      (fun j n => nat_of_int _ _ (C78_matrix H I seed j k n)) hs i
    unfold inner at this
    exact this

private theorem bit_append_left (a b : Bytes) (m : Nat) (h : m / 8 < a.length) : bitOf (a ++ b) m = bitOf a m := by
  unfold bitOf
  rw [getElem!_pos (a ++ b) (m / 8) (by rw [List.length_append]; omega), getElem!_pos a (m / 8) h, List.getElem_append_left h]

private theorem field_append_left (w : Nat) (a b : Bytes) (i : Nat) (h : w * i + w ≤ 8 * a.length) :
    field w (bitOf (a ++ b)) i = field w (bitOf a) i := by
  unfold field
  refine Finset.sum_congr rfl fun t ht => ?_
  have ht := Finset.mem_range.1 ht
  rw [bit_append_left _ _ _ (by omega)]

private theorem vec_room {K : Nat} (k : Fin K) (i : Fin 256) (w n : Nat) (hn : 8 * n = 256 * w) : w * (256 * k.1 + i.1) + w ≤ 8 * (K * n) := by
  have e : 8 * (K * n) = w * (256 * K) := by rw [Nat.mul_left_comm, hn, Nat.mul_comm 256 w, Nat.mul_left_comm, Nat.mul_comm 256 K]
  rw [e]
  calc w * (256 * k.1 + i.1) + w = w * (256 * k.1 + i.1 + 1) := by rw [Nat.mul_add w _ 1, Nat.mul_one]
    _ ≤ w * (256 * K) := Nat.mul_le_mul_left _ (by have := k.2; have := i.2; omega)

/-- C78: every byte of a generated public key: `rnd(A s)` in 10-bit fields, then the seed. -/
theorem C78_public_key (H : Hashes) (I : Impl) (hI : IsParamSet I) (seed ns z : ByteArr 32) :
    (keygen H I seed ns z).pkCca.toBytes.1.drop (I.K * 320) = seed.1 ∧
    ∀ (k : Fin I.K) (i : Fin 256), (field 10 (bitOf (keygen H I seed ns z).pkCca.toBytes.1) (256 * k.1 + i.1) : ℤ)
      = rnd (matVec (specMatrix H I.K seed) (specSecret H I.mu I.K ns) k i) := by
  have hb : (keygen H I seed ns z).pkCca.toBytes.1
      = (Vec.readModP ((((genMatrix H I seed).mul (genSecret H I ns)).addU16 4).shr 3)).1 ++ seed.1 := rfl
  rw [hb]
  constructor
  · exact List.drop_left' (Vec.readModP _).2
  · intro k i
    rw [field_append_left _ _ _ _ (by rw [(Vec.readModP _).2]; exact vec_room k i 10 320 rfl), (C77_vector_fields k i).2.2.2]
    exact (rounded_field H I hI seed ns k i).1

/-- C78: every byte of a generated secret key: the secret in 13-bit fields (modulo 8192), the public key, its SHA3-256 hash, `z`. -/
theorem C78_secret_key (H : Hashes) (I : Impl) (hI : IsParamSet I) (seed ns z : ByteArr 32) :
    (keygen H I seed ns z).toBytes.1.drop (I.K * 416) = (keygen H I seed ns z).pkCca.toBytes.1
      ++ (H.sha3_256 (keygen H I seed ns z).pkCca.toBytes.1).1 ++ z.1 ∧
    ∀ (k : Fin I.K) (i : Fin 256), (field 13 (bitOf (keygen H I seed ns z).toBytes.1) (256 * k.1 + i.1) : ℤ)
      = specSecret H I.mu I.K ns k i % 8192 := by
  have hb : (keygen H I seed ns z).toBytes.1
      = (Vec.readModQ (genSecret H I ns)).1 ++ (keygen H I seed ns z).pkCca.toBytes.1
        ++ (H.sha3_256 (keygen H I seed ns z).pkCca.toBytes.1).1 ++ z.1 := rfl
  rw [hb, List.append_assoc, List.append_assoc]
  constructor
  · rw [List.drop_left' (Vec.readModQ _).2, ← List.append_assoc]
  · intro k i
    rw [field_append_left _ _ _ _ (by rw [(Vec.readModQ _).2]; exact vec_room k i 13 416 rfl), (C77_vector_fields k i).2.2.1,
      ← C78_secret H I hI ns k i, BitVec.toInt_eq_toNat_cond]
    have := (genSecret H I ns k i).isLt
    split <;> omega

/-- Specification: the masked message polynomial `512·m + ⟨b, t⟩` modulo 1024, for a public key given by its bytes and an ephemeral secret `t`. -/
def specMasked (K : Nat) (pkb : Bytes) (m : ByteArr 32) (t : Fin K → Fin 256 → ℤ) (i : Fin 256) : ℤ :=
  (512 * (if msgBit m i then 1 else 0) + inner (fun k j => (field 10 (bitOf pkb) (256 * k.1 + j.1) : ℤ)) t i) % 1024

private theorem masked (H : Hashes) (I : Impl) (hI : IsParamSet I) (m r : ByteArr 32) (pk : CpaPk I) (i : Fin 256) :
    ((((((Poly.fromMsg m).add (pk.vec.mul (genSecret H I r))) i).toNat % 1024 : Nat)) : ℤ)
      = specMasked I.K pk.toBytes.1 m (specSecret H I.mu I.K r) i := by
  have d1024 : 1024 ∣ 65536 := by decide
  have hf : ∀ (k : Fin I.K) (j : Fin 256), field 10 (bitOf pk.toBytes.1) (256 * k.1 + j.1) = (pk.vec k j).toNat % 1024 := fun k j => by
    have hb : pk.toBytes.1 = pk.vec.readModP.1 ++ pk.seed.1 := rfl
    rw [hb, field_append_left _ _ _ _ (by rw [(Vec.readModP _).2]; exact vec_room k j 10 320 rfl), (C77_vector_fields k j).2.2.2]
    norm_num
  have h1 := inner_int d1024 pk.vec (genSecret H I r) (fun k j => (field 10 (bitOf pk.toBytes.1) (256 * k.1 + j.1) : ℤ)) (specSecret H I.mu I.K r)
    (fun k j => by rw [hf, Int.cast_natCast, ZMod.natCast_mod]) (fun k j => nat_of_toInt d1024 _ _ (C78_secret H I hI r k j)) i
  have h2 : (((Poly.fromMsg m).add (pk.vec.mul (genSecret H I r))) i).toNat
      = (512 * (msgBit m i).toNat + (inner pk.vec (genSecret H I r) i).toNat) % 65536 := by
    rw [vecMul_eq, ← fromMsg_toNat]
    exact BitVec.toNat_add _ _
  have hb : ((msgBit m i).toNat : ℤ) = if msgBit m i then 1 else 0 := by cases msgBit m i <;> rfl
  rw [h2]; unfold specMasked
  rw [← hb]
  omega

/-- C78: every byte of a ciphertext, first part: `rnd(Aᵀ t)` in 10-bit fields, for every public key. -/
theorem C78_ciphertext_vector (H : Hashes) (I : Impl) (hI : IsParamSet I) (m r : ByteArr 32) (pk : CpaPk I) (k : Fin I.K) (i : Fin 256) :
    (field 10 (bitOf (cpaEnc H I m r pk).1) (256 * k.1 + i.1) : ℤ)
      = rnd (matVec (transpose (specMatrix H I.K pk.seed)) (specSecret H I.mu I.K r) k i) := by
  have hb : (cpaEnc H I m r pk).1 = (Vec.readModP ((((genMatrix H I pk.seed).mulTranspose (genSecret H I r)).addU16 4).shr 3)).1
      ++ (reconDataGen I ((Poly.fromMsg m).add (pk.vec.mul (genSecret H I r)))).1 := rfl
  rw [hb, field_append_left _ _ _ _ (by rw [(Vec.readModP _).2]; exact vec_room k i 10 320 rfl), (C77_vector_fields k i).2.2.2]
  exact (rounded_field H I hI pk.seed r k i).2

private theorem recon_shift (I : Impl) (p : Poly) (i : Fin 256) :
    (((p.reduce 1024).shr (10 - I.reconSize - 1)) i).toNat = (p i).toNat % 1024 / 2 ^ (10 - I.reconSize - 1) := by
  show ((p i &&& (1024 - 1 : U16)) >>> (10 - I.reconSize - 1)).toNat = _
  rw [BitVec.toNat_ushiftRight, Nat.shiftRight_eq_div_pow, and_mask_toNat _ 10 _ (by decide)]
  norm_num

/-- C78: every byte of a ciphertext, second part: the top bits of the masked message.  Saber: 4 bits each; FireSaber: 6 bits; LightSaber: 3 bits, with
bit 2 copied over bit 0 at positions `≡ 5 (mod 8)`. -/
theorem C78_ciphertext_recon (H : Hashes) (m r : ByteArr 32) (i : Fin 256) :
    (∀ pk : CpaPk saber, (field 4 (bitOf ((cpaEnc H saber m r pk).1.drop 960)) i.1 : ℤ)
      = specMasked 3 pk.toBytes.1 m (specSecret H 8 3 r) i / 64) ∧
    (∀ pk : CpaPk fire, (field 6 (bitOf ((cpaEnc H fire m r pk).1.drop 1280)) i.1 : ℤ)
      = specMasked 4 pk.toBytes.1 m (specSecret H 6 4 r) i / 16) ∧
    (∀ pk : CpaPk light, ∀ v : ℤ, v = specMasked 2 pk.toBytes.1 m (specSecret H 10 2 r) i / 128 →
      (field 3 (bitOf ((cpaEnc H light m r pk).1.drop 640)) i.1 : ℤ) = if i.1 % 8 = 5 then v - v % 2 + v / 4 else v) := by
  have hd : ∀ (I : Impl) (pk : CpaPk I), (cpaEnc H I m r pk).1.drop (I.K * 320)
      = (reconDataGen I ((Poly.fromMsg m).add (pk.vec.mul (genSecret H I r)))).1 := fun I pk => List.drop_left' (Vec.readModP _).2
  refine ⟨fun pk => ?_, fun pk => ?_, fun pk v hv => ?_⟩
  · have hm := masked H saber (Or.inr (Or.inl rfl)) m r pk i
    rw [show (960 : Nat) = saber.K * 320 from rfl, hd]
    refine (congrArg Nat.cast (readBytes4_field _ i)).trans ?_
    rw [recon_shift saber]
    refine Eq.trans ?_ (congrArg (· / 64) hm)
    show (((_ % 1024 / 2 ^ 6) % 2 ^ 4 : Nat) : ℤ) = _
    omega
  · have hm := masked H fire (Or.inr (Or.inr rfl)) m r pk i
    rw [show (1280 : Nat) = fire.K * 320 from rfl, hd]
    refine (congrArg Nat.cast (readBytes6_field _ i)).trans ?_
    rw [recon_shift fire]
    refine Eq.trans ?_ (congrArg (· / 16) hm)
    show (((_ % 1024 / 2 ^ 4) % 2 ^ 6 : Nat) : ℤ) = _
    omega
  · have hm := masked H light (Or.inl rfl) m r pk i
    rw [show (640 : Nat) = light.K * 320 from rfl, hd]
    refine (congrArg Nat.cast (readBytes3_field _ i)).trans ?_
    rw [recon_shift light]
    replace hv := hv.trans (congrArg (· / 128) hm.symm)
    rw [hv]
    show (((if i.1 % 8 = 5 then _ else _ : Nat)) : ℤ) = _
    rw [show 10 - light.reconSize - 1 = 7 from rfl]
    split
    · omega
    · omega

/-- C78: decryption, for every secret key and every ciphertext: bit `i` is the top bit of
`⟨b', s⟩ - 2^(10-w)·c_i + (256 - 2^(9-w))` modulo 1024, where `b'` and `c` are the two parts of the ciphertext and `w` the
reconciliation width. -/
theorem C78_decrypt (I : Impl) (hI : IsParamSet I) (sk : CpaSk I) (ct : ByteArr I.ctBytes) (w : Nat) (hw : w = I.reconSize + 1) (i : Fin 256) :
    msgBit (cpaDec I sk ct) i = decide
      ((inner (fun (k : Fin I.K) j => (field 10 (bitOf ct.1) (256 * k.1 + j.1) : ℤ)) (toZ sk.vec) i
        - 2 ^ (10 - w) * (field w (bitOf (ct.1.drop (I.K * 320))) i.1 : ℤ) + (256 - 2 ^ (9 - w))) % 1024 / 512 = 1) := by
  have d1024 : 1024 ∣ 65536 := by decide
  have hrec : (I.recFrom (sndPart ct) i).toNat = field w (bitOf (ct.1.drop (I.K * 320))) i.1 := by
    subst hw
    rcases hI with rfl | rfl | rfl
    · exact fromBytes3_field _ i
    · exact fromBytes4_field _ i
    · exact fromBytes6_field _ i
  have hct : ct.1 = (fstPart (n := I.K * 320) ct).1 ++ (sndPart (n := I.K * 320) ct).1 := (List.take_append_drop _ _).symm
  have hf : ∀ (k : Fin I.K) (j : Fin 256), (Vec.fromBytesModP (K := I.K) (fstPart ct) k j).toNat = field 10 (bitOf ct.1) (256 * k.1 + j.1) := fun k j => by
    rw [(C77_vector_fields k j).2.1, hct, field_append_left _ _ _ _ (by rw [(fstPart (n := I.K * 320) _).2]; exact vec_room k j 10 320 rfl)]
  have hin := inner_int d1024 (Vec.fromBytesModP (K := I.K) (fstPart ct)) sk.vec (fun k j => (field 10 (bitOf ct.1) (256 * k.1 + j.1) : ℤ)) (toZ sk.vec)
    (fun k j => by rw [hf]; simp) (fun k j => nat_of_toInt d1024 _ _ rfl) i
  have hbit : (recon I (sndPart ct) (inner (Vec.fromBytesModP (K := I.K) (fstPart ct)) sk.vec) i).toNat = _ := bit9 _ _ _
  unfold cpaDec
  dsimp only
  rw [vecMul_eq, msgBit_readBytesMsg _ (recon_lt_two I _ _), hbit, decide_eq_decide]
  have hsh : (I.recFrom (sndPart ct) i <<< (10 - I.reconSize - 1)).toNat = (field w (bitOf (ct.1.drop (I.K * 320))) i.1 * 2 ^ (10 - w)) % 65536 := by
    rw [BitVec.toNat_shiftLeft, Nat.shiftLeft_eq, hrec, hw]
    rfl
  rw [hsh]
  generalize field w (bitOf (ct.1.drop (I.K * 320))) i.1 = c
  generalize inner (fun (k : Fin I.K) j => (field 10 (bitOf ct.1) (256 * k.1 + j.1) : ℤ)) (toZ sk.vec) i = v at hin ⊢
  generalize inner (Vec.fromBytesModP (K := I.K) (fstPart ct)) sk.vec i = x at hin ⊢
  have hx := x.isLt
  subst hw
  rcases hI with rfl | rfl | rfl
  · show (_ + 65536 - c * 2 ^ 7 % 65536 + 192) % 1024 / 512 = 1 ↔ (v - 2 ^ 7 * (c : ℤ) + (256 - 2 ^ 6)) % 1024 / 512 = 1
    omega
  · show (_ + 65536 - c * 2 ^ 6 % 65536 + 224) % 1024 / 512 = 1 ↔ (v - 2 ^ 6 * (c : ℤ) + (256 - 2 ^ 5)) % 1024 / 512 = 1
    omega
  · show (_ + 65536 - c * 2 ^ 4 % 65536 + 248) % 1024 / 512 = 1 ↔ (v - 2 ^ 4 * (c : ℤ) + (256 - 2 ^ 3)) % 1024 / 512 = 1
    omega

end Verif.Props
