import Verif.Saber.NormLemmas
import Verif.Saber.CbdLemmas

/-!
# Properties C45–C55: the Saber KEM (saber-rust)

Vocabulary: `Verif/Saber/Spec.lean` (message bits, integer rounding noise, stream bits) and `Verif/Basic/Negacyclic.lean` (textbook product).
-/

namespace Verif.Props

open Verif.Saber

/-! ## C45, C46: packings -/

/-- C45: unpacking what was packed gives every coefficient modulo `2^b`. -/
theorem C45_unpack_pack (p : Poly) (i : Fin 256) :
    ((Poly.fromBytes13 p.readBytes13) i).toNat = (p i).toNat % 2 ^ 13 ∧
    ((Poly.fromBytes10 p.readBytes10) i).toNat = (p i).toNat % 2 ^ 10 ∧
    ((Poly.fromBytes6 p.readBytes6) i).toNat = (p i).toNat % 2 ^ 6 ∧
    ((Poly.fromBytes4 p.readBytes4) i).toNat = (p i).toNat % 2 ^ 4 := by
  rw [Poly.fromBytes13_readBytes13, Poly.fromBytes10_readBytes10, Poly.fromBytes6_readBytes6, Poly.fromBytes4_readBytes4]
  simp only [BitVec.toNat_and]
  exact ⟨Nat.and_two_pow_sub_one_eq_mod _ 13, Nat.and_two_pow_sub_one_eq_mod _ 10, Nat.and_two_pow_sub_one_eq_mod _ 6,
    Nat.and_two_pow_sub_one_eq_mod _ 4⟩

/-- C45: packing what was unpacked gives the same bytes, so every buffer of the right size is a packing. -/
theorem C45_pack_unpack :
    (∀ b : ByteArr 416, (Poly.fromBytes13 b).readBytes13 = b) ∧ (∀ b : ByteArr 320, (Poly.fromBytes10 b).readBytes10 = b) ∧
    (∀ b : ByteArr 192, (Poly.fromBytes6 b).readBytes6 = b) ∧ (∀ b : ByteArr 128, (Poly.fromBytes4 b).readBytes4 = b) :=
  ⟨Poly.readBytes13_fromBytes13, Poly.readBytes10_fromBytes10, Poly.readBytes6_fromBytes6, Poly.readBytes4_fromBytes4⟩

/-- C45: packed vectors are the packings of their polynomials, and round-trip likewise. -/
theorem C45_vectors {K : Nat} (v : Vec K) (k : Fin K) (i : Fin 256) :
    (Vec.fromBytesModQ v.readModQ k i).toNat = (v k i).toNat % 2 ^ 13 ∧ (Vec.fromBytesModP v.readModP k i).toNat = (v k i).toNat % 2 ^ 10 ∧
    (∀ b : ByteArr (K * 416), (Vec.fromBytesModQ b).readModQ = b) ∧ (∀ b : ByteArr (K * 320), (Vec.fromBytesModP b).readModP = b) :=
  ⟨by rw [fromBytesModQ_readModQ, toNat_and_8191]; rfl, by rw [fromBytesModP_readModP, toNat_and_1023]; rfl, readModQ_fromBytesModQ, readModP_fromBytesModP⟩

/-- C45: a message becomes the polynomial with `512` exactly at its one bits, and is read back from the polynomial of its bits. -/
theorem C45_messages (m : ByteArr 32) :
    (∀ i, (Poly.fromMsg m i).toNat = if msgBit m i then 512 else 0) ∧ ((Poly.fromMsg m).shr 9).readBytesMsg = m := by
  refine ⟨fun i => by rw [fromMsg_toNat]; cases msgBit m i <;> rfl, ?_⟩
  apply msgBit_ext
  intro i
  have hn : ∀ i, ((Poly.fromMsg m).shr 9 i).toNat = (msgBit m i).toNat := by
    intro i
    show (Poly.fromMsg m i >>> 9).toNat = _
    rw [BitVec.toNat_ushiftRight, fromMsg_toNat, Nat.shiftRight_eq_div_pow]
    omega
  rw [msgBit_readBytesMsg _ (fun i => by rw [hn]; exact Bool.toNat_lt _), hn]
  cases msgBit m i <;> rfl

/-- C46: exactly what the 3-bit packing does.  Every coefficient comes back modulo 8, except that at positions `≡ 5 (mod 8)` bit 0 is
overwritten with bit 2. -/
theorem C46_unpack_pack3 (p : Poly) (i : Fin 256) (j : Nat) :
    ((Poly.fromBytes3 p.readBytes3) i).getLsbD j
      = if j = 0 ∧ i.1 % 8 = 5 then (p i).getLsbD 2 else decide (j < 3) && (p i).getLsbD j := by
  rw [Poly.fromBytes3_readBytes3]
  by_cases hj : j < 3
  · by_cases h : i.1 % 8 = 5
    · rw [if_pos h]
      interval_cases j <;> simp [h]
    · rw [if_neg h, if_neg (by tauto)]
      interval_cases j <;> simp
  · have hz : ∀ y : U16, y.toNat < 2 ^ 3 → y.getLsbD j = false := by
      intro y hy
      rw [← BitVec.testBit_toNat]
      exact Nat.testBit_lt_two_pow (lt_of_lt_of_le hy (Nat.pow_le_pow_right (by omega) (by omega)))
    rw [if_neg (c := j = 0 ∧ i.1 % 8 = 5) (by rintro ⟨h, _⟩; omega), decide_eq_false hj, Bool.false_and]
    split
    · change ((p i &&& (0x6 : U16)) ||| ((p i >>> 2) &&& (0x1 : U16)) : U16).getLsbD j = _
      rw [BitVec.getLsbD_or, BitVec.getLsbD_and, BitVec.getLsbD_and, hz _ (by decide : ((0x6 : U16)).toNat < 2 ^ 3), hz (0x1 : U16) (by decide)]; simp
    · rw [BitVec.getLsbD_and, hz (0x7 : U16) (by decide)]; simp

/-- C46: so the 3-bit packing does not round-trip: already the constant polynomial 1 comes back different. -/
theorem C46_packing3_not_injective :
    ¬ ∀ (p : Poly) (i : Fin 256), ((Poly.fromBytes3 p.readBytes3) i).toNat = (p i).toNat % 2 ^ 3 := by
  intro h
  have h1 := h (fun _ => 1) 5
  rw [Poly.fromBytes3_readBytes3] at h1
  revert h1
  decide

/-- C46: and two different reconciliation polynomials share a packing, so a ciphertext does not determine what was packed. -/
theorem C46_packing3_collision : ∃ p q : Poly, (∀ i, (p i).toNat < 8 ∧ (q i).toNat < 8) ∧ p ≠ q ∧ p.readBytes3 = q.readBytes3 := by
  refine ⟨fun _ => 0, fun i => if i.1 = 5 then 1 else 0, fun i => ⟨show (0 : U16).toNat < 8 by decide, ?_⟩, ?_, ?_⟩
  · dsimp only; split <;> decide
  · intro h
    have := congrFun h 5
    revert this
    decide
  · decide +kernel

/-! ## C47: lengths -/

/-- C47: the byte-array types (`PublicKeyBytes`, `SecretKeyBytes`, `Ciphertext`, `SharedSecret`) accept exactly their length and keep the bytes. -/
theorem C47_newtype (name : String) (n : Nat) (b : Bytes) :
    (∀ x : ByteArr n, newtypeFromBytes name n b = .ok x ↔ b = newtypeAsSlice x) ∧
    (b.length ≠ n → newtypeFromBytes name n b = .err (.badLength name b.length n)) := by
  constructor
  · intro x
    unfold newtypeFromBytes newtypeAsSlice
    split
    · rename_i h
      constructor
      · intro e; simp only [Res.ok.injEq] at e; rw [← e]
      · intro e; simp only [Res.ok.injEq]; exact Subtype.ext e
    · rename_i h
      constructor
      · intro e; simp at e
      · intro e; exact absurd (e ▸ x.2) h
  · intro h
    unfold newtypeFromBytes
    rw [dif_neg h]

/-- C47: key parsing succeeds exactly on the advertised length and otherwise reports the actual and expected lengths; it never panics. -/
theorem C47_keys (I : Impl) (b : Bytes) :
    ((∃ pk, PublicKey.fromBytes (I := I) b = .ok pk) ↔ b.length = I.pkBytes) ∧
    (b.length ≠ I.pkBytes → PublicKey.fromBytes (I := I) b = .err (.badLength "bytes" b.length I.pkBytes)) ∧
    ((∃ sk, SecretKey.fromBytes (I := I) b = .ok sk) ↔ b.length = I.skBytes) ∧
    (b.length ≠ I.skBytes → SecretKey.fromBytes (I := I) b = .err (.badLength "bytes" b.length I.skBytes)) := by
  have hpk : b.length ≠ I.pkBytes → PublicKey.fromBytes (I := I) b = .err (.badLength "bytes" b.length I.pkBytes) := by
    intro h; unfold PublicKey.fromBytes; rw [dif_neg h]
  have hsk : b.length ≠ I.skBytes → SecretKey.fromBytes (I := I) b = .err (.badLength "bytes" b.length I.skBytes) := by
    intro h; unfold SecretKey.fromBytes; rw [if_pos h]
  refine ⟨⟨fun ⟨pk, h⟩ => ?_, fun h => ?_⟩, hpk, ⟨fun ⟨sk, h⟩ => ?_, fun h => ?_⟩, hsk⟩
  · by_contra hne; rw [hpk hne] at h; simp at h
  · exact ⟨_, by unfold PublicKey.fromBytes; rw [dif_pos h]⟩
  · by_contra hne; rw [hsk hne] at h; simp at h
  · have h' : b.length = I.K * 416 + (I.K * 320 + 32) + 32 + 32 := h
    have l1 : (b.take I.cpaSkBytes).length = I.cpaSkBytes := by
      rw [List.length_take, h']; show min (I.K * 416) _ = I.K * 416; omega
    have l2 : ((b.drop I.cpaSkBytes).take I.pkBytes).length = I.pkBytes := by
      rw [List.length_take, List.length_drop, h']; show min (I.K * 320 + 32) (_ - I.K * 416) = I.K * 320 + 32; omega
    have l3 : (((b.drop I.cpaSkBytes).drop I.pkBytes).take 32).length = 32 := by
      rw [List.length_take, List.length_drop, List.length_drop, h']; show min 32 (_ - I.K * 416 - (I.K * 320 + 32)) = 32; omega
    have l4 : (((b.drop I.cpaSkBytes).drop I.pkBytes).drop 32).length = 32 := by
      rw [List.length_drop, List.length_drop, List.length_drop, h']; show (_ - I.K * 416 - (I.K * 320 + 32)) - 32 = 32; omega
    refine ⟨⟨⟨_, l4⟩, ⟨_, l3⟩, ⟨CpaPk.fromBytes ⟨_, l2⟩⟩, ⟨Vec.fromBytesModQ ⟨_, l1⟩⟩⟩, ?_⟩
    unfold SecretKey.fromBytes
    rw [if_neg (by simpa using h)]
    simp only [CpaSk.fromBytes, PublicKey.fromBytes, dif_pos l1, dif_pos l2, toArr?, dif_pos l3, dif_pos l4]

/-- C47: the advertised sizes of the three parameter sets (public key, secret key, ciphertext). -/
theorem C47_sizes : (light.pkBytes = 672 ∧ light.skBytes = 1568 ∧ light.ctBytes = 736) ∧
    (saber.pkBytes = 992 ∧ saber.skBytes = 2304 ∧ saber.ctBytes = 1088) ∧
    (fire.pkBytes = 1312 ∧ fire.skBytes = 3040 ∧ fire.ctBytes = 1472) := by decide

/-! ## C48, C49: serialised keys behave like the originals -/

private theorem cpaPk_roundtrip (I : Impl) (pk : CpaPk I) :
    (CpaPk.fromBytes pk.toBytes).seed = pk.seed ∧
    ∀ k i, ((CpaPk.fromBytes pk.toBytes).vec k i).toNat % 1024 = (pk.vec k i).toNat % 1024 := by
  unfold CpaPk.fromBytes CpaPk.toBytes
  refine ⟨sndPart_cat _ _, fun k i => ?_⟩
  show (Vec.fromBytesModP (fstPart (cat pk.vec.readModP pk.seed)) k i).toNat % 1024 = _
  rw [fstPart_cat, fromBytesModP_readModP, toNat_and_1023, Nat.mod_mod]

theorem cpaPk_bytes (I : Impl) (b : ByteArr I.pkBytes) : (CpaPk.fromBytes b).toBytes = b := by
  unfold CpaPk.fromBytes CpaPk.toBytes
  show cat (Vec.readModP (Vec.fromBytesModP (fstPart b))) (sndPart b) = b
  rw [readModP_fromBytesModP]
  exact cat_parts b

/-- C48: for every public key, the reparsed copy encapsulates to the same ciphertext and secret for every coins, and serialises to the same bytes. -/
theorem C48_public_key_roundtrip (H : Hashes) (I : Impl) (pk : PublicKey I) :
    ∃ pk', PublicKey.fromBytes pk.toBytes.1 = .ok pk' ∧ pk'.toBytes = pk.toBytes ∧
      (∀ m, encapsulate H I m pk' = encapsulate H I m pk) ∧
      (∀ m r, encapsulateCpa H I m r (CpaPk.fromBytes pk.pkCpa.toBytes) = encapsulateCpa H I m r pk.pkCpa) := by
  have henc : ∀ m r, cpaEnc H I m r (CpaPk.fromBytes pk.pkCpa.toBytes) = cpaEnc H I m r pk.pkCpa := fun m r =>
    cpaEnc_congr H I m r (cpaPk_roundtrip I pk.pkCpa).1 (cpaPk_roundtrip I pk.pkCpa).2
  have hb : (⟨CpaPk.fromBytes pk.pkCpa.toBytes⟩ : PublicKey I).toBytes = pk.toBytes := cpaPk_bytes I _
  refine ⟨⟨CpaPk.fromBytes pk.pkCpa.toBytes⟩, ?_, hb, fun m => ?_, fun m r => ?_⟩
  · unfold PublicKey.fromBytes PublicKey.toBytes
    rw [dif_pos pk.pkCpa.toBytes.2]
  · unfold encapsulate
    rw [hb]
    dsimp only
    rw [henc]
  · unfold encapsulateCpa
    rw [henc]

/-- C48: every byte string of the right length is a public key, and parsing loses nothing. -/
theorem C48_public_key_bytes (I : Impl) (b : ByteArr I.pkBytes) :
    ∃ pk, PublicKey.fromBytes (I := I) b.1 = .ok pk ∧ pk.toBytes = b :=
  ⟨⟨CpaPk.fromBytes b⟩, by unfold PublicKey.fromBytes; rw [dif_pos b.2], cpaPk_bytes I b⟩

/-- C49: for every secret key, the reparsed copy decapsulates every ciphertext to the same secret, and serialises to the same bytes. -/
theorem C49_secret_key_roundtrip (H : Hashes) (I : Impl) (sk : SecretKey I) :
    ∃ sk', SecretKey.fromBytes sk.toBytes.1 = .ok sk' ∧ sk'.toBytes = sk.toBytes ∧
      (∀ ct, decapsulate H I ct sk' = decapsulate H I ct sk) ∧
      (∀ ct, decapsulateCpa I ct sk'.skCpa = decapsulateCpa I ct sk.skCpa) := by
  have hv : ∀ k i, (Vec.fromBytesModQ sk.skCpa.toBytes k i).toNat % 1024 = (sk.skCpa.vec k i).toNat % 1024 := by
    intro k i
    show (Vec.fromBytesModQ sk.skCpa.vec.readModQ k i).toNat % 1024 = _
    rw [fromBytesModQ_readModQ, toNat_and_8191]
    omega
  have hd : ∀ ct, cpaDec I ⟨Vec.fromBytesModQ sk.skCpa.toBytes⟩ ct = cpaDec I sk.skCpa ct := fun ct => cpaDec_congr I hv ct
  have henc : ∀ m r, cpaEnc H I m r (CpaPk.fromBytes sk.pkCca.pkCpa.toBytes) = cpaEnc H I m r sk.pkCca.pkCpa := fun m r =>
    cpaEnc_congr H I m r (cpaPk_roundtrip I _).1 (cpaPk_roundtrip I _).2
  refine ⟨⟨sk.z, sk.hashPk, ⟨CpaPk.fromBytes sk.pkCca.pkCpa.toBytes⟩, ⟨Vec.fromBytesModQ sk.skCpa.toBytes⟩⟩, ?_, ?_, fun ct => ?_, hd⟩
  · have hlen := sk.toBytes.2
    have e0 : sk.toBytes.1 = sk.skCpa.toBytes.1 ++ (sk.pkCca.toBytes.1 ++ (sk.hashPk.1 ++ sk.z.1)) := by
      simp [SecretKey.toBytes, cat]
    have e1 : sk.toBytes.1.take I.cpaSkBytes = sk.skCpa.toBytes.1 := by
      rw [e0]; exact List.take_left' sk.skCpa.toBytes.2
    have e2 : sk.toBytes.1.drop I.cpaSkBytes = sk.pkCca.toBytes.1 ++ (sk.hashPk.1 ++ sk.z.1) := by
      rw [e0]; exact List.drop_left' sk.skCpa.toBytes.2
    have e3 : (sk.pkCca.toBytes.1 ++ (sk.hashPk.1 ++ sk.z.1)).take I.pkBytes = sk.pkCca.toBytes.1 := List.take_left' sk.pkCca.toBytes.2
    have e4 : (sk.pkCca.toBytes.1 ++ (sk.hashPk.1 ++ sk.z.1)).drop I.pkBytes = sk.hashPk.1 ++ sk.z.1 := List.drop_left' sk.pkCca.toBytes.2
    have e5 : (sk.hashPk.1 ++ sk.z.1).take 32 = sk.hashPk.1 := List.take_left' sk.hashPk.2
    have e6 : (sk.hashPk.1 ++ sk.z.1).drop 32 = sk.z.1 := List.drop_left' sk.hashPk.2
    unfold SecretKey.fromBytes
    rw [if_neg (by simpa using hlen)]
    simp only [e1, e2, e3, e4, e5, e6, toArr?_val]
    simp only [CpaSk.fromBytes, PublicKey.fromBytes, dif_pos sk.skCpa.toBytes.2, dif_pos sk.pkCca.toBytes.2]
    rfl
  · have h1 : (⟨Vec.fromBytesModQ sk.skCpa.toBytes⟩ : CpaSk I).toBytes = sk.skCpa.toBytes := readModQ_fromBytesModQ _
    have h2 : (⟨CpaPk.fromBytes sk.pkCca.pkCpa.toBytes⟩ : PublicKey I).toBytes = sk.pkCca.toBytes := cpaPk_bytes I _
    unfold SecretKey.toBytes
    rw [h1, h2]
  · unfold decapsulate
    dsimp only
    rw [hd, henc]

/-- C49: the in-memory key really can differ from its reparsed copy: a secret coefficient `-1` is `0xFFFF` in memory and `0x1FFF` after reload. -/
theorem C49_in_memory_differs : ∃ sk : CpaSk light, ∃ k i,
    Vec.fromBytesModQ sk.toBytes k i ≠ sk.vec k i ∧ (sk.vec k i).toInt = -1 := by
  refine ⟨⟨fun _ _ => 0xFFFF⟩, ⟨0, by decide⟩, 0, ?_, by decide⟩
  show Vec.fromBytesModQ (Vec.readModQ _) _ _ ≠ _
  rw [fromBytesModQ_readModQ]
  decide

/-! ## C50: ring arithmetic -/

/-- C50: `Poly` multiplication and addition are those of `(Z/2^16)[X]/(X^256+1)`: the coefficient map into the quotient ring is injective,
multiplicative and additive. -/
theorem C50_poly_ring : Function.Injective (toQuot (R := U16) (n := 256)) ∧
    (∀ a b : Poly, toQuot (a.mul b) = toQuot a * toQuot b) ∧ (∀ a b : Poly, toQuot (a.add b) = toQuot a + toQuot b) :=
  ⟨toQuot_injective (by decide), fun a b => by rw [Poly.mul_eq_negaMul, toQuot_negaMul], fun a b => toQuot_add a b⟩

/-- C50: coefficient formula of the product. -/
theorem C50_poly_mul_coeff (a b : Poly) (k : Fin 256) : a.mul b k =
    ∑ i : Fin 256, ∑ j : Fin 256, if i.1 + j.1 = k.1 then a i * b j else if i.1 + j.1 = k.1 + 256 then -(a i * b j) else 0 :=
  congrFun (Poly.mul_eq_negaMul a b) k

/-- C50: the ring laws. -/
theorem C50_poly_laws (a b c : Poly) : a.mul b = b.mul a ∧ (a.mul b).mul c = a.mul (b.mul c) ∧ a.mul (b.add c) = (a.mul b).add (a.mul c) := by
  simp only [Poly.mul_eq_negaMul]
  exact ⟨negaMul_comm (by decide) _ _, negaMul_assoc (by decide) _ _ _, negaMul_add (by decide) _ _ _⟩

/-- C50: the matrix operations are the textbook ones and adjoint to each other: `⟨A s, t⟩ = ⟨s, Aᵀ t⟩`. -/
theorem C50_matrix {K : Nat} (A : Mat K) (s t : Vec K) :
    A.mul s = matVec A s ∧ A.mulTranspose t = matVec (transpose A) t ∧ (A.mul s).mul t = s.mul (A.mulTranspose t) := by
  refine ⟨matMul_eq A s, matMulT_eq A t, ?_⟩
  rw [vecMul_eq, vecMul_eq, matMul_eq, matMulT_eq, inner_matVec]
  unfold inner
  exact Finset.sum_congr rfl fun k _ => negaMul_comm (by decide) _ _

/-! ## C51: secrets -/

/-- C51: coefficient `i` of a sampled polynomial is the difference of the numbers of ones in two consecutive groups of `mu/2` stream bits. -/
theorem C51_cbd (xof : Nat → UInt8) (i : Fin 256) :
    ((light.cbd xof i).toInt = (onesAt xof (10 * i.1) 5 : ℤ) - onesAt xof (10 * i.1 + 5) 5) ∧
    ((saber.cbd xof i).toInt = (onesAt xof (8 * i.1) 4 : ℤ) - onesAt xof (8 * i.1 + 4) 4) ∧
    ((fire.cbd xof i).toInt = (onesAt xof (6 * i.1) 3 : ℤ) - onesAt xof (6 * i.1 + 3) 3) :=
  ⟨cbdLight_ones xof i, cbdSaber_ones xof i, cbdFire_ones xof i⟩

/-- C51: hence every coefficient of every generated secret, key or ephemeral, lies in `[-mu/2, mu/2]`. -/
theorem C51_secrets_small (H : Hashes) (I : Impl) (hI : I = light ∨ I = saber ∨ I = fire) (seed ns : ByteArr 32) (k : Fin I.K) (i : Fin 256) :
    -(I.mu / 2 : ℤ) ≤ ((cpaKeypair H I seed ns).2.vec k i).toInt ∧ ((cpaKeypair H I seed ns).2.vec k i).toInt ≤ I.mu / 2 := by
  show -(I.mu / 2 : ℤ) ≤ (I.cbd _ i).toInt ∧ (I.cbd _ i).toInt ≤ (I.mu / 2 : ℤ)
  generalize (fun n => H.shake128 ns.1 (I.cbdLen * k.1 + n)) = xof
  rcases hI with rfl | rfl | rfl
  · have := (C51_cbd xof i).1
    have h1 := onesAt_le xof (10 * i.1) 5
    have h2 := onesAt_le xof (10 * i.1 + 5) 5
    simp only [show light.mu = 10 from rfl]
    omega
  · have := (C51_cbd xof i).2.1
    have h1 := onesAt_le xof (8 * i.1) 4
    have h2 := onesAt_le xof (8 * i.1 + 4) 4
    simp only [show saber.mu = 8 from rfl]
    omega
  · have := (C51_cbd xof i).2.2
    have h1 := onesAt_le xof (6 * i.1) 3
    have h2 := onesAt_le xof (6 * i.1 + 3) 3
    simp only [show fire.mu = 6 from rfl]
    omega

/-- C51: the samplers of consecutive polynomials read disjoint, adjacent parts of the stream (`N·mu/8` bytes each). -/
theorem C51_stream_positions : light.cbdLen = 256 * light.mu / 8 ∧ saber.cbdLen = 256 * saber.mu / 8 ∧ fire.cbdLen = 256 * fire.mu / 8 := by
  decide

/-! ## C52, C53: decryption -/

private theorem own_or_reparsed {H : Hashes} {I : Impl} {seed ns : ByteArr 32} {pk : CpaPk I}
    (h : pk = (cpaKeypair H I seed ns).1 ∨ pk = CpaPk.fromBytes (cpaKeypair H I seed ns).1.toBytes) :
    pk.seed = seed ∧ ∀ k i, (pk.vec k i).toNat % 1024 = ((cpaKeypair H I seed ns).1.vec k i).toNat % 1024 := by
  rcases h with rfl | rfl
  · exact ⟨rfl, fun _ _ => rfl⟩
  · exact ⟨(cpaPk_roundtrip I _).1, (cpaPk_roundtrip I _).2⟩

private theorem gap_ok (x : U16) (c : Nat) (hc : c ≤ 10) : (0 : ℤ) ≤ ((x.toNat % 1024 : Nat) : ℤ) - ((((x &&& 0x3FF) >>> c) <<< c : U16)).toNat ∧
    ((x.toNat % 1024 : Nat) : ℤ) - ((((x &&& 0x3FF) >>> c) <<< c : U16)).toNat ≤ 2 ^ c - 1 := by
  rw [shr_shl_gap x c hc]
  have h1 := Nat.div_add_mod (x.toNat % 1024) (2 ^ c)
  have h2 := Nat.mod_lt (x.toNat % 1024) (Nat.two_pow_pos c)
  have h3 : ((2 ^ c : Nat) : ℤ) = 2 ^ c := by push_cast; rfl
  rw [Nat.mul_comm] at h1
  rw [← h3]
  omega

/-- C52, Saber: bit `i` of the message is recovered whenever the rounding noise at `i` (scaled by 8) is at most `8·224` in absolute value; for
the generated public key and for its serialised copy. -/
theorem C52_saber_bit (H : Hashes) (seed ns m r : ByteArr 32) (pk : CpaPk saber)
    (hpk : pk = (cpaKeypair H saber seed ns).1 ∨ pk = CpaPk.fromBytes (cpaKeypair H saber seed ns).1.toBytes) (i : Fin 256)
    (hn : |noise (genMatrix H saber seed) (genSecret H saber ns) (genSecret H saber r) i| ≤ 8 * 224) :
    msgBit (cpaDec saber (cpaKeypair H saber seed ns).2 (cpaEnc H saber m r pk)) i = msgBit m i := by
  obtain ⟨hs, hv⟩ := own_or_reparsed hpk
  have := abs_le.1 hn
  refine dec_bit H saber seed ns m r pk hs hv i 0 63 (fun p => ?_) 224 rfl (by omega) (by omega)
  rw [saber_rec]
  exact gap_ok (p i) 6 (by omega)

/-- C52, FireSaber: threshold `8·248`. -/
theorem C52_fire_bit (H : Hashes) (seed ns m r : ByteArr 32) (pk : CpaPk fire)
    (hpk : pk = (cpaKeypair H fire seed ns).1 ∨ pk = CpaPk.fromBytes (cpaKeypair H fire seed ns).1.toBytes) (i : Fin 256)
    (hn : |noise (genMatrix H fire seed) (genSecret H fire ns) (genSecret H fire r) i| ≤ 8 * 248) :
    msgBit (cpaDec fire (cpaKeypair H fire seed ns).2 (cpaEnc H fire m r pk)) i = msgBit m i := by
  obtain ⟨hs, hv⟩ := own_or_reparsed hpk
  have := abs_le.1 hn
  refine dec_bit H fire seed ns m r pk hs hv i 0 15 (fun p => ?_) 248 rfl (by omega) (by omega)
  rw [fire_rec]
  exact gap_ok (p i) 4 (by omega)

/-- C52, LightSaber, positions the packing defect does not touch: threshold `8·192`. -/
theorem C52_light_bit (H : Hashes) (seed ns m r : ByteArr 32) (pk : CpaPk light)
    (hpk : pk = (cpaKeypair H light seed ns).1 ∨ pk = CpaPk.fromBytes (cpaKeypair H light seed ns).1.toBytes) (i : Fin 256) (hi : i.1 % 8 ≠ 5)
    (hn : |noise (genMatrix H light seed) (genSecret H light ns) (genSecret H light r) i| ≤ 8 * 192) :
    msgBit (cpaDec light (cpaKeypair H light seed ns).2 (cpaEnc H light m r pk)) i = msgBit m i := by
  obtain ⟨hs, hv⟩ := own_or_reparsed hpk
  have := abs_le.1 hn
  refine dec_bit H light seed ns m r pk hs hv i 0 127 (fun p => ?_) 192 rfl (by omega) (by omega)
  rw [light_rec p i hi]
  exact gap_ok (p i) 7 (by omega)

/-- C53, LightSaber, positions `≡ 5 (mod 8)`: the defect leaves a threshold of only `8·64`. -/
theorem C53_light_bit5 (H : Hashes) (seed ns m r : ByteArr 32) (pk : CpaPk light)
    (hpk : pk = (cpaKeypair H light seed ns).1 ∨ pk = CpaPk.fromBytes (cpaKeypair H light seed ns).1.toBytes) (i : Fin 256) (hi : i.1 % 8 = 5)
    (hn : |noise (genMatrix H light seed) (genSecret H light ns) (genSecret H light r) i| ≤ 8 * 64) :
    msgBit (cpaDec light (cpaKeypair H light seed ns).2 (cpaEnc H light m r pk)) i = msgBit m i := by
  obtain ⟨hs, hv⟩ := own_or_reparsed hpk
  have := abs_le.1 hn
  refine dec_bit H light seed ns m r pk hs hv i (-128) 255 (fun p => ?_) 192 rfl (by omega) (by omega)
  have h5 := light_rec5 p i hi
  have hlt := rec7_lt (p i)
  have hc := lightBug_close _ hlt
  have hl := lightBug_lt _ hlt
  have hg := gap_ok (p i) 7 (by omega)
  show _ ≤ (((p i).toNat % 1024 : Nat) : ℤ) - (light.recFrom (reconDataGen light p) i <<< 7).toNat ∧ _
  have e : ∀ y : U16, y.toNat < 8 → (y <<< 7).toNat = y.toNat * 2 ^ 7 := by
    intro y hy
    rw [BitVec.toNat_shiftLeft, Nat.shiftLeft_eq, Nat.mod_eq_of_lt (by omega)]
  show _ ∧ (((p i).toNat % 1024 : Nat) : ℤ) - (light.recFrom (reconDataGen light p) i <<< 7).toNat ≤ _
  rw [e _ hlt] at hg
  rw [e _ (by rw [h5]; exact hl), h5]
  omega

/-- C52: whole messages.  For each parameter set, if the noise is below the threshold everywhere, decryption inverts encryption. -/
theorem C52_decrypt (H : Hashes) (seed ns m r : ByteArr 32) :
    ((∀ i, |noise (genMatrix H saber seed) (genSecret H saber ns) (genSecret H saber r) i| ≤ 8 * 224) →
      cpaDec saber (cpaKeypair H saber seed ns).2 (cpaEnc H saber m r (cpaKeypair H saber seed ns).1) = m) ∧
    ((∀ i, |noise (genMatrix H fire seed) (genSecret H fire ns) (genSecret H fire r) i| ≤ 8 * 248) →
      cpaDec fire (cpaKeypair H fire seed ns).2 (cpaEnc H fire m r (cpaKeypair H fire seed ns).1) = m) ∧
    ((∀ i : Fin 256, |noise (genMatrix H light seed) (genSecret H light ns) (genSecret H light r) i| ≤ 8 * (if i.1 % 8 = 5 then 64 else 192)) →
      cpaDec light (cpaKeypair H light seed ns).2 (cpaEnc H light m r (cpaKeypair H light seed ns).1) = m) := by
  refine ⟨fun h => msgBit_ext fun i => C52_saber_bit H seed ns m r _ (.inl rfl) i (h i),
    fun h => msgBit_ext fun i => C52_fire_bit H seed ns m r _ (.inl rfl) i (h i), fun h => msgBit_ext fun i => ?_⟩
  have := h i
  by_cases hi : i.1 % 8 = 5
  · rw [if_pos hi] at this; exact C53_light_bit5 H seed ns m r _ (.inl rfl) i hi this
  · rw [if_neg hi] at this; exact C52_light_bit H seed ns m r _ (.inl rfl) i hi this

/-- C52: the noise is at most four times the total absolute weight of the two secrets, whatever the matrix. -/
theorem C52_noise_bound (H : Hashes) (I : Impl) (seed ns r : ByteArr 32) (i : Fin 256) :
    |noise (genMatrix H I seed) (genSecret H I ns) (genSecret H I r) i| ≤ 4 * (l1 (toZ (genSecret H I ns)) + l1 (toZ (genSecret H I r))) :=
  abs_noise_le _ _ _ i

/-- C53: what the defect does to a reconciliation value, for every polynomial and position: at most one step, and none at all outside the positions `≡ 5 (mod 8)`. -/
theorem C53_shift_at_most_one (p : Poly) (i : Fin 256) :
    (((Poly.fromBytes3 p.readBytes3) i).toNat : ℤ) - ((p i).toNat % 8 : Nat) ∈ ([-1, 0, 1] : List ℤ) ∧
    (i.1 % 8 ≠ 5 → ((Poly.fromBytes3 p.readBytes3) i).toNat = (p i).toNat % 8) := by
  rw [Poly.fromBytes3_readBytes3]
  have h8 : (p i &&& (0x7 : U16)).toNat = (p i).toNat % 8 := by
    rw [BitVec.toNat_and]; exact Nat.and_two_pow_sub_one_eq_mod _ 3
  by_cases h : i.1 % 8 = 5
  · rw [if_pos h]
    refine ⟨?_, fun hn => absurd h hn⟩
    rw [← h8]
    change (((p i &&& (0x6 : U16)) ||| ((p i >>> 2) &&& (0x1 : U16)) : U16).toNat : ℤ) - _ ∈ _
    have e : (p i &&& (0x6 : U16)) ||| ((p i >>> 2) &&& (0x1 : U16)) = ((p i &&& (0x7 : U16)) &&& (0x6 : U16)) ||| (((p i &&& (0x7 : U16)) >>> 2) &&& (0x1 : U16)) := by
      apply BitVec.eq_of_getLsbD_eq; intro j hj; interval_cases j <;> simp
    rw [e]
    have hlt : (p i &&& (0x7 : U16)).toNat < 8 := by rw [h8]; omega
    generalize p i &&& (0x7 : U16) = y at *
    have key : ∀ n : Fin 8, (((BitVec.ofNat 16 n.1 &&& 0x6) ||| ((BitVec.ofNat 16 n.1 >>> 2) &&& 0x1) : U16).toNat : ℤ)
        - (n.1 : Nat) ∈ ([-1, 0, 1] : List ℤ) := by decide +kernel
    have h1 := key ⟨y.toNat, hlt⟩
    have h2 : BitVec.ofNat 16 y.toNat = y := by simp
    simp only [h2] at h1
    exact h1
  · rw [if_neg h, h8]
    simp

/-- C53: the loss is real and `64` is the best possible threshold.  There are a masked value `mp` carrying message bit 0 and a receiver value
`v` only 65 away from it, far inside the specification's 192, for which the reconciliation data as packed decodes to 1, while the same
data before packing decodes to 0. -/
theorem C53_defect_flips_bit : ∃ mp v : Poly,
    (∀ i, ((mp i).toNat : ℤ) - (v i).toNat = if i.1 = 5 then 65 else 0) ∧
    (recon light (reconDataGen light mp) v 5).toNat = 1 ∧
    (∀ i, (recon { light with recRead := fun _ => .rep 96 0, recFrom := fun _ => (mp.reduce 1024).shr 7 }
      (.rep 96 0) v i).toNat = 0) := by
  refine ⟨fun i => if i.1 = 5 then 512 else 512, fun i => if i.1 = 5 then 447 else 512, ?_, ?_, ?_⟩
  · intro i; dsimp only; split <;> simp
  · decide +kernel
  · intro i
    unfold recon
    dsimp only
    rw [bit9]
    by_cases h : i.1 = 5 <;> simp [h, Poly.reduce, Poly.shr, light] <;> rfl

/-! ## C55: comparison masks -/

/-- C55: the byte mask is `0xFF` on equal bytes and `0` on different ones. -/
theorem C55_u8_eq_mask (x y : U8) : u8EqMask x y = if x = y then 0xFF else 0 := by
  revert x y
  have h : ∀ z : U8, ((z ||| (-z)) >>> 7) - 1 = if z = 0 then (0xFF : U8) else 0 := by decide +kernel
  intro x y
  unfold u8EqMask
  dsimp only
  rw [h]
  by_cases e : x = y
  · subst e; simp
  · rw [if_neg e, if_neg]
    intro hz
    exact e (BitVec.xor_eq_zero_iff.1 hz)

/-- C55: the slice mask of two equally long slices is `0xFF` exactly when they are equal and `0` otherwise. -/
theorem C55_bytes_eq_mask (a b : Bytes) (hl : a.length = b.length) : bytesEqMask a b = if a = b then 0xFF else 0 := by
  have key : ∀ (a b : Bytes) (acc : U8), a.length = b.length →
      (a.zip b).foldl (fun acc p => acc &&& u8EqMask p.1.toBitVec p.2.toBitVec) acc = if a = b then acc else 0 := by
    intro a
    induction a with
    | nil =>
      intro b acc h
      have : b = [] := List.length_eq_zero_iff.1 h.symm
      subst this; rfl
    | cons x a ih =>
      intro b acc h
      cases b with
      | nil => simp at h
      | cons y b =>
        rw [List.zip_cons_cons, List.foldl_cons, ih b _ (by simpa using h), C55_u8_eq_mask]
        by_cases e : x = y
        · subst e
          rw [if_pos rfl]
          have : acc &&& (0xFF : U8) = acc := by
            have : (0xFF : U8) = BitVec.allOnes 8 := by decide
            rw [this, BitVec.and_allOnes]
          rw [this]
          by_cases e' : a = b
          · subst e'; rw [if_pos rfl, if_pos rfl]
          · rw [if_neg e', if_neg (by simpa using e')]
        · have hne : x.toBitVec ≠ y.toBitVec := fun h => e (UInt8.eq_of_toBitVec_eq h)
          rw [if_neg hne, if_neg (c := x :: a = y :: b) (by simp [e])]
          have : acc &&& (0 : U8) = 0 := BitVec.and_zero
          rw [this, ite_self]
  exact key a b _ hl

/-- Both outcomes occur. -/
example : bytesEqMask [1, 2, 3] [1, 2, 3] = 0xFF ∧ bytesEqMask [1, 2, 3] [1, 2, 4] = 0 := by decide

/-! ## C54: the KEM -/

/-- The conditional move of `decapsulate`: an all-ones mask selects the second buffer, an all-zero mask the first. -/
private theorem cmov (a b : Bytes) (h : a.length = b.length) (f : U8) (hf : f = 0xFF ∨ f = 0) :
    (a.zip b).map (fun p => UInt8.ofBitVec ((p.1.toBitVec &&& ~~~f) ||| (p.2.toBitVec &&& f))) = if f = 0 then a else b := by
  induction a generalizing b with
  | nil =>
    have : b = [] := List.length_eq_zero_iff.1 h.symm
    subst this; simp
  | cons x a ih =>
    cases b with
    | nil => simp at h
    | cons y b =>
      rw [List.zip_cons_cons, List.map_cons, ih b (by simpa using h)]
      rcases hf with rfl | rfl
      · have h1 : ~~~(0xFF : U8) = 0 := by decide
        have h2 : (0xFF : U8) = BitVec.allOnes 8 := by decide
        rw [h1, if_neg (by decide), if_neg (by decide), h2, BitVec.and_allOnes]
        have : x.toBitVec &&& (0 : U8) = 0 := BitVec.and_zero
        rw [this]
        have : (0 : U8) ||| y.toBitVec = y.toBitVec := BitVec.zero_or
        rw [this]
      · have h1 : ~~~(0 : U8) = BitVec.allOnes 8 := by decide
        rw [if_pos rfl, if_pos rfl, h1, BitVec.and_allOnes]
        have : y.toBitVec &&& (0 : U8) = 0 := BitVec.and_zero
        rw [this]
        have : x.toBitVec ||| (0 : U8) = x.toBitVec := BitVec.or_zero
        rw [this]

private theorem len_eq {n : Nat} (a b : ByteArr n) : a.1.length = b.1.length := a.2.trans b.2.symm

/-- C54: decapsulation, completely.  For every secret key and every ciphertext whatsoever: the ciphertext is decrypted to `m'`, `m'` is
re-encrypted under the embedded public key with coins from the first half of `SHA3-512(hash_pk ‖ m')`, and the result is the hash of
(the hash of the ciphertext if it re-encrypts to itself, otherwise the secret `z`) and the second half.  It is never an error. -/
theorem C54_decapsulate (H : Hashes) (I : Impl) (ct : ByteArr I.ctBytes) (sk : SecretKey I) (m kr1 kr2 : ByteArr 32)
    (hm : m = cpaDec I sk.skCpa ct) (hkr : (H.sha3_512 (sk.hashPk.1 ++ m.1)).1 = kr1.1 ++ kr2.1) :
    decapsulate H I ct sk = H.sha3_256 ((if cpaEnc H I m kr1 sk.pkCca.pkCpa = ct then (H.sha3_256 ct.1).1 else sk.z.1) ++ kr2.1) := by
  unfold decapsulate
  dsimp only
  rw [← hm]
  have e1 : fstPart (n := 32) (m := 32) (H.sha3_512 (sk.hashPk.1 ++ m.1)) = kr1 :=
    Subtype.ext (by show List.take 32 _ = _; rw [hkr, List.take_left' kr1.2])
  have e2 : sndPart (n := 32) (m := 32) (H.sha3_512 (sk.hashPk.1 ++ m.1)) = kr2 :=
    Subtype.ext (by show List.drop 32 _ = _; rw [hkr, List.drop_left' kr1.2])
  rw [e1, e2, C55_bytes_eq_mask _ _ (len_eq _ _)]
  by_cases h : cpaEnc H I m kr1 sk.pkCca.pkCpa = ct
  · rw [if_pos h, if_pos (congrArg Subtype.val h), cmov _ _ (len_eq _ _) _ (.inr (by decide)), if_pos (by decide), h]
  · rw [if_neg h, if_neg (fun e => h (Subtype.ext e)), cmov _ _ (len_eq _ _) _ (.inl (by decide)), if_neg (by decide)]

/-- C54: the same for encapsulation. -/
theorem C54_encapsulate (H : Hashes) (I : Impl) (m kr1 kr2 : ByteArr 32) (pk : PublicKey I)
    (hkr : (H.sha3_512 ((H.sha3_256 pk.toBytes.1).1 ++ m.1)).1 = kr1.1 ++ kr2.1) :
    (encapsulate H I m pk).2 = cpaEnc H I m kr1 pk.pkCpa ∧
    (encapsulate H I m pk).1 = H.sha3_256 ((H.sha3_256 (encapsulate H I m pk).2.1).1 ++ kr2.1) := by
  have e1 : fstPart (n := 32) (m := 32) (H.sha3_512 ((H.sha3_256 pk.toBytes.1).1 ++ m.1)) = kr1 :=
    Subtype.ext (by show List.take 32 _ = _; rw [hkr, List.take_left' kr1.2])
  have e2 : sndPart (n := 32) (m := 32) (H.sha3_512 ((H.sha3_256 pk.toBytes.1).1 ++ m.1)) = kr2 :=
    Subtype.ext (by show List.drop 32 _ = _; rw [hkr, List.drop_left' kr1.2])
  unfold encapsulate
  dsimp only
  rw [e1, e2]
  exact ⟨rfl, rfl⟩

/-- C54: with the generated secret key, decapsulation returns the encapsulated secret whenever CPA decryption of the ciphertext is correct;
for the public key inside the secret key and for its serialised copy. -/
theorem C54_agreement (H : Hashes) (I : Impl) (seed ns z m : ByteArr 32) (pk : PublicKey I)
    (hpk : pk = (keygen H I seed ns z).pkCca ∨ PublicKey.fromBytes (keygen H I seed ns z).pkCca.toBytes.1 = .ok pk)
    (hdec : cpaDec I (keygen H I seed ns z).skCpa (encapsulate H I m pk).2 = m) :
    decapsulate H I (encapsulate H I m pk).2 (keygen H I seed ns z) = (encapsulate H I m pk).1 := by
  have hsame : encapsulate H I m pk = encapsulate H I m (keygen H I seed ns z).pkCca := by
    rcases hpk with rfl | h
    · rfl
    · obtain ⟨pk', h1, _, h3, _⟩ := C48_public_key_roundtrip H I (keygen H I seed ns z).pkCca
      rw [h] at h1
      simp only [Res.ok.injEq] at h1
      subst h1
      exact h3 m
  rw [hsame] at hdec ⊢
  clear hpk hsame
  have hk : (keygen H I seed ns z).hashPk = H.sha3_256 (keygen H I seed ns z).pkCca.toBytes.1 := rfl
  generalize keygen H I seed ns z = sk at *
  let kr := H.sha3_512 ((H.sha3_256 sk.pkCca.toBytes.1).1 ++ m.1)
  have hkr : kr.1 = (fstPart (n := 32) (m := 32) kr).1 ++ (sndPart (n := 32) (m := 32) kr).1 := (List.take_append_drop 32 kr.1).symm
  obtain ⟨e1, e2⟩ := C54_encapsulate H I m _ _ sk.pkCca hkr
  rw [C54_decapsulate H I _ sk m _ _ hdec.symm (by rw [hk]; exact hkr), if_pos e1.symm, e2]

/-- C54: agreement from small noise, for the three parameter sets. -/
theorem C54_agreement_from_noise (H : Hashes) (I : Impl) (B : Fin 256 → ℤ)
    (hI : (I = saber ∧ B = fun _ => 224) ∨ (I = fire ∧ B = fun _ => 248) ∨ (I = light ∧ B = fun i => if i.1 % 8 = 5 then 64 else 192))
    (seed ns z m kr1 kr2 : ByteArr 32)
    (hkr : (H.sha3_512 ((H.sha3_256 (keygen H I seed ns z).pkCca.toBytes.1).1 ++ m.1)).1 = kr1.1 ++ kr2.1)
    (hn : ∀ i, |noise (genMatrix H I seed) (genSecret H I ns) (genSecret H I kr1) i| ≤ 8 * B i) :
    decapsulate H I (encapsulate H I m (keygen H I seed ns z).pkCca).2 (keygen H I seed ns z)
      = (encapsulate H I m (keygen H I seed ns z).pkCca).1 := by
  apply C54_agreement H I seed ns z m _ (.inl rfl)
  rw [(C54_encapsulate H I m kr1 kr2 _ hkr).1]
  rcases hI with ⟨rfl, rfl⟩ | ⟨rfl, rfl⟩ | ⟨rfl, rfl⟩
  · exact (C52_decrypt H seed ns m kr1).1 hn
  · exact (C52_decrypt H seed ns m kr1).2.1 hn
  · exact (C52_decrypt H seed ns m kr1).2.2 hn

/-! ## Non-vacuity of the noise hypotheses

A toy extendable-output function whose stream starts with a one bit: the secrets are then not zero and every noise hypothesis above holds. -/

/-- Toy hashes. -/
def toyHashes : Hashes := ⟨fun _ n => if n = 0 then 1 else 0, fun _ => .rep 32 7, fun _ => .rep 64 9⟩

theorem toy_l1 : ∀ b : ByteArr 32, l1 (toZ (genSecret toyHashes light b)) = 1 ∧ l1 (toZ (genSecret toyHashes saber b)) = 1 ∧
    l1 (toZ (genSecret toyHashes fire b)) = 1 := by
  intro b
  have h : ∀ I, genSecret toyHashes I b = genSecret toyHashes I (.rep 32 0) := fun _ => rfl
  rw [h, h, h]
  decide +kernel

theorem toy_noise (seed ns r : ByteArr 32) (i : Fin 256) :
    |noise (genMatrix toyHashes light seed) (genSecret toyHashes light ns) (genSecret toyHashes light r) i| ≤ 8 ∧
    |noise (genMatrix toyHashes saber seed) (genSecret toyHashes saber ns) (genSecret toyHashes saber r) i| ≤ 8 ∧
    |noise (genMatrix toyHashes fire seed) (genSecret toyHashes fire ns) (genSecret toyHashes fire r) i| ≤ 8 := by
  have h1 := toy_l1 ns
  have h2 := toy_l1 r
  have a := C52_noise_bound toyHashes light seed ns r i
  have b := C52_noise_bound toyHashes saber seed ns r i
  have c := C52_noise_bound toyHashes fire seed ns r i
  rw [h1.1, h2.1] at a
  rw [h1.2.1, h2.2.1] at b
  rw [h1.2.2, h2.2.2] at c
  omega

/-- The hypotheses of C52–C54 hold for a non-zero secret: every message decrypts and every encapsulation agrees. -/
example (seed ns z m : ByteArr 32) : cpaDec light (cpaKeypair toyHashes light seed ns).2 (cpaEnc toyHashes light m z (cpaKeypair toyHashes light seed ns).1) = m ∧
    decapsulate toyHashes light (encapsulate toyHashes light m (keygen toyHashes light seed ns z).pkCca).2 (keygen toyHashes light seed ns z)
      = (encapsulate toyHashes light m (keygen toyHashes light seed ns z).pkCca).1 := by
  refine ⟨(C52_decrypt toyHashes seed ns m z).2.2 fun i => le_trans (toy_noise _ _ _ i).1 ?_, ?_⟩
  · split <;> omega
  · refine C54_agreement_from_noise toyHashes light _ (.inr (.inr ⟨rfl, rfl⟩)) seed ns z m (.rep 32 9) (.rep 32 9)
      (show (ByteArr.rep 64 9).1 = _ by decide +kernel)
      (fun i => le_trans (toy_noise _ _ _ i).1 ?_)
    split <;> omega

end Verif.Props
