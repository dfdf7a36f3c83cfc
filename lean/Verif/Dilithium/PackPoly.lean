import Verif.Dilithium.PackLemmas

/-! # Packing of polynomials: round trips both ways -/

namespace Verif.Dilithium

variable {C : CSem}

theorem at8_ofFn {n : Nat} (f : Fin n → UInt8) (rest : Bytes) (i : Nat) (h : i < n) : at8 C (List.ofFn f ++ rest) i = (f ⟨i, h⟩).toBitVec := by
  unfold at8
  rw [List.getD_eq_getElem _ _ (by simp; omega), List.getElem_append_left (by simpa using h)]
  simp

theorem ofInt_small (n : Nat) (hn : n < 32) (x : Int) (h0 : 0 ≤ x) (h : x < 2 ^ n) : BitVec.ofInt 32 x = (BitVec.ofNat n x.toNat).setWidth 32 := by
  obtain ⟨k, rfl⟩ := Int.eq_ofNat_of_zero_le h0
  have hk : k < 2 ^ n := by exact_mod_cast h
  have h32 : 2 ^ n < 2 ^ 32 := Nat.pow_lt_pow_right (by omega) hn
  apply BitVec.eq_of_toNat_eq
  rw [BitVec.ofInt_natCast]
  simp only [BitVec.toNat_ofNat, BitVec.toNat_setWidth, Int.toNat_natCast]
  rw [Nat.mod_eq_of_lt hk]

theorem ofInt_small8 (n : Nat) (hn : n < 8) (x : Int) (h0 : 0 ≤ x) (h : x < 2 ^ n) : BitVec.ofInt 8 x = (BitVec.ofNat n x.toNat).setWidth 8 := by
  obtain ⟨k, rfl⟩ := Int.eq_ofNat_of_zero_le h0
  have hk : k < 2 ^ n := by exact_mod_cast h
  apply BitVec.eq_of_toNat_eq
  rw [BitVec.ofInt_natCast]
  simp only [BitVec.toNat_ofNat, BitVec.toNat_setWidth, Int.toNat_natCast]
  rw [Nat.mod_eq_of_lt hk]

theorem toInt_small (n : Nat) (hn : n < 32) (x : Int) (h0 : 0 ≤ x) (h : x < 2 ^ n) : ((BitVec.ofNat n x.toNat).setWidth 32).toInt = x := by
  obtain ⟨k, rfl⟩ := Int.eq_ofNat_of_zero_le h0
  have hk : k < 2 ^ n := by exact_mod_cast h
  have h31 : 2 ^ n ≤ 2 ^ 31 := Nat.pow_le_pow_right (by omega) (by omega)
  have e : ((BitVec.ofNat n (Int.toNat (k : Int))).setWidth 32).toNat = k := by
    simp only [BitVec.toNat_ofNat, BitVec.toNat_setWidth, Int.toNat_natCast]
    rw [Nat.mod_eq_of_lt hk, Nat.mod_eq_of_lt (by omega)]
  rw [BitVec.toInt_eq_toNat_of_lt (by rw [e]; omega), e]

theorem toInt_and (x : W32) (m : Nat) (hm : m < 2 ^ 31) : 0 ≤ (x &&& BitVec.ofNat 32 m).toInt ∧ (x &&& BitVec.ofNat 32 m).toInt ≤ m := by
  have h : (x &&& BitVec.ofNat 32 m).toNat ≤ m := by
    rw [BitVec.toNat_and]
    refine Nat.le_trans Nat.and_le_right ?_
    simp only [BitVec.toNat_ofNat]
    exact Nat.mod_le _ _
  rw [BitVec.toInt_eq_toNat_of_lt (by omega)]
  omega

/-! ## Ranges of the decoders -/

theorem eta_un_range (a : Fin 3 → U8) (k : Fin 8) : 0 ≤ (etaUnpackChunk a k).toInt ∧ (etaUnpackChunk a k).toInt ≤ 7 := by
  unfold etaUnpackChunk
  match k with
  | 0 | 1 | 2 | 3 | 4 | 5 | 6 | 7 => dsimp only [Matrix.cons_val]; exact toInt_and _ 7 (by decide)

theorem t1_un_range (a : Fin 5 → U8) (k : Fin 4) : 0 ≤ (t1UnpackChunk a k).toInt ∧ (t1UnpackChunk a k).toInt ≤ 1023 := by
  unfold t1UnpackChunk
  match k with
  | 0 | 1 | 2 | 3 => dsimp only [Matrix.cons_val]; exact toInt_and _ 0x3FF (by decide)

theorem t0_un_range (a : Fin 13 → U8) (k : Fin 8) : 0 ≤ (t0UnpackChunk a k).toInt ∧ (t0UnpackChunk a k).toInt ≤ 8191 := by
  unfold t0UnpackChunk
  match k with
  | 0 | 1 | 2 | 3 | 4 | 5 | 6 | 7 => dsimp only [Matrix.cons_val]; exact toInt_and _ 0x1FFF (by decide)

theorem z_un_range (a : Fin 9 → U8) (k : Fin 4) : 0 ≤ (zUnpackChunk a k).toInt ∧ (zUnpackChunk a k).toInt ≤ 262143 := by
  unfold zUnpackChunk
  match k with
  | 0 | 1 | 2 | 3 => dsimp only [Matrix.cons_val]; exact toInt_and _ 0x3FFFF (by decide)

theorem polyetaUnpack_range (b : Bytes) (i : Fin 256) : -5 ≤ polyetaUnpack C b i ∧ polyetaUnpack C b i ≤ 2 := by
  unfold polyetaUnpack
  have h := eta_un_range (fun j => at8 C b (3 * (i.1 / 8) + j.1)) ⟨i.1 % 8, by omega⟩
  simp only [ETA]
  rw [C.i32_id _ (by omega) (by omega)]
  omega

theorem polyt1Unpack_range (b : Bytes) (i : Fin 256) : 0 ≤ polyt1Unpack C b i ∧ polyt1Unpack C b i ≤ 1023 := by
  unfold polyt1Unpack
  exact t1_un_range _ _

theorem polyt0Unpack_range (b : Bytes) (i : Fin 256) : -4096 < polyt0Unpack C b i ∧ polyt0Unpack C b i ≤ 4096 := by
  unfold polyt0Unpack
  have h := t0_un_range (fun j => at8 C b (13 * (i.1 / 8) + j.1)) ⟨i.1 % 8, by omega⟩
  rw [C.i32_id _ (by omega) (by omega)]
  omega

theorem polyzUnpack_range (b : Bytes) (i : Fin 256) : -GAMMA1 < polyzUnpack C b i ∧ polyzUnpack C b i ≤ GAMMA1 := by
  unfold polyzUnpack
  have h := z_un_range (fun j => at8 C b (9 * (i.1 / 4) + j.1)) ⟨i.1 % 4, by omega⟩
  simp only [GAMMA1] at *
  rw [C.i32_id _ (by omega) (by omega)]
  omega

/-! ## Decoding an encoding -/

theorem fin_congr {n : Nat} {α : Type} (f : Fin n → α) {i j : Nat} (hi : i < n) (hj : j < n) (h : i = j) : f ⟨i, hi⟩ = f ⟨j, hj⟩ := by
  subst h; rfl

theorem polyeta_un_pk (a : Poly) (rest : Bytes) (ha : ∀ i, -5 ≤ a i ∧ a i ≤ 2) : polyetaUnpack C (polyetaPack C a ++ rest) = a := by
  funext i
  have hi := i.2
  unfold polyetaUnpack polyetaPack
  have hc : (fun j : Fin 3 => at8 C (List.ofFn (fun i : Fin 96 => UInt8.ofBitVec
      (etaPackChunk (fun m => BitVec.ofInt 8 (C.i32 (ETA - a ⟨8 * (i.1 / 3) + m.1, by omega⟩))) ⟨i.1 % 3, by omega⟩)) ++ rest) (3 * (i.1 / 8) + j.1))
      = etaPackChunk fun m : Fin 8 => (BitVec.ofNat 3 (ETA - a ⟨8 * (i.1 / 8) + m.1, by omega⟩).toNat).setWidth 8 := by
    funext j
    rw [at8_ofFn _ _ _ (by omega : 3 * (i.1 / 8) + j.1 < 96)]
    have h1 : (3 * (i.1 / 8) + j.1) / 3 = i.1 / 8 := by omega
    have h2 : (3 * (i.1 / 8) + j.1) % 3 = j.1 := by omega
    simp only [h1, h2]
    congr 1
    funext m
    have := ha ⟨8 * (i.1 / 8) + m.1, by omega⟩
    simp only [ETA]
    rw [C.i32_id _ (by omega) (by omega), ofInt_small8 3 (by omega) _ (by omega) (by omega)]
  rw [hc, eta_un_pk]
  have e := fin_congr a (by omega : 8 * (i.1 / 8) + i.1 % 8 < 256) i.2 (by omega)
  simp only [e, Fin.eta]
  have := ha i
  simp only [ETA]
  rw [toInt_small 3 (by omega) _ (by omega) (by omega), C.i32_id _ (by omega) (by omega)]
  show 2 - (2 - a i) = a i
  omega

theorem polyt1_un_pk (a : Poly) (rest : Bytes) (ha : ∀ i, 0 ≤ a i ∧ a i < 1024) : polyt1Unpack C (polyt1Pack a ++ rest) = a := by
  funext i
  have hi := i.2
  unfold polyt1Unpack polyt1Pack
  have hc : (fun j : Fin 5 => at8 C (List.ofFn (fun i : Fin 320 => UInt8.ofBitVec
      (t1PackChunk (fun m => BitVec.ofInt 32 (a ⟨4 * (i.1 / 5) + m.1, by omega⟩)) ⟨i.1 % 5, by omega⟩)) ++ rest) (5 * (i.1 / 4) + j.1))
      = t1PackChunk fun m : Fin 4 => (BitVec.ofNat 10 (a ⟨4 * (i.1 / 4) + m.1, by omega⟩).toNat).setWidth 32 := by
    funext j
    rw [at8_ofFn _ _ _ (by omega : 5 * (i.1 / 4) + j.1 < 320)]
    have h1 : (5 * (i.1 / 4) + j.1) / 5 = i.1 / 4 := by omega
    have h2 : (5 * (i.1 / 4) + j.1) % 5 = j.1 := by omega
    simp only [h1, h2]
    congr 1
    funext m
    have := ha ⟨4 * (i.1 / 4) + m.1, by omega⟩
    rw [ofInt_small 10 (by omega) _ (by omega) (by omega)]
  rw [hc, t1_un_pk]
  have e := fin_congr a (by omega : 4 * (i.1 / 4) + i.1 % 4 < 256) i.2 (by omega)
  simp only [e, Fin.eta]
  have := ha i
  exact toInt_small 10 (by omega) _ (by omega) (by omega)

theorem polyt0_un_pk (a : Poly) (rest : Bytes) (ha : ∀ i, -4096 < a i ∧ a i ≤ 4096) : polyt0Unpack C (polyt0Pack C a ++ rest) = a := by
  funext i
  have hi := i.2
  unfold polyt0Unpack polyt0Pack
  have hc : (fun j : Fin 13 => at8 C (List.ofFn (fun i : Fin 416 => UInt8.ofBitVec
      (t0PackChunk (fun m => BitVec.ofInt 32 (C.i32 (4096 - a ⟨8 * (i.1 / 13) + m.1, by omega⟩))) ⟨i.1 % 13, by omega⟩)) ++ rest) (13 * (i.1 / 8) + j.1))
      = t0PackChunk fun m : Fin 8 => (BitVec.ofNat 13 (4096 - a ⟨8 * (i.1 / 8) + m.1, by omega⟩).toNat).setWidth 32 := by
    funext j
    rw [at8_ofFn _ _ _ (by omega : 13 * (i.1 / 8) + j.1 < 416)]
    have h1 : (13 * (i.1 / 8) + j.1) / 13 = i.1 / 8 := by omega
    have h2 : (13 * (i.1 / 8) + j.1) % 13 = j.1 := by omega
    simp only [h1, h2]
    congr 1
    funext m
    have := ha ⟨8 * (i.1 / 8) + m.1, by omega⟩
    rw [C.i32_id _ (by omega) (by omega), ofInt_small 13 (by omega) _ (by omega) (by omega)]
  rw [hc, t0_un_pk]
  have e := fin_congr a (by omega : 8 * (i.1 / 8) + i.1 % 8 < 256) i.2 (by omega)
  simp only [e, Fin.eta]
  have := ha i
  rw [toInt_small 13 (by omega) _ (by omega) (by omega), C.i32_id _ (by omega) (by omega)]
  show 4096 - (4096 - a i) = a i
  omega

theorem polyz_un_pk (a : Poly) (rest : Bytes) (ha : ∀ i, -GAMMA1 < a i ∧ a i ≤ GAMMA1) : polyzUnpack C (polyzPack C a ++ rest) = a := by
  simp only [GAMMA1] at ha
  funext i
  have hi := i.2
  unfold polyzUnpack polyzPack
  have hc : (fun j : Fin 9 => at8 C (List.ofFn (fun i : Fin 576 => UInt8.ofBitVec
      (zPackChunk (fun m => BitVec.ofInt 32 (C.i32 (GAMMA1 - a ⟨4 * (i.1 / 9) + m.1, by omega⟩))) ⟨i.1 % 9, by omega⟩)) ++ rest) (9 * (i.1 / 4) + j.1))
      = zPackChunk fun m : Fin 4 => (BitVec.ofNat 18 (GAMMA1 - a ⟨4 * (i.1 / 4) + m.1, by omega⟩).toNat).setWidth 32 := by
    funext j
    rw [at8_ofFn _ _ _ (by omega : 9 * (i.1 / 4) + j.1 < 576)]
    have h1 : (9 * (i.1 / 4) + j.1) / 9 = i.1 / 4 := by omega
    have h2 : (9 * (i.1 / 4) + j.1) % 9 = j.1 := by omega
    simp only [h1, h2]
    congr 1
    funext m
    have := ha ⟨4 * (i.1 / 4) + m.1, by omega⟩
    simp only [GAMMA1]
    rw [C.i32_id _ (by omega) (by omega), ofInt_small 18 (by omega) _ (by omega) (by omega)]
  rw [hc, z_un_pk]
  have e := fin_congr a (by omega : 4 * (i.1 / 4) + i.1 % 4 < 256) i.2 (by omega)
  simp only [e, Fin.eta]
  have := ha i
  simp only [GAMMA1]
  rw [toInt_small 18 (by omega) _ (by omega) (by omega), C.i32_id _ (by omega) (by omega)]
  show 131072 - (131072 - a i) = a i
  omega

/-- The 6-bit format, decoded. -/
def polyw1Unpack (C : CSem) (b : Bytes) : Poly := fun i =>
  (w1UnpackChunk (fun j => at8 C b (3 * (i.1 / 4) + j.1)) ⟨i.1 % 4, by omega⟩).toInt

theorem polyw1_un_pk (a : Poly) (rest : Bytes) (ha : ∀ i, 0 ≤ a i ∧ a i < 64) : polyw1Unpack C (polyw1Pack a ++ rest) = a := by
  funext i
  have hi := i.2
  unfold polyw1Unpack polyw1Pack
  have hc : (fun j : Fin 3 => at8 C (List.ofFn (fun i : Fin 192 => UInt8.ofBitVec
      (w1PackChunk (fun m => BitVec.ofInt 32 (a ⟨4 * (i.1 / 3) + m.1, by omega⟩)) ⟨i.1 % 3, by omega⟩)) ++ rest) (3 * (i.1 / 4) + j.1))
      = w1PackChunk fun m : Fin 4 => (BitVec.ofNat 6 (a ⟨4 * (i.1 / 4) + m.1, by omega⟩).toNat).setWidth 32 := by
    funext j
    rw [at8_ofFn _ _ _ (by omega : 3 * (i.1 / 4) + j.1 < 192)]
    have h1 : (3 * (i.1 / 4) + j.1) / 3 = i.1 / 4 := by omega
    have h2 : (3 * (i.1 / 4) + j.1) % 3 = j.1 := by omega
    simp only [h1, h2]
    congr 1
    funext m
    have := ha ⟨4 * (i.1 / 4) + m.1, by omega⟩
    rw [ofInt_small 6 (by omega) _ (by omega) (by omega)]
  rw [hc, w1_un_pk]
  have e := fin_congr a (by omega : 4 * (i.1 / 4) + i.1 % 4 < 256) i.2 (by omega)
  simp only [e, Fin.eta]
  have := ha i
  exact toInt_small 6 (by omega) _ (by omega) (by omega)

/-! ## Encoding a decoding -/

theorem take_ofFn (b : Bytes) (n : Nat) (h : n ≤ b.length) (f : Fin n → UInt8) (hf : ∀ i, f i = UInt8.ofBitVec (at8 C b i.1)) :
    List.ofFn f = b.take n := by
  apply List.ext_getElem
  · simp [h]
  · intro i h1 h2
    simp only [List.length_ofFn] at h1
    rw [List.getElem_ofFn, hf, List.getElem_take]
    unfold at8
    rw [List.getD_eq_getElem _ _ (by omega)]

theorem polyz_pk_un (b : Bytes) (h : 576 ≤ b.length) : polyzPack C (polyzUnpack C b) = b.take 576 := by
  unfold polyzPack
  apply take_ofFn (C := C) b 576 h
  intro i
  have hi := i.2
  have hc : (fun m : Fin 4 => BitVec.ofInt 32 (C.i32 (GAMMA1 - polyzUnpack C b ⟨4 * (i.1 / 9) + m.1, by omega⟩)))
      = zUnpackChunk fun j => at8 C b (9 * (i.1 / 9) + j.1) := by
    funext m
    unfold polyzUnpack
    have h1 : (4 * (i.1 / 9) + m.1) / 4 = i.1 / 9 := by omega
    have h2 : (4 * (i.1 / 9) + m.1) % 4 = m.1 := by omega
    simp only [h1, h2, Fin.eta]
    have hr := z_un_range (fun j => at8 C b (9 * (i.1 / 9) + j.1)) m
    simp only [GAMMA1]
    rw [C.i32_id (131072 - (zUnpackChunk (fun j => at8 C b (9 * (i.1 / 9) + j.1)) m).toInt) (by omega) (by omega),
      C.i32_id _ (by omega) (by omega), Int.sub_sub_self, BitVec.ofInt_toInt]
  rw [hc, z_pk_un]
  congr 2
  show 9 * (i.1 / 9) + i.1 % 9 = i.1
  omega

theorem polyt1_pk_un (b : Bytes) (h : 320 ≤ b.length) : polyt1Pack (polyt1Unpack C b) = b.take 320 := by
  unfold polyt1Pack
  apply take_ofFn (C := C) b 320 h
  intro i
  have hi := i.2
  have hc : (fun m : Fin 4 => BitVec.ofInt 32 (polyt1Unpack C b ⟨4 * (i.1 / 5) + m.1, by omega⟩))
      = t1UnpackChunk fun j => at8 C b (5 * (i.1 / 5) + j.1) := by
    funext m
    unfold polyt1Unpack
    have h1 : (4 * (i.1 / 5) + m.1) / 4 = i.1 / 5 := by omega
    have h2 : (4 * (i.1 / 5) + m.1) % 4 = m.1 := by omega
    simp only [h1, h2, Fin.eta]
    rw [BitVec.ofInt_toInt]
  rw [hc, t1_pk_un]
  congr 2
  show 5 * (i.1 / 5) + i.1 % 5 = i.1
  omega

theorem polyt0_pk_un (b : Bytes) (h : 416 ≤ b.length) : polyt0Pack C (polyt0Unpack C b) = b.take 416 := by
  unfold polyt0Pack
  apply take_ofFn (C := C) b 416 h
  intro i
  have hi := i.2
  have hc : (fun m : Fin 8 => BitVec.ofInt 32 (C.i32 (4096 - polyt0Unpack C b ⟨8 * (i.1 / 13) + m.1, by omega⟩)))
      = t0UnpackChunk fun j => at8 C b (13 * (i.1 / 13) + j.1) := by
    funext m
    unfold polyt0Unpack
    have h1 : (8 * (i.1 / 13) + m.1) / 8 = i.1 / 13 := by omega
    have h2 : (8 * (i.1 / 13) + m.1) % 8 = m.1 := by omega
    simp only [h1, h2, Fin.eta]
    have hr := t0_un_range (fun j => at8 C b (13 * (i.1 / 13) + j.1)) m
    rw [C.i32_id (4096 - (t0UnpackChunk (fun j => at8 C b (13 * (i.1 / 13) + j.1)) m).toInt) (by omega) (by omega),
      C.i32_id _ (by omega) (by omega), Int.sub_sub_self, BitVec.ofInt_toInt]
  rw [hc, t0_pk_un]
  congr 2
  show 13 * (i.1 / 13) + i.1 % 13 = i.1
  omega

theorem ofInt8_toInt32 (x : W32) : BitVec.ofInt 8 x.toInt = low x := by
  apply BitVec.eq_of_toInt_eq
  rw [BitVec.toInt_ofInt, BitVec.toInt_setWidth, BitVec.toInt_eq_toNat_bmod, Int.bmod_bmod_of_dvd (by decide)]

theorem polyeta_pk_un (b : Bytes) (h : 96 ≤ b.length) : polyetaPack C (polyetaUnpack C b) = b.take 96 := by
  unfold polyetaPack
  apply take_ofFn (C := C) b 96 h
  intro i
  have hi := i.2
  have hc : (fun m : Fin 8 => BitVec.ofInt 8 (C.i32 (ETA - polyetaUnpack C b ⟨8 * (i.1 / 3) + m.1, by omega⟩)))
      = fun m => low (etaUnpackChunk (fun j => at8 C b (3 * (i.1 / 3) + j.1)) m) := by
    funext m
    unfold polyetaUnpack
    have h1 : (8 * (i.1 / 3) + m.1) / 8 = i.1 / 3 := by omega
    have h2 : (8 * (i.1 / 3) + m.1) % 8 = m.1 := by omega
    simp only [h1, h2, Fin.eta]
    have hr := eta_un_range (fun j => at8 C b (3 * (i.1 / 3) + j.1)) m
    simp only [ETA]
    rw [C.i32_id (2 - (etaUnpackChunk (fun j => at8 C b (3 * (i.1 / 3) + j.1)) m).toInt) (by omega) (by omega),
      C.i32_id _ (by omega) (by omega), Int.sub_sub_self, ofInt8_toInt32]
  rw [hc, eta_pk_un]
  congr 2
  show 3 * (i.1 / 3) + i.1 % 3 = i.1
  omega

theorem polyetaPack_len (a : Poly) : (polyetaPack C a).length = 96 := by unfold polyetaPack; exact List.length_ofFn
theorem polyt1Pack_len (a : Poly) : (polyt1Pack a).length = 320 := by unfold polyt1Pack; exact List.length_ofFn
theorem polyt0Pack_len (a : Poly) : (polyt0Pack C a).length = 416 := by unfold polyt0Pack; exact List.length_ofFn
theorem polyzPack_len (a : Poly) : (polyzPack C a).length = 576 := by unfold polyzPack; exact List.length_ofFn
theorem polyw1Pack_len (a : Poly) : (polyw1Pack a).length = 192 := by unfold polyw1Pack; exact List.length_ofFn

end Verif.Dilithium
