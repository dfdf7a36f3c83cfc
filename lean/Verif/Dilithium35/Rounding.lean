import Verif.Dilithium35.Model
import Verif.Dilithium.Lin
import Verif.Dilithium.PackPoly

/-! # Rounding and packing of single polynomials in dilithium3 and dilithium5 -/

namespace Verif.Dilithium35

open Verif.Dilithium hiding decompose makeHint useHint GAMMA1 GAMMA2 zPackChunk zUnpackChunk polyzPack polyzUnpack w1PackChunk w1UnpackChunk polyw1Pack polyw1Unpack
  decompose_spec useHint_makeHint z_un_pk z_pk_un z_un_range polyzUnpack_range polyz_un_pk polyz_pk_un polyzPack_len polyw1Pack_len w1_un_pk polyw1_un_pk polyetaPack polyetaUnpack

variable {C : CSem}

set_option maxHeartbeats 1000000

theorem land15 {x : Int} (h : 0 ≤ x) : Int.land x 15 = x % 16 := by
  obtain ⟨k, rfl⟩ := Int.eq_ofNat_of_zero_le h
  show ((k &&& 15 : Nat) : Int) = _
  rw [show (15 : Nat) = 2 ^ 4 - 1 by norm_num, Nat.and_two_pow_sub_one_eq_mod]
  norm_num

theorem decompose_spec (a : Int) (h1 : 0 ≤ a) (h2 : a < Q) :
    0 ≤ (decompose C a).1 ∧ (decompose C a).1 ≤ 15 ∧
    ((a = (decompose C a).1 * 523776 + (decompose C a).2 ∧ -GAMMA2 < (decompose C a).2 ∧ (decompose C a).2 ≤ GAMMA2 ∧ a ≤ Q - 1 - GAMMA2) ∨
     ((decompose C a).1 = 0 ∧ (decompose C a).2 = a - Q ∧ Q - 1 - GAMMA2 < a)) := by
  unfold decompose
  simp only [Q, GAMMA2] at *
  rw [C.i32_id (a + 127) (by omega) (by omega), C.i32_id ((a + 127) / 128 * 1025) (by omega) (by omega),
    C.i32_id ((a + 127) / 128 * 1025 + 2097152) (by omega) (by omega)]
  have hv : 0 ≤ ((a + 127) / 128 * 1025 + 2097152) / 4194304 ∧ ((a + 127) / 128 * 1025 + 2097152) / 4194304 ≤ 16 := by omega
  have hlo : a - 523776 * (((a + 127) / 128 * 1025 + 2097152) / 4194304) ≤ 261888 := by omega
  have hhi : -261888 < a - 523776 * (((a + 127) / 128 * 1025 + 2097152) / 4194304) := by omega
  generalize ((a + 127) / 128 * 1025 + 2097152) / 4194304 = v at *
  rw [land15 hv.1]
  by_cases h16 : v = 16
  · subst h16
    have e : (16 : Int) % 16 = 0 := by omega
    rw [e, C.i32_id (0 * 2) (by omega) (by omega), C.i32_id (0 * 2 * 261888) (by omega) (by omega),
      C.i32_id (a - 0 * 2 * 261888) (by omega) (by omega), C.i32_id ((8380417 - 1) / 2 - (a - 0 * 2 * 261888)) (by omega) (by omega)]
    have e2 : ((8380417 - 1) / 2 - (a - 0 * 2 * 261888)) / 2147483648 = -1 := by omega
    rw [e2, land_neg_one, C.i32_id _ (by omega) (by omega)]
    omega
  · have e : v % 16 = v := by omega
    rw [e, C.i32_id (v * 2) (by omega) (by omega), C.i32_id (v * 2 * 261888) (by omega) (by omega),
      C.i32_id (a - v * 2 * 261888) (by omega) (by omega), C.i32_id ((8380417 - 1) / 2 - (a - v * 2 * 261888)) (by omega) (by omega)]
    have e2 : ((8380417 - 1) / 2 - (a - v * 2 * 261888)) / 2147483648 = 0 := by omega
    rw [e2, zero_land, Int.sub_zero, C.i32_id _ (by omega) (by omega)]
    omega

/-- The hint undoes the perturbation `v`. -/
theorem useHint_makeHint (a w1 v : Int) (h1 : 0 ≤ a) (h2 : a < Q) (hw1 : 0 ≤ w1) (hw2 : w1 ≤ 15) (hv1 : -523776 < v) (hv2 : v < 523776)
    (h : Q ∣ a - (w1 * 523776 + v)) : useHint C a (makeHint v w1) = w1 ∧ (makeHint v w1 = 0 ↔ (decompose C a).1 = w1) := by
  obtain ⟨t, ht⟩ := h
  have hd := decompose_spec (C := C) a h1 h2
  unfold useHint makeHint
  generalize hD : decompose C a = d at *
  obtain ⟨a1, a0⟩ := d
  simp only [Q, GAMMA2] at *
  have ht' : t = -1 ∨ t = 0 ∨ t = 1 := by omega
  have hi : ∀ x : Int, -1 ≤ x → x ≤ 50 → C.i32 x = x := fun x h1 h2 => C.i32_id x (by omega) (by omega)
  have key : (v > 261888 ∨ v < -261888 ∨ v = -261888 ∧ w1 ≠ 0) ∧ ((a0 > 0 ∧ (a1 + 1 = w1 ∨ (a1 = 15 ∧ w1 = 0))) ∨ (a0 ≤ 0 ∧ (a1 - 1 = w1 ∨ (a1 = 0 ∧ w1 = 15)))) ∨
      ¬ (v > 261888 ∨ v < -261888 ∨ v = -261888 ∧ w1 ≠ 0) ∧ a1 = w1 := by
    rcases ht' with rfl | rfl | rfl <;> omega
  rcases key with ⟨hc, hk⟩ | ⟨hc, hk⟩
  · rw [if_pos hc]
    refine ⟨?_, by omega⟩
    rw [if_neg (by decide)]
    rcases hk with ⟨h0, hk⟩ | ⟨h0, hk⟩
    · rw [if_pos h0, hi _ (by omega) (by omega), land15 (by omega)]
      omega
    · rw [if_neg (by omega), hi _ (by omega) (by omega)]
      rcases hk with hk | ⟨rfl, rfl⟩
      · rw [land15 (by omega)]; omega
      · rw [show (0 : Int) - 1 = -1 by norm_num, land_neg_one]
  · rw [if_neg hc, if_pos rfl]
    exact ⟨hk, by simp [hk]⟩

/-! ## Chunks -/

theorem eta4_un_pk (u : Fin 2 → BitVec 4) (k : Fin 2) : eta4UnpackChunk (eta4PackChunk fun j => (u j).setWidth 8) k = (u k).setWidth 32 := by
  unfold eta4UnpackChunk eta4PackChunk
  match k with
  | 0 | 1 => dsimp only [Matrix.cons_val]; bits

theorem eta4_pk_un (a : Fin 1 → U8) (k : Fin 1) : eta4PackChunk (fun j => low (eta4UnpackChunk a j)) k = a k := by
  unfold eta4UnpackChunk eta4PackChunk
  match k with
  | 0 => dsimp only [Matrix.cons_val]; bits

theorem z_un_pk (u : Fin 2 → BitVec 20) (k : Fin 2) : zUnpackChunk (zPackChunk fun j => (u j).setWidth 32) k = (u k).setWidth 32 := by
  unfold zUnpackChunk zPackChunk
  match k with
  | 0 | 1 => dsimp only [Matrix.cons_val]; bits

theorem z_pk_un (a : Fin 5 → U8) (k : Fin 5) : zPackChunk (zUnpackChunk a) k = a k := by
  unfold zUnpackChunk zPackChunk
  match k with
  | 0 | 1 | 2 | 3 | 4 => dsimp only [Matrix.cons_val]; bits

/-- A decoder for the 4-bit format of `polyw1_pack`, which the C code never needs. -/
def w1UnpackChunk (a : Fin 1 → U8) : Fin 2 → W32 := ![ext (a 0) &&& 0x0F, (ext (a 0) >>> 4) &&& 0x0F]

theorem w1_un_pk (u : Fin 2 → BitVec 4) (k : Fin 2) : w1UnpackChunk (w1PackChunk fun j => (u j).setWidth 32) k = (u k).setWidth 32 := by
  unfold w1UnpackChunk w1PackChunk
  match k with
  | 0 | 1 => dsimp only [Matrix.cons_val]; bits

theorem ext_shift4 (a : U8) : ext a >>> 4 = (ext a >>> 4) &&& BitVec.ofNat 32 15 := by bits

theorem eta4_un_range (a : Fin 1 → U8) (k : Fin 2) : 0 ≤ (eta4UnpackChunk a k).toInt ∧ (eta4UnpackChunk a k).toInt ≤ 15 := by
  unfold eta4UnpackChunk
  match k with
  | 0 => dsimp only [Matrix.cons_val]; exact toInt_and _ 15 (by decide)
  | 1 => dsimp only [Matrix.cons_val]; rw [ext_shift4]; exact toInt_and _ 15 (by decide)

theorem z_second (a b c : U8) : (ext a >>> 4) ||| (ext b <<< 4) ||| (ext c <<< 12) = ((ext a >>> 4) ||| (ext b <<< 4) ||| (ext c <<< 12)) &&& BitVec.ofNat 32 0xFFFFF := by bits

theorem z_un_range (a : Fin 5 → U8) (k : Fin 2) : 0 ≤ (zUnpackChunk a k).toInt ∧ (zUnpackChunk a k).toInt ≤ 1048575 := by
  unfold zUnpackChunk
  match k with
  | 0 => dsimp only [Matrix.cons_val]; exact toInt_and _ 0xFFFFF (by decide)
  | 1 => dsimp only [Matrix.cons_val]; rw [z_second]; exact toInt_and _ 0xFFFFF (by decide)

/-! ## Polynomials -/

theorem polyeta4Unpack_range (b : Bytes) (i : Fin 256) : -11 ≤ polyeta4Unpack C b i ∧ polyeta4Unpack C b i ≤ 4 := by
  unfold polyeta4Unpack
  have h := eta4_un_range (fun j => at8 C b (1 * (i.1 / 2) + j.1)) ⟨i.1 % 2, by omega⟩
  rw [C.i32_id _ (by omega) (by omega)]
  omega

theorem polyzUnpack_range (b : Bytes) (i : Fin 256) : -GAMMA1 < polyzUnpack C b i ∧ polyzUnpack C b i ≤ GAMMA1 := by
  unfold polyzUnpack
  have h := z_un_range (fun j => at8 C b (5 * (i.1 / 2) + j.1)) ⟨i.1 % 2, by omega⟩
  simp only [GAMMA1] at *
  rw [C.i32_id _ (by omega) (by omega)]
  omega

theorem polyeta4_un_pk (a : Poly) (rest : Bytes) (ha : ∀ i, -11 ≤ a i ∧ a i ≤ 4) : polyeta4Unpack C (polyeta4Pack C a ++ rest) = a := by
  funext i
  have hi := i.2
  unfold polyeta4Unpack polyeta4Pack
  have hc : (fun j : Fin 1 => at8 C (List.ofFn (fun i : Fin 128 => UInt8.ofBitVec
      (eta4PackChunk (fun m => BitVec.ofInt 8 (C.i32 (4 - a ⟨2 * (i.1 / 1) + m.1, by omega⟩))) ⟨i.1 % 1, by omega⟩)) ++ rest) (1 * (i.1 / 2) + j.1))
      = eta4PackChunk fun m : Fin 2 => (BitVec.ofNat 4 (4 - a ⟨2 * (i.1 / 2) + m.1, by omega⟩).toNat).setWidth 8 := by
    funext j
    rw [at8_ofFn _ _ _ (by omega : 1 * (i.1 / 2) + j.1 < 128)]
    have h1 : (1 * (i.1 / 2) + j.1) / 1 = i.1 / 2 := by omega
    have h2 : (1 * (i.1 / 2) + j.1) % 1 = j.1 := by omega
    simp only [h1, h2]
    congr 1
    funext m
    have := ha ⟨2 * (i.1 / 2) + m.1, by omega⟩
    rw [C.i32_id _ (by omega) (by omega), ofInt_small8 4 (by omega) _ (by omega) (by omega)]
  rw [hc, eta4_un_pk]
  have e := fin_congr a (by omega : 2 * (i.1 / 2) + i.1 % 2 < 256) i.2 (by omega)
  simp only [e, Fin.eta]
  have := ha i
  rw [toInt_small 4 (by omega) _ (by omega) (by omega), C.i32_id _ (by omega) (by omega)]
  omega

theorem polyz_un_pk (a : Poly) (rest : Bytes) (ha : ∀ i, -GAMMA1 < a i ∧ a i ≤ GAMMA1) : polyzUnpack C (polyzPack C a ++ rest) = a := by
  simp only [GAMMA1] at ha
  funext i
  have hi := i.2
  unfold polyzUnpack polyzPack
  have hc : (fun j : Fin 5 => at8 C (List.ofFn (fun i : Fin 640 => UInt8.ofBitVec
      (zPackChunk (fun m => BitVec.ofInt 32 (C.i32 (GAMMA1 - a ⟨2 * (i.1 / 5) + m.1, by omega⟩))) ⟨i.1 % 5, by omega⟩)) ++ rest) (5 * (i.1 / 2) + j.1))
      = zPackChunk fun m : Fin 2 => (BitVec.ofNat 20 (GAMMA1 - a ⟨2 * (i.1 / 2) + m.1, by omega⟩).toNat).setWidth 32 := by
    funext j
    rw [at8_ofFn _ _ _ (by omega : 5 * (i.1 / 2) + j.1 < 640)]
    have h1 : (5 * (i.1 / 2) + j.1) / 5 = i.1 / 2 := by omega
    have h2 : (5 * (i.1 / 2) + j.1) % 5 = j.1 := by omega
    simp only [h1, h2]
    congr 1
    funext m
    have := ha ⟨2 * (i.1 / 2) + m.1, by omega⟩
    simp only [GAMMA1]
    rw [C.i32_id _ (by omega) (by omega), ofInt_small 20 (by omega) _ (by omega) (by omega)]
  rw [hc, z_un_pk]
  have e := fin_congr a (by omega : 2 * (i.1 / 2) + i.1 % 2 < 256) i.2 (by omega)
  simp only [e, Fin.eta]
  have := ha i
  simp only [GAMMA1]
  rw [toInt_small 20 (by omega) _ (by omega) (by omega), C.i32_id _ (by omega) (by omega)]
  omega

/-- The 4-bit format, decoded. -/
def polyw1Unpack (C : CSem) (b : Bytes) : Poly := fun i =>
  (w1UnpackChunk (fun j => at8 C b (1 * (i.1 / 2) + j.1)) ⟨i.1 % 2, by omega⟩).toInt

theorem polyw1_un_pk (a : Poly) (rest : Bytes) (ha : ∀ i, 0 ≤ a i ∧ a i < 16) : polyw1Unpack C (polyw1Pack a ++ rest) = a := by
  funext i
  have hi := i.2
  unfold polyw1Unpack polyw1Pack
  have hc : (fun j : Fin 1 => at8 C (List.ofFn (fun i : Fin 128 => UInt8.ofBitVec
      (w1PackChunk (fun m => BitVec.ofInt 32 (a ⟨2 * (i.1 / 1) + m.1, by omega⟩)) ⟨i.1 % 1, by omega⟩)) ++ rest) (1 * (i.1 / 2) + j.1))
      = w1PackChunk fun m : Fin 2 => (BitVec.ofNat 4 (a ⟨2 * (i.1 / 2) + m.1, by omega⟩).toNat).setWidth 32 := by
    funext j
    rw [at8_ofFn _ _ _ (by omega : 1 * (i.1 / 2) + j.1 < 128)]
    have h1 : (1 * (i.1 / 2) + j.1) / 1 = i.1 / 2 := by omega
    have h2 : (1 * (i.1 / 2) + j.1) % 1 = j.1 := by omega
    simp only [h1, h2]
    congr 1
    funext m
    have := ha ⟨2 * (i.1 / 2) + m.1, by omega⟩
    rw [ofInt_small 4 (by omega) _ (by omega) (by omega)]
  rw [hc, w1_un_pk]
  have e := fin_congr a (by omega : 2 * (i.1 / 2) + i.1 % 2 < 256) i.2 (by omega)
  simp only [e, Fin.eta]
  have := ha i
  exact toInt_small 4 (by omega) _ (by omega) (by omega)

theorem polyz_pk_un (b : Bytes) (h : 640 ≤ b.length) : polyzPack C (polyzUnpack C b) = b.take 640 := by
  unfold polyzPack
  apply take_ofFn (C := C) b 640 h
  intro i
  have hi := i.2
  have hc : (fun m : Fin 2 => BitVec.ofInt 32 (C.i32 (GAMMA1 - polyzUnpack C b ⟨2 * (i.1 / 5) + m.1, by omega⟩)))
      = zUnpackChunk fun j => at8 C b (5 * (i.1 / 5) + j.1) := by
    funext m
    unfold polyzUnpack
    have h1 : (2 * (i.1 / 5) + m.1) / 2 = i.1 / 5 := by omega
    have h2 : (2 * (i.1 / 5) + m.1) % 2 = m.1 := by omega
    simp only [h1, h2, Fin.eta]
    have hr := z_un_range (fun j => at8 C b (5 * (i.1 / 5) + j.1)) m
    simp only [GAMMA1]
    rw [C.i32_id (524288 - (zUnpackChunk (fun j => at8 C b (5 * (i.1 / 5) + j.1)) m).toInt) (by omega) (by omega),
      C.i32_id _ (by omega) (by omega), Int.sub_sub_self, BitVec.ofInt_toInt]
  rw [hc, z_pk_un]
  congr 2
  show 5 * (i.1 / 5) + i.1 % 5 = i.1
  omega

theorem polyeta4_pk_un (b : Bytes) (h : 128 ≤ b.length) : polyeta4Pack C (polyeta4Unpack C b) = b.take 128 := by
  unfold polyeta4Pack
  apply take_ofFn (C := C) b 128 h
  intro i
  have hi := i.2
  have hc : (fun m : Fin 2 => BitVec.ofInt 8 (C.i32 (4 - polyeta4Unpack C b ⟨2 * (i.1 / 1) + m.1, by omega⟩)))
      = fun m => low (eta4UnpackChunk (fun j => at8 C b (1 * (i.1 / 1) + j.1)) m) := by
    funext m
    unfold polyeta4Unpack
    have h1 : (2 * (i.1 / 1) + m.1) / 2 = i.1 / 1 := by omega
    have h2 : (2 * (i.1 / 1) + m.1) % 2 = m.1 := by omega
    simp only [h1, h2, Fin.eta]
    have hr := eta4_un_range (fun j => at8 C b (1 * (i.1 / 1) + j.1)) m
    rw [C.i32_id (4 - (eta4UnpackChunk (fun j => at8 C b (1 * (i.1 / 1) + j.1)) m).toInt) (by omega) (by omega),
      C.i32_id _ (by omega) (by omega), Int.sub_sub_self, ofInt8_toInt32]
  rw [hc, eta4_pk_un]
  congr 2
  show 1 * (i.1 / 1) + i.1 % 1 = i.1
  omega

theorem polyeta4Pack_len (a : Poly) : (polyeta4Pack C a).length = 128 := by unfold polyeta4Pack; exact List.length_ofFn
theorem polyzPack_len (a : Poly) : (polyzPack C a).length = 640 := by unfold polyzPack; exact List.length_ofFn
theorem polyw1Pack_len (a : Poly) : (polyw1Pack a).length = 128 := by unfold polyw1Pack; exact List.length_ofFn

/-! ## The format of `s1` and `s2` -/

/-- The smallest coefficient that the format can hold. -/
abbrev Mode.etaMin : Mode → Int | .three => -11 | .five => -5

theorem polyetaPack_len (md : Mode) (a : Poly) : (polyetaPack md C a).length = md.ETABYTES := by
  cases md
  · exact polyeta4Pack_len a
  · exact Dilithium.polyetaPack_len a

theorem polyeta_un_pk (md : Mode) (a : Poly) (rest : Bytes) (ha : ∀ i, md.etaMin ≤ a i ∧ a i ≤ md.ETA) :
    polyetaUnpack md C (polyetaPack md C a ++ rest) = a := by
  cases md
  · exact polyeta4_un_pk a rest ha
  · exact Dilithium.polyeta_un_pk a rest ha

theorem polyeta_pk_un (md : Mode) (b : Bytes) (h : md.ETABYTES ≤ b.length) : polyetaPack md C (polyetaUnpack md C b) = b.take md.ETABYTES := by
  cases md
  · exact polyeta4_pk_un b h
  · exact Dilithium.polyeta_pk_un b h

theorem polyetaUnpack_range (md : Mode) (b : Bytes) (i : Fin 256) : md.etaMin ≤ polyetaUnpack md C b i ∧ polyetaUnpack md C b i ≤ md.ETA := by
  cases md
  · exact polyeta4Unpack_range b i
  · exact Dilithium.polyetaUnpack_range b i

end Verif.Dilithium35
