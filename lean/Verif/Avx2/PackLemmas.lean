import Verif.Avx2.Pack
import Verif.Avx2.RejLemmas
import Verif.Dilithium.BitSpec

/-! # The vectorised packings are the portable ones -/

namespace Verif.Avx2

open Verif.Dilithium

/-! ## polyz_unpack -/

theorem zShuf_spec : ∀ j : Fin 8, ∀ m : Fin 4, (byteY zShuf (4 * j.1 + m.1)).msb = decide (m = 3) ∧
    (m ≠ 3 → 8 * (0x94 / 4 ^ ((16 * ((4 * j.1 + m.1) / 16) + (byteY zShuf (4 * j.1 + m.1)).toNat % 16) / 8) % 4) +
      (16 * ((4 * j.1 + m.1) / 16) + (byteY zShuf (4 * j.1 + m.1)).toNat % 16) % 8 = 9 * (j.1 / 4) + (2 * (j.1 % 4) + m.1)) ∧
    ((setEpi32 [6, 4, 2, 0, 6, 4, 2, 0]) j).toNat = 2 * (j.1 % 4) := by decide +kernel

set_option maxHeartbeats 4000000 in
theorem zChunk_eq (a : Fin 9 → U8) (k : Fin 4) :
    (ofBytes (a ⟨2 * k.1, by omega⟩) (a ⟨2 * k.1 + 1, by omega⟩) (a ⟨2 * k.1 + 2, by omega⟩) 0 >>> (2 * k.1)) &&& BitVec.ofInt 32 0x3FFFF = zUnpackChunk a k := by
  apply BitVec.eq_of_getLsbD_eq
  intro t ht
  rw [z_bits a k t ht]
  have hm : (BitVec.ofInt 32 0x3FFFF).getLsbD t = decide (t < 18) := by
    have : ∀ t : Fin 32, (BitVec.ofInt 32 0x3FFFF).getLsbD t.1 = decide (t.1 < 18) := by decide +kernel
    exact this ⟨t, ht⟩
  rw [BitVec.getLsbD_and, hm, Bool.and_comm]
  by_cases h : t < 18
  · rw [decide_eq_true h, Bool.true_and, Bool.true_and, BitVec.getLsbD_ushiftRight, dif_pos (by omega)]
    unfold ofBytes
    rw [BitVec.getLsbD_append, BitVec.getLsbD_append, BitVec.getLsbD_append]
    obtain ⟨k, hk⟩ := k
    simp only
    have hq : (18 * k + t) / 8 = 2 * k + (2 * k + t) / 8 := by omega
    have hr : (18 * k + t) % 8 = (2 * k + t) % 8 := by omega
    by_cases h1 : 2 * k + t < 8
    · rw [if_pos h1]
      congr 1
      · congr 1; apply Fin.ext; show 2 * k = (18 * k + t) / 8; omega
      · omega
    · rw [if_neg h1]
      by_cases h2 : 2 * k + t - 8 < 8
      · rw [if_pos h2]
        congr 1
        · congr 1; apply Fin.ext; show 2 * k + 1 = (18 * k + t) / 8; omega
        · omega
      · rw [if_neg h2, if_pos (by omega)]
        congr 1
        · congr 1; apply Fin.ext; show 2 * k + 2 = (18 * k + t) / 8; omega
        · omega
  · rw [decide_eq_false h, Bool.false_and, Bool.false_and]

theorem polyzUnpackV_int {C : CSem} (m : Nat → UInt8) (b : Bytes) (hb : 576 ≤ b.length) (hm : ∀ k, k < 576 → m k = b.getD k 0) :
    ti (polyzUnpackV m) = polyzUnpack C b := by
  funext i
  obtain ⟨j, hj⟩ : ∃ j : Fin 8, j.1 = i.1 % 8 := ⟨⟨i.1 % 8, by omega⟩, rfl⟩
  have hbyte : ∀ q : Fin 4, (if (byteY zShuf (4 * j.1 + q.1)).msb then 0 else
      byteY (permute4x64 (loadu (fun k => (m k).toBitVec) (18 * (i.1 / 8))) 0x94) (16 * ((4 * j.1 + q.1) / 16) + (byteY zShuf (4 * j.1 + q.1)).toNat % 16)) =
      if q = 3 then 0 else (m (18 * (i.1 / 8) + (9 * (j.1 / 4) + (2 * (j.1 % 4) + q.1)))).toBitVec := by
    intro q
    obtain ⟨e1, e2, -⟩ := zShuf_spec j q
    rw [e1]
    by_cases h : q = 3
    · rw [if_pos (by simpa using h), if_pos h]
    · rw [if_neg (by simpa using h), if_neg h, byteY_permute _ _ _ (by omega), e2 h]
      unfold loadu
      rw [byteY_ofByteY _ _ (by omega)]
  have key : ∀ x0 x1 x2 x3 y0 y1 y2 y3 : BitVec 8, x0 = y0 → x1 = y1 → x2 = y2 → x3 = y3 → ofBytes x0 x1 x2 x3 = ofBytes y0 y1 y2 y3 := by
    rintro _ _ _ _ _ _ _ _ rfl rfl rfl rfl; rfl
  have base : ∀ q, q < 9 → (m (18 * (i.1 / 8) + (9 * (j.1 / 4) + q))).toBitVec = at8 C b (9 * (i.1 / 4) + q) := by
    intro q hq
    unfold at8
    rw [hm _ (by omega), show 18 * (i.1 / 8) + (9 * (j.1 / 4) + q) = 9 * (i.1 / 4) + q by omega, List.getD_eq_getElem _ _ (by omega), List.getD_eq_getElem _ _ (by omega)]
  have e : polyzUnpackV m i = BitVec.ofInt 32 131072 - ((ofBytes (m (18 * (i.1 / 8) + (9 * (j.1 / 4) + (2 * (j.1 % 4) + 0)))).toBitVec
      (m (18 * (i.1 / 8) + (9 * (j.1 / 4) + (2 * (j.1 % 4) + 1)))).toBitVec (m (18 * (i.1 / 8) + (9 * (j.1 / 4) + (2 * (j.1 % 4) + 2)))).toBitVec 0 >>>
      (2 * (j.1 % 4))) &&& BitVec.ofInt 32 0x3FFFF) := by
    have hi : (⟨i.1 % 8, by omega⟩ : Fin 8) = j := Fin.ext hj.symm
    show zUnpackV m (i.1 / 8) ⟨i.1 % 8, _⟩ = _
    rw [hi]
    show _ - ((ofBytes _ _ _ _ >>> _) &&& _) = _
    have b0' := (hbyte 0).trans (if_neg (by decide)); have b1' := (hbyte 1).trans (if_neg (by decide)); have b2' := (hbyte 2).trans (if_neg (by decide))
    have b3' := (hbyte 3).trans (if_pos rfl)
    rw [(zShuf_spec j 0).2.2]
    exact congrArg (fun x : W32 => BitVec.ofInt 32 131072 - ((x >>> (2 * (j.1 % 4))) &&& BitVec.ofInt 32 0x3FFFF)) (key _ _ _ _ _ _ _ _ b0' b1' b2' b3')
  have hz := zChunk_eq (fun q : Fin 9 => at8 C b (9 * (i.1 / 4) + q.1)) ⟨i.1 % 4, by omega⟩
  simp only at hz
  rw [base _ (by omega), base _ (by omega), base _ (by omega), show j.1 % 4 = i.1 % 4 by omega, Nat.add_zero, hz] at e
  unfold ti polyzUnpack
  rw [e]
  have hr := z_un_range (fun q : Fin 9 => at8 C b (9 * (i.1 / 4) + q.1)) ⟨i.1 % 4, by omega⟩
  generalize zUnpackChunk (fun q : Fin 9 => at8 C b (9 * (i.1 / 4) + q.1)) ⟨i.1 % 4, by omega⟩ = z at *
  simp only [GAMMA1]
  rw [C.i32_id _ (by omega) (by omega), toInt_sub_of _ _ (by
    have : (BitVec.ofInt 32 131072).toInt = 131072 := by decide
    rw [this]; omega) (by
    have : (BitVec.ofInt 32 131072).toInt = 131072 := by decide
    rw [this]; omega)]
  rfl

/-! ## polyw1_pack -/

theorem wordY_ofWordY (f : Nat → BitVec 16) (k : Nat) (hk : k < 16) : wordY (ofWordY f) k = f k := by
  obtain ⟨q, m, hm, rfl⟩ : ∃ q m, m < 2 ∧ k = 2 * q + m := ⟨k / 2, k % 2, by omega, by omega⟩
  unfold wordY ofWordY
  have e1 : (Fin.ofNat 8 ((2 * q + m) / 2)).1 = q := by show (2 * q + m) / 2 % 8 = q; omega
  have e2 : (2 * q + m) % 2 = m := by omega
  rw [e1, e2]
  obtain ⟨c0, c1⟩ := wordOf_ofWords (f (2 * q)) (f (2 * q + 1))
  match m, hm with
  | 0, _ => exact c0
  | 1, _ => exact c1

theorem satU16_id (x : Nat) (h : x < 32768) : satU16 x = BitVec.ofNat 16 x := by
  unfold satU16
  rw [if_neg (by omega), if_neg (by omega)]; rfl

theorem satU8_id (x : Nat) (h : x < 256) : satU8 x = BitVec.ofNat 8 x := by
  unfold satU8
  rw [if_neg (by omega), if_neg (by omega)]; rfl

theorem satS16_id (x : Nat) (h : x < 32768) : satS16 x = BitVec.ofNat 16 x := by
  unfold satS16
  rw [if_neg (by omega), if_neg (by omega)]; rfl

theorem toInt_small {n : Nat} (x : BitVec n) (h : 2 * x.toNat < 2 ^ n) : x.toInt = x.toNat := by
  rw [BitVec.toInt_eq_toNat_cond, if_pos h]

theorem wordY_packus (a b : Ymm) (ha : ∀ j, (a j).toNat < 64) (hb : ∀ j, (b j).toNat < 64) (k : Nat) (hk : k < 16) :
    wordY (packusEpi32 a b) k = BitVec.ofNat 16 (if k % 8 < 4 then (a (Fin.ofNat 8 (4 * (k / 8) + k % 4))).toNat else (b (Fin.ofNat 8 (4 * (k / 8) + k % 4))).toNat) := by
  unfold packusEpi32
  rw [wordY_ofWordY _ _ hk]
  split
  · have := ha (Fin.ofNat 8 (4 * (k / 8) + k % 4))
    rw [toInt_small _ (by omega), satU16_id _ (by omega)]
  · have := hb (Fin.ofNat 8 (4 * (k / 8) + k % 4))
    rw [toInt_small _ (by omega), satU16_id _ (by omega)]

/-- Byte `k` of the four vectors packed to bytes. -/
def packedByte (f : Fin 4 → Ymm) (k : Nat) : Nat := (f (Fin.ofNat 4 (k % 16 / 4)) (Fin.ofNat 8 (4 * (k / 16) + k % 4))).toNat

theorem byteY_packed (f : Fin 4 → Ymm) (hf : ∀ v j, (f v j).toNat < 64) (k : Nat) (hk : k < 32) :
    (byteY (packusEpi16 (packusEpi32 (f 0) (f 1)) (packusEpi32 (f 2) (f 3))) k).toNat = packedByte f k := by
  unfold packusEpi16
  rw [byteY_ofByteY _ _ hk]
  unfold packedByte
  have fin : ∀ x y : Nat, x % 8 = y % 8 → Fin.ofNat 8 x = Fin.ofNat 8 y := fun x y h => Fin.ext h
  have aux : ∀ x : Nat, x < 64 → (satU8 (BitVec.ofNat 16 x).toInt).toNat = x := by
    intro x hx
    have e : (BitVec.ofNat 16 x).toNat = x := by rw [BitVec.toNat_ofNat]; omega
    rw [toInt_small _ (by omega), e, satU8_id _ (by omega), BitVec.toNat_ofNat]; omega
  have hm : k % 16 / 4 < 4 := by omega
  have e : Fin.ofNat 8 (4 * (k / 16) + k % 4) = Fin.ofNat 8 (4 * ((8 * (k / 16) + k % 8) / 8) + (8 * (k / 16) + k % 8) % 4) := fin _ _ (by omega)
  by_cases h8 : k % 16 < 8
  · rw [if_pos h8, wordY_packus _ _ (hf 0) (hf 1) _ (by omega), ← e]
    by_cases h4 : k % 16 < 4
    · rw [if_pos (by omega), aux _ (hf _ _), show k % 16 / 4 = 0 by omega]; rfl
    · rw [if_neg (by omega), aux _ (hf _ _), show k % 16 / 4 = 1 by omega]; rfl
  · rw [if_neg h8, wordY_packus _ _ (hf 2) (hf 3) _ (by omega), ← e]
    by_cases h4 : k % 16 < 12
    · rw [if_pos (by omega), aux _ (hf _ _), show k % 16 / 4 = 2 by omega]; rfl
    · rw [if_neg (by omega), aux _ (hf _ _), show k % 16 / 4 = 3 by omega]; rfl

theorem packedByte_lt (f : Fin 4 → Ymm) (hf : ∀ v j, (f v j).toNat < 64) (k : Nat) : packedByte f k < 64 := hf _ _

theorem shift1_byte : ∀ k : Fin 16, (byteY (set1w ((64 <<< 8) + 1)) (2 * k.1)).toInt = 1 ∧ (byteY (set1w ((64 <<< 8) + 1)) (2 * k.1 + 1)).toInt = 64 := by decide +kernel
theorem shift2_word : ∀ j : Fin 8, (wordOf (set1 ((4096 <<< 16) + 1) j) 0).toInt = 1 ∧ (wordOf (set1 ((4096 <<< 16) + 1) j) 1).toInt = 4096 := by decide +kernel

theorem wordOf_ofWordY (f : Nat → BitVec 16) (j : Fin 8) : wordOf (ofWordY f j) 0 = f (2 * j.1) ∧ wordOf (ofWordY f j) 1 = f (2 * j.1 + 1) := wordOf_ofWords _ _

/-- After the two multiply-adds, dword `d` holds four coefficients in 24 bits. -/
theorem madd_toNat (p : Ymm) (x : Nat → Nat) (hx : ∀ k, x k < 64) (hp : ∀ k, k < 32 → (byteY p k).toNat = x k) (d : Fin 8) :
    (maddEpi16 (maddubs p (set1w ((64 <<< 8) + 1))) (set1 ((4096 <<< 16) + 1)) d).toNat =
      x (4 * d.1) + 64 * x (4 * d.1 + 1) + 4096 * x (4 * d.1 + 2) + 262144 * x (4 * d.1 + 3) := by
  have hw : ∀ k (hk : k < 16), satS16 (((byteY p (2 * k)).toNat : Int) * (byteY (set1w ((64 <<< 8) + 1)) (2 * k)).toInt +
      ((byteY p (2 * k + 1)).toNat : Int) * (byteY (set1w ((64 <<< 8) + 1)) (2 * k + 1)).toInt) = BitVec.ofNat 16 (x (2 * k) + 64 * x (2 * k + 1)) := by
    intro k hk
    obtain ⟨s1, s2⟩ := shift1_byte ⟨k, hk⟩
    simp only at s1 s2
    rw [s1, s2, hp _ (by omega), hp _ (by omega)]
    have h1 := hx (2 * k); have h2 := hx (2 * k + 1)
    have := satS16_id (x (2 * k) + 64 * x (2 * k + 1)) (by omega)
    rw [← this]
    congr 1
    push_cast
    ring
  unfold maddEpi16 maddubs
  obtain ⟨w0, w1⟩ := wordOf_ofWordY (fun k => satS16 (((byteY p (2 * k)).toNat : Int) * (byteY (set1w ((64 <<< 8) + 1)) (2 * k)).toInt +
      ((byteY p (2 * k + 1)).toNat : Int) * (byteY (set1w ((64 <<< 8) + 1)) (2 * k + 1)).toInt)) d
  obtain ⟨t0, t1⟩ := shift2_word d
  rw [w0, w1, t0, t1, hw _ (by omega), hw _ (by omega)]
  have h0 := hx (4 * d.1); have h1 := hx (4 * d.1 + 1); have h2 := hx (4 * d.1 + 2); have h3 := hx (4 * d.1 + 3)
  rw [show 2 * (2 * d.1) = 4 * d.1 by omega, show 2 * (2 * d.1 + 1) = 4 * d.1 + 2 by omega]
  generalize x (4 * d.1) = x0 at *
  generalize x (4 * d.1 + 1) = x1 at *
  generalize x (4 * d.1 + 2) = x2 at *
  rw [show 4 * d.1 + 2 + 1 = 4 * d.1 + 3 by omega]
  generalize x (4 * d.1 + 3) = x3 at *
  have e1 : (BitVec.ofNat 16 (x0 + 64 * x1)).toInt = ((x0 + 64 * x1 : Nat) : Int) := by
    have e : (BitVec.ofNat 16 (x0 + 64 * x1)).toNat = x0 + 64 * x1 := by rw [BitVec.toNat_ofNat]; omega
    rw [toInt_small _ (by omega), e]
  have e2 : (BitVec.ofNat 16 (x2 + 64 * x3)).toInt = ((x2 + 64 * x3 : Nat) : Int) := by
    have e : (BitVec.ofNat 16 (x2 + 64 * x3)).toNat = x2 + 64 * x3 := by rw [BitVec.toNat_ofNat]; omega
    rw [toInt_small _ (by omega), e]
  rw [e1, e2, BitVec.toNat_ofInt]
  omega

theorem perm1_spec : ∀ g : Fin 8, ((setEpi32 [7, 3, 6, 2, 5, 1, 4, 0]) g).toNat % 8 = 4 * (g.1 % 2) + g.1 / 2 := by decide +kernel

theorem tail_spec : ∀ n : Fin 24, let q := (((setEpi32 [-1, -1, 6, 5, 4, 2, 1, 0]) (Fin.ofNat 8 (n.1 / 4))).toNat % 8)
    (byteY w1Shuf (4 * q + n.1 % 4)).msb = false ∧
    (16 * ((4 * q + n.1 % 4) / 16) + (byteY w1Shuf (4 * q + n.1 % 4)).toNat % 16) = 4 * (n.1 / 3) + n.1 % 3 := by decide +kernel

theorem byteY_permutevar (v idx : Ymm) (n : Nat) : byteY (permutevar v idx) n = byteY v (4 * ((idx (Fin.ofNat 8 (n / 4))).toNat % 8) + n % 4) := by
  unfold byteY permutevar
  rw [show (4 * ((idx (Fin.ofNat 8 (n / 4))).toNat % 8) + n % 4) % 4 = n % 4 by omega]
  congr 2
  apply Fin.ext
  show _ = (4 * ((idx (Fin.ofNat 8 (n / 4))).toNat % 8) + n % 4) / 4 % 8
  simp only
  omega

/-- Byte `n < 24` of the stored vector: byte `n % 3` of the 24-bit group `n / 3`; group `g` holds lanes `4 (g % 2) … + 3` of vector `g / 2`. -/
theorem w1PackV_byte (f : Fin 4 → Ymm) (hf : ∀ v j, (f v j).toNat < 64) (n : Nat) (hn : n < 24) :
    (byteY (w1PackV (f 0) (f 1) (f 2) (f 3)) n).toNat =
      ((f (Fin.ofNat 4 (n / 3 / 2)) (Fin.ofNat 8 (4 * (n / 3 % 2)))).toNat + 64 * (f (Fin.ofNat 4 (n / 3 / 2)) (Fin.ofNat 8 (4 * (n / 3 % 2) + 1))).toNat +
       4096 * (f (Fin.ofNat 4 (n / 3 / 2)) (Fin.ofNat 8 (4 * (n / 3 % 2) + 2))).toNat + 262144 * (f (Fin.ofNat 4 (n / 3 / 2)) (Fin.ofNat 8 (4 * (n / 3 % 2) + 3))).toNat) /
        256 ^ (n % 3) % 256 := by
  have hmadd := madd_toNat _ (packedByte f) (packedByte_lt f hf) (byteY_packed f hf)
  show (byteY (permutevar (shuffleEpi8 (permutevar (maddEpi16 (maddubs (packusEpi16 (packusEpi32 (f 0) (f 1)) (packusEpi32 (f 2) (f 3))) (set1w ((64 <<< 8) + 1)))
    (set1 ((4096 <<< 16) + 1))) (setEpi32 [7, 3, 6, 2, 5, 1, 4, 0])) w1Shuf) (setEpi32 [-1, -1, 6, 5, 4, 2, 1, 0])) n).toNat = _
  generalize maddEpi16 (maddubs (packusEpi16 (packusEpi32 (f 0) (f 1)) (packusEpi32 (f 2) (f 3))) (set1w ((64 <<< 8) + 1))) (set1 ((4096 <<< 16) + 1)) = D at *
  obtain ⟨t1, t2⟩ := tail_spec ⟨n, hn⟩
  simp only at t1 t2
  rw [byteY_permutevar]
  unfold shuffleEpi8
  rw [byteY_ofByteY _ _ (by omega), t1, t2, if_neg (by decide), byteY_permutevar, show (4 * (n / 3) + n % 3) / 4 = n / 3 by omega,
    show (4 * (n / 3) + n % 3) % 4 = n % 3 by omega]
  have hg := perm1_spec (Fin.ofNat 8 (n / 3))
  have hg1 : (Fin.ofNat 8 (n / 3)).1 = n / 3 := by show n / 3 % 8 = n / 3; omega
  rw [hg1] at hg
  rw [hg]
  unfold byteY
  rw [byteOf_toNat, show (4 * (4 * (n / 3 % 2) + n / 3 / 2) + n % 3) / 4 = 4 * (n / 3 % 2) + n / 3 / 2 by omega,
    show (4 * (4 * (n / 3 % 2) + n / 3 / 2) + n % 3) % 4 = n % 3 by omega, hmadd]
  have hd : (Fin.ofNat 8 (4 * (n / 3 % 2) + n / 3 / 2)).1 = 4 * (n / 3 % 2) + n / 3 / 2 := by show (4 * (n / 3 % 2) + n / 3 / 2) % 8 = _; omega
  rw [hd]
  have pb : ∀ m, m < 4 → packedByte f (4 * (4 * (n / 3 % 2) + n / 3 / 2) + m) = (f (Fin.ofNat 4 (n / 3 / 2)) (Fin.ofNat 8 (4 * (n / 3 % 2) + m))).toNat := by
    intro m hm
    unfold packedByte
    rw [show (4 * (4 * (n / 3 % 2) + n / 3 / 2) + m) % 16 / 4 = n / 3 / 2 by omega, show (4 * (4 * (n / 3 % 2) + n / 3 / 2) + m) / 16 = n / 3 % 2 by omega,
      show (4 * (4 * (n / 3 % 2) + n / 3 / 2) + m) % 4 = m by omega]
  have p0 := pb 0 (by omega)
  rw [Nat.add_zero, Nat.add_zero] at p0
  rw [p0, pb 1 (by omega), pb 2 (by omega), pb 3 (by omega)]

theorem w1_tab0 : ∀ x y : Fin 64, (low (BitVec.ofNat 32 x.1) ||| low (BitVec.ofNat 32 y.1 <<< 6) : BitVec 8).toNat = (x.1 + 64 * y.1) % 256 := by decide +kernel
theorem w1_tab1 : ∀ x y : Fin 64, (low ((BitVec.ofNat 32 x.1).sshiftRight 2) ||| low (BitVec.ofNat 32 y.1 <<< 4) : BitVec 8).toNat = (x.1 / 4 + 16 * y.1) % 256 := by decide +kernel
theorem w1_tab2 : ∀ x y : Fin 64, (low ((BitVec.ofNat 32 x.1).sshiftRight 4) ||| low (BitVec.ofNat 32 y.1 <<< 2) : BitVec 8).toNat = (x.1 / 16 + 4 * y.1) % 256 := by decide +kernel

/-- The portable chunk as a 24-bit number. -/
theorem w1Chunk_toNat (x : Fin 4 → Nat) (hx : ∀ m, x m < 64) (t : Fin 3) :
    (w1PackChunk (fun m => BitVec.ofNat 32 (x m)) t).toNat = (x 0 + 64 * x 1 + 4096 * x 2 + 262144 * x 3) / 256 ^ t.1 % 256 := by
  have h0 := hx 0; have h1 := hx 1; have h2 := hx 2; have h3 := hx 3
  unfold w1PackChunk
  match t with
  | 0 =>
    refine (w1_tab0 ⟨x 0, h0⟩ ⟨x 1, h1⟩).trans ?_
    show (x 0 + 64 * x 1) % 256 = _ / 256 ^ 0 % 256
    rw [pow_zero]; omega
  | 1 =>
    refine (w1_tab1 ⟨x 1, h1⟩ ⟨x 2, h2⟩).trans ?_
    show (x 1 / 4 + 16 * x 2) % 256 = _ / 256 ^ 1 % 256
    rw [pow_one]; omega
  | 2 =>
    refine (w1_tab2 ⟨x 2, h2⟩ ⟨x 3, h3⟩).trans ?_
    show (x 2 / 16 + 4 * x 3) % 256 = _ / 256 ^ 2 % 256
    rw [show 256 ^ 2 = 65536 by norm_num]; omega

theorem polyw1PackLoop_spec (r : Nat → UInt8) (off : Nat) (a : VPoly) (ha : ∀ i, 0 ≤ ti a i ∧ ti a i < 64) (i : Nat) (hi : i ≤ 8) :
    (∀ n, n < 24 * i → polyw1PackLoop r off a i (off + n) = (polyw1Pack (ti a)).getD n 0) ∧
    (∀ n, n < off ∨ (off + 24 * i + 8 ≤ n) → polyw1PackLoop r off a i n = r n) := by
  have hlen : (polyw1Pack (ti a)).length = 192 := by unfold polyw1Pack; rw [List.length_ofFn]
  have hnat : ∀ i, (a i).toNat < 64 ∧ ((a i).toNat : Int) = ti a i := by
    intro i
    have h : 0 ≤ (a i).toInt ∧ (a i).toInt < 64 := ha i
    have e := BitVec.toInt_eq_toNat_cond (a i)
    have hlt := (a i).isLt
    by_cases hc : 2 * (a i).toNat < 2 ^ 32
    · rw [if_pos hc] at e
      exact ⟨by omega, e.symm⟩
    · rw [if_neg hc] at e
      omega
  induction i with
  | zero => exact ⟨fun n h => absurd h (by omega), fun _ _ => rfl⟩
  | succ i ih =>
    obtain ⟨h1, h2⟩ := ih (by omega)
    refine ⟨fun n hn => ?_, fun n hn => ?_⟩
    · show store32 _ _ _ _ = _
      unfold store32
      by_cases hlt : n < 24 * i
      · rw [if_neg (by omega)]; exact h1 n hlt
      · rw [if_pos (by omega), show off + n - (off + 24 * i) = n - 24 * i by omega]
        have hb := w1PackV_byte (fun v => ldv a (4 * i + v.1)) (fun v j => (hnat _).1) (n - 24 * i) (by omega)
        apply UInt8.toNat_inj.1
        refine hb.trans ?_
        rw [List.getD_eq_getElem _ _ (by omega)]
        unfold polyw1Pack
        rw [List.getElem_ofFn]
        have hv : (Fin.ofNat 4 ((n - 24 * i) / 3 / 2)).1 = (n - 24 * i) / 3 / 2 := by show (n - 24 * i) / 3 / 2 % 4 = _; omega
        have lane : ∀ m, m < 4 → ∀ h, (ldv a (4 * i + (Fin.ofNat 4 ((n - 24 * i) / 3 / 2)).1) (Fin.ofNat 8 (4 * ((n - 24 * i) / 3 % 2) + m))) = a ⟨4 * (n / 3) + m, h⟩ := by
          intro m hm h
          rw [hv]
          unfold ldv
          congr 1
          apply Fin.ext
          show (8 * (4 * i + (n - 24 * i) / 3 / 2) + (4 * ((n - 24 * i) / 3 % 2) + m) % 8) % 256 = 4 * (n / 3) + m
          omega
        have l0 := lane 0 (by omega) (by omega)
        rw [Nat.add_zero] at l0
        rw [l0, lane 1 (by omega) (by omega), lane 2 (by omega) (by omega), lane 3 (by omega) (by omega), show (n - 24 * i) % 3 = n % 3 by omega]
        have hc := w1Chunk_toNat (fun m : Fin 4 => (a ⟨4 * (n / 3) + m.1, by omega⟩).toNat) (fun m => (hnat _).1) ⟨n % 3, by omega⟩
        refine Eq.trans ?_ (hc.symm.trans ?_)
        · rfl
        · have e : (fun m : Fin 4 => BitVec.ofNat 32 (a ⟨4 * (n / 3) + m.1, by omega⟩).toNat) = fun m : Fin 4 => BitVec.ofInt 32 (ti a ⟨4 * (n / 3) + m.1, by omega⟩) := by
            funext m
            rw [← (hnat _).2]; rfl
          rw [e]; rfl
    · show store32 _ _ _ _ = _
      unfold store32
      rw [if_neg (by omega)]
      exact h2 n (by omega)

/-- `polyw1_pack` writes the portable packing at `off … off + 191` and otherwise changes only the next 8 bytes. -/
theorem polyw1PackV_spec (r : Nat → UInt8) (off : Nat) (a : VPoly) (ha : ∀ i, 0 ≤ ti a i ∧ ti a i < 64) :
    (∀ n, n < 192 → polyw1PackV r off a (off + n) = (polyw1Pack (ti a)).getD n 0) ∧ (∀ n, n < off ∨ off + 200 ≤ n → polyw1PackV r off a n = r n) :=
  polyw1PackLoop_spec r off a ha 8 (by omega)

end Verif.Avx2
