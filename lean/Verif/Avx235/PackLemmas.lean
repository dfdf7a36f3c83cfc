import Verif.Avx235.Poly
import Verif.Avx2.PackLemmas
import Verif.Dilithium35.Formats

/-! # The vectorised packings of dilithium3 and dilithium5 are the portable ones -/

namespace Verif.Avx235

open Verif.Avx2 hiding zShuf zUnpackV polyzUnpackV w1Shuf w1PackV polyw1PackLoop polyw1PackV zShuf_spec zChunk_eq polyzUnpackV_int packedByte byteY_packed packedByte_lt wordY_packus w1PackV_byte polyw1PackLoop_spec polyw1PackV_spec tail_spec shift1_byte
open Verif.Dilithium (CSem U8 at8 low Poly)
open Verif.Dilithium35 (zUnpackChunk polyzUnpack w1PackChunk polyw1Pack z_bits z_un_range GAMMA1)

/-! ## polyz_unpack -/

theorem zShuf_spec : ∀ j : Fin 8, ∀ m : Fin 4, (byteY zShuf (4 * j.1 + m.1)).msb = decide (m = 3) ∧
    (m ≠ 3 → 8 * (0x94 / 4 ^ ((16 * ((4 * j.1 + m.1) / 16) + (byteY zShuf (4 * j.1 + m.1)).toNat % 16) / 8) % 4) +
      (16 * ((4 * j.1 + m.1) / 16) + (byteY zShuf (4 * j.1 + m.1)).toNat % 16) % 8 = 5 * (j.1 / 2) + (2 * (j.1 % 2) + m.1)) ∧
    (zShift j).toNat = 4 * (j.1 % 2) := by decide +kernel

set_option maxHeartbeats 4000000 in
theorem zChunk_eq (a : Fin 5 → U8) (k : Fin 2) :
    (ofBytes (a ⟨2 * k.1, by omega⟩) (a ⟨2 * k.1 + 1, by omega⟩) (a ⟨2 * k.1 + 2, by omega⟩) 0 >>> (4 * k.1)) &&& BitVec.ofInt 32 0xFFFFF = zUnpackChunk a k := by
  apply BitVec.eq_of_getLsbD_eq
  intro t ht
  rw [z_bits a k t ht]
  have hm : (BitVec.ofInt 32 0xFFFFF).getLsbD t = decide (t < 20) := by
    have : ∀ t : Fin 32, (BitVec.ofInt 32 0xFFFFF).getLsbD t.1 = decide (t.1 < 20) := by decide +kernel
    exact this ⟨t, ht⟩
  rw [BitVec.getLsbD_and, hm, Bool.and_comm]
  by_cases h : t < 20
  · rw [decide_eq_true h, Bool.true_and, Bool.true_and, BitVec.getLsbD_ushiftRight, dif_pos (by omega)]
    unfold ofBytes
    rw [BitVec.getLsbD_append, BitVec.getLsbD_append, BitVec.getLsbD_append]
    obtain ⟨k, hk⟩ := k
    simp only
    have hq : (20 * k + t) / 8 = 2 * k + (4 * k + t) / 8 := by omega
    have hr : (20 * k + t) % 8 = (4 * k + t) % 8 := by omega
    by_cases h1 : 4 * k + t < 8
    · rw [if_pos h1]
      congr 1
      · congr 1; apply Fin.ext; show 2 * k = (20 * k + t) / 8; omega
      · omega
    · rw [if_neg h1]
      by_cases h2 : 4 * k + t - 8 < 8
      · rw [if_pos h2]
        congr 1
        · congr 1; apply Fin.ext; show 2 * k + 1 = (20 * k + t) / 8; omega
        · omega
      · rw [if_neg h2, if_pos (by omega)]
        congr 1
        · congr 1; apply Fin.ext; show 2 * k + 2 = (20 * k + t) / 8; omega
        · omega
  · rw [decide_eq_false h, Bool.false_and, Bool.false_and]

theorem polyzUnpackV_int {C : CSem} (m : Nat → UInt8) (b : Bytes) (hb : 640 ≤ b.length) (hm : ∀ k, k < 640 → m k = b.getD k 0) :
    ti (polyzUnpackV m) = polyzUnpack C b := by
  funext i
  obtain ⟨j, hj⟩ : ∃ j : Fin 8, j.1 = i.1 % 8 := ⟨⟨i.1 % 8, by omega⟩, rfl⟩
  have hbyte : ∀ q : Fin 4, (if (byteY zShuf (4 * j.1 + q.1)).msb then 0 else
      byteY (permute4x64 (loadu (fun k => (m k).toBitVec) (20 * (i.1 / 8))) 0x94) (16 * ((4 * j.1 + q.1) / 16) + (byteY zShuf (4 * j.1 + q.1)).toNat % 16)) =
      if q = 3 then 0 else (m (20 * (i.1 / 8) + (5 * (j.1 / 2) + (2 * (j.1 % 2) + q.1)))).toBitVec := by
    intro q
    obtain ⟨e1, e2, -⟩ := zShuf_spec j q
    rw [e1]
    by_cases h : q = 3
    · rw [if_pos (by simpa using h), if_pos h]
    · rw [if_neg (by simpa using h), if_neg h, byteY_permute _ _ _ (by omega), e2 h]
      unfold loadu
      rw [byteY_ofByteY _ _ (by omega)]
  have key : ∀ x0 x1 x2 x3 y0 y1 y2 y3 : BitVec 8, x0 = y0 → x1 = y1 → x2 = y2 → x3 = y3 → ofBytes x0 x1 x2 x3 = ofBytes y0 y1 y2 y3 := by
    rintro _ _ _ _ _ _ _ _ rfl rfl rfl rfl; rfl
  have base : ∀ q, q < 5 → (m (20 * (i.1 / 8) + (5 * (j.1 / 2) + q))).toBitVec = at8 C b (5 * (i.1 / 2) + q) := by
    intro q hq
    unfold at8
    rw [hm _ (by omega), show 20 * (i.1 / 8) + (5 * (j.1 / 2) + q) = 5 * (i.1 / 2) + q by omega, List.getD_eq_getElem _ _ (by omega), List.getD_eq_getElem _ _ (by omega)]
  have e : polyzUnpackV m i = BitVec.ofInt 32 524288 - ((ofBytes (m (20 * (i.1 / 8) + (5 * (j.1 / 2) + (2 * (j.1 % 2) + 0)))).toBitVec
      (m (20 * (i.1 / 8) + (5 * (j.1 / 2) + (2 * (j.1 % 2) + 1)))).toBitVec (m (20 * (i.1 / 8) + (5 * (j.1 / 2) + (2 * (j.1 % 2) + 2)))).toBitVec 0 >>>
      (4 * (j.1 % 2))) &&& BitVec.ofInt 32 0xFFFFF) := by
    have hi : (⟨i.1 % 8, by omega⟩ : Fin 8) = j := Fin.ext hj.symm
    show zUnpackV m (i.1 / 8) ⟨i.1 % 8, _⟩ = _
    rw [hi]
    show _ - ((ofBytes _ _ _ _ >>> (zShift j).toNat) &&& _) = _
    have b0' := (hbyte 0).trans (if_neg (by decide)); have b1' := (hbyte 1).trans (if_neg (by decide)); have b2' := (hbyte 2).trans (if_neg (by decide))
    have b3' := (hbyte 3).trans (if_pos rfl)
    rw [(zShuf_spec j 0).2.2]
    exact congrArg (fun x : W32 => BitVec.ofInt 32 524288 - ((x >>> (4 * (j.1 % 2))) &&& BitVec.ofInt 32 0xFFFFF)) (key _ _ _ _ _ _ _ _ b0' b1' b2' b3')
  have hz := zChunk_eq (fun q : Fin 5 => at8 C b (5 * (i.1 / 2) + q.1)) ⟨i.1 % 2, by omega⟩
  simp only at hz
  rw [base _ (by omega), base _ (by omega), base _ (by omega), show j.1 % 2 = i.1 % 2 by omega, Nat.add_zero, hz] at e
  unfold ti polyzUnpack
  rw [e]
  have hr := z_un_range (fun q : Fin 5 => at8 C b (5 * (i.1 / 2) + q.1)) ⟨i.1 % 2, by omega⟩
  generalize zUnpackChunk (fun q : Fin 5 => at8 C b (5 * (i.1 / 2) + q.1)) ⟨i.1 % 2, by omega⟩ = z at *
  simp only [GAMMA1]
  rw [C.i32_id _ (by omega) (by omega), toInt_sub_of _ _ (by
    have : (BitVec.ofInt 32 524288).toInt = 524288 := by decide
    rw [this]; omega) (by
    have : (BitVec.ofInt 32 524288).toInt = 524288 := by decide
    rw [this]; omega)]
  rfl

/-! ## polyw1_pack -/

theorem wordY_packus (a b : Ymm) (ha : ∀ j, (a j).toNat < 16) (hb : ∀ j, (b j).toNat < 16) (k : Nat) (hk : k < 16) :
    wordY (packusEpi32 a b) k = BitVec.ofNat 16 (if k % 8 < 4 then (a (Fin.ofNat 8 (4 * (k / 8) + k % 4))).toNat else (b (Fin.ofNat 8 (4 * (k / 8) + k % 4))).toNat) :=
  Avx2.wordY_packus a b (fun j => by have := ha j; omega) (fun j => by have := hb j; omega) k hk

/-- Byte `k` of four vectors packed to bytes. -/
abbrev packedByte (f : Fin 4 → Ymm) (k : Nat) : Nat := Avx2.packedByte f k

theorem shift_byte : ∀ k : Fin 16, (byteY (set1w ((16 <<< 8) + 1)) (2 * k.1)).toInt = 1 ∧ (byteY (set1w ((16 <<< 8) + 1)) (2 * k.1 + 1)).toInt = 16 := by decide +kernel

theorem maddubs_word (p : Ymm) (x : Nat → Nat) (hx : ∀ k, x k < 16) (hp : ∀ k, k < 32 → (byteY p k).toNat = x k) (k : Nat) (hk : k < 16) :
    wordY (maddubs p (set1w ((16 <<< 8) + 1))) k = BitVec.ofNat 16 (x (2 * k) + 16 * x (2 * k + 1)) := by
  unfold maddubs
  rw [wordY_ofWordY _ _ hk]
  obtain ⟨s1, s2⟩ := shift_byte ⟨k, hk⟩
  simp only at s1 s2
  rw [s1, s2, hp _ (by omega), hp _ (by omega)]
  have h1 := hx (2 * k); have h2 := hx (2 * k + 1)
  have := satS16_id (x (2 * k) + 16 * x (2 * k + 1)) (by omega)
  rw [← this]
  congr 1
  push_cast
  ring

theorem satU8_ofNat (x : Nat) (hx : x < 256) : (satU8 (BitVec.ofNat 16 x).toInt).toNat = x := by
  have e : (BitVec.ofNat 16 x).toNat = x := by rw [BitVec.toNat_ofNat]; omega
  rw [toInt_small _ (by omega), e, satU8_id _ (by omega), BitVec.toNat_ofNat]; omega

theorem byteY_permuteD8 (v : Ymm) : ∀ k, k < 32 → byteY (permute4x64 v 0xD8) k = byteY v (8 * (0xD8 / 4 ^ (k / 8) % 4) + k % 8) := fun k hk => byteY_permute _ _ _ hk

/-- Where the last two shuffles take byte `n` from: half (`0`: from the first four vectors), word. -/
theorem tail_spec : ∀ n : Fin 32, (byteY w1Shuf n.1).msb = false ∧
    let q := 16 * (n.1 / 16) + (byteY w1Shuf n.1).toNat % 16
    let s := 8 * (0xD8 / 4 ^ (q / 8) % 4) + q % 8
    s < 32 ∧ (if s % 16 < 8 then n.1 / 16 = 0 else n.1 / 16 = 1) ∧
    (2 * (8 * (s / 16) + s % 8)) % 16 / 4 = n.1 / 4 % 4 ∧ 4 * ((2 * (8 * (s / 16) + s % 8)) / 16) + (2 * (8 * (s / 16) + s % 8)) % 4 = 2 * (n.1 % 4) ∧
    (2 * (8 * (s / 16) + s % 8) + 1) % 16 / 4 = n.1 / 4 % 4 ∧ 4 * ((2 * (8 * (s / 16) + s % 8) + 1) / 16) + (2 * (8 * (s / 16) + s % 8) + 1) % 4 = 2 * (n.1 % 4) + 1 := by
  decide +kernel

theorem mod_lo (n : Nat) (h : n / 16 = 0) : n / 4 % 4 % 4 = n / 4 % 8 := by omega
theorem mod_hi (n : Nat) (h : n / 16 = 1) : 4 + n / 4 % 4 % 4 = n / 4 % 8 := by omega

/-- Byte `n < 32` of the stored vector: two lanes of vector `n / 4`. -/
theorem w1PackV_byte (f : Fin 8 → Ymm) (hf : ∀ v j, (f v j).toNat < 16) (n : Nat) (hn : n < 32) :
    (byteY (w1PackV f) n).toNat = (f (Fin.ofNat 8 (n / 4)) (Fin.ofNat 8 (2 * (n % 4)))).toNat + 16 * (f (Fin.ofNat 8 (n / 4)) (Fin.ofNat 8 (2 * (n % 4) + 1))).toNat := by
  have hp : ∀ (g : Fin 4 → Ymm), (∀ v j, (g v j).toNat < 16) → ∀ k, k < 16 →
      wordY (maddubs (packusEpi16 (packusEpi32 (g 0) (g 1)) (packusEpi32 (g 2) (g 3))) (set1w ((16 <<< 8) + 1))) k =
      BitVec.ofNat 16 (packedByte g (2 * k) + 16 * packedByte g (2 * k + 1)) := by
    intro g hg k hk
    exact maddubs_word _ (packedByte g) (fun k => hg _ _) (fun k hk => Avx2.byteY_packed g (fun v j => by have := hg v j; omega) k hk) k hk
  have A := hp (fun v => f (v.castLE (by omega))) (fun v j => hf _ _)
  have B := hp (fun v => f (Fin.natAdd 4 v)) (fun v j => hf _ _)
  obtain ⟨t0, t1, t2, t3, t4, t5, t6⟩ := tail_spec ⟨n, hn⟩
  simp only at t0 t1 t2 t3 t4 t5 t6
  show (byteY (shuffleEpi8 (permute4x64 (packusEpi16 (maddubs (packusEpi16 (packusEpi32 (f 0) (f 1)) (packusEpi32 (f 2) (f 3))) (set1w ((16 <<< 8) + 1)))
    (maddubs (packusEpi16 (packusEpi32 (f 4) (f 5)) (packusEpi32 (f 6) (f 7))) (set1w ((16 <<< 8) + 1)))) 0xD8) w1Shuf) n).toNat = _
  change ∀ k, k < 16 → wordY (maddubs (packusEpi16 (packusEpi32 (f 0) (f 1)) (packusEpi32 (f 2) (f 3))) (set1w ((16 <<< 8) + 1))) k = _ at A
  change ∀ k, k < 16 → wordY (maddubs (packusEpi16 (packusEpi32 (f 4) (f 5)) (packusEpi32 (f 6) (f 7))) (set1w ((16 <<< 8) + 1))) k = _ at B
  generalize maddubs (packusEpi16 (packusEpi32 (f 0) (f 1)) (packusEpi32 (f 2) (f 3))) (set1w ((16 <<< 8) + 1)) = a at *
  generalize maddubs (packusEpi16 (packusEpi32 (f 4) (f 5)) (packusEpi32 (f 6) (f 7))) (set1w ((16 <<< 8) + 1)) = b at *
  unfold shuffleEpi8
  rw [byteY_ofByteY _ _ (by omega), t0, if_neg (by decide), byteY_permuteD8 _ _ (by omega)]
  generalize 8 * (0xD8 / 4 ^ ((16 * (n / 16) + (byteY w1Shuf n).toNat % 16) / 8) % 4) + (16 * (n / 16) + (byteY w1Shuf n).toNat % 16) % 8 = s at *
  unfold packusEpi16
  rw [byteY_ofByteY _ _ t1]
  have val : ∀ (g : Fin 4 → Ymm), (∀ v j, (g v j).toNat < 16) → (satU8 (BitVec.ofNat 16 (packedByte g (2 * (8 * (s / 16) + s % 8)) + 16 * packedByte g (2 * (8 * (s / 16) + s % 8) + 1))).toInt).toNat =
      (g (Fin.ofNat 4 (n / 4 % 4)) (Fin.ofNat 8 (2 * (n % 4)))).toNat + 16 * (g (Fin.ofNat 4 (n / 4 % 4)) (Fin.ofNat 8 (2 * (n % 4) + 1))).toNat := by
    intro g hg
    have h1 : packedByte g (2 * (8 * (s / 16) + s % 8)) < 16 := hg _ _
    have h2 : packedByte g (2 * (8 * (s / 16) + s % 8) + 1) < 16 := hg _ _
    rw [satU8_ofNat _ (by omega)]
    show (Avx2.packedByte g _) + 16 * (Avx2.packedByte g _) = _
    unfold Avx2.packedByte
    rw [t3, t4, t5, t6]
  by_cases h : s % 16 < 8
  · rw [if_pos h] at t2
    rw [if_pos h, A _ (by omega), val (fun v => f (v.castLE (by omega))) (fun v j => hf _ _)]
    have e : (Fin.ofNat 4 (n / 4 % 4)).castLE (by omega) = Fin.ofNat 8 (n / 4) := Fin.ext (mod_lo n (by omega))
    simp only [e]
  · rw [if_neg h] at t2
    rw [if_neg h, B _ (by omega), val (fun v => f (Fin.natAdd 4 v)) (fun v j => hf _ _)]
    have e : Fin.natAdd 4 (Fin.ofNat 4 (n / 4 % 4)) = Fin.ofNat 8 (n / 4) := Fin.ext (mod_hi n (by omega))
    simp only [e]

theorem w1_tab : ∀ x y : Fin 16, (low (BitVec.ofNat 32 x.1 ||| (BitVec.ofNat 32 y.1 <<< 4)) : BitVec 8).toNat = x.1 + 16 * y.1 := by decide +kernel

theorem w1_byte (g : Fin 2 → Dilithium.W32) : (UInt8.ofBitVec (w1PackChunk g 0)).toNat = (low (g 0 ||| (g 1 <<< 4)) : BitVec 8).toNat := rfl

theorem polyw1PackLoop_spec (r : Nat → UInt8) (off : Nat) (a : VPoly) (ha : ∀ i, 0 ≤ ti a i ∧ ti a i < 16) (i : Nat) (hi : i ≤ 4) :
    (∀ n, n < 32 * i → polyw1PackLoop r off a i (off + n) = (polyw1Pack (ti a)).getD n 0) ∧
    (∀ n, n < off ∨ (off + 32 * i ≤ n) → polyw1PackLoop r off a i n = r n) := by
  have hlen : (polyw1Pack (ti a)).length = 128 := by unfold polyw1Pack; rw [List.length_ofFn]
  have hnat : ∀ i, (a i).toNat < 16 ∧ ((a i).toNat : Int) = ti a i := by
    intro i
    have h : 0 ≤ (a i).toInt ∧ (a i).toInt < 16 := ha i
    have e := BitVec.toInt_eq_toNat_cond (a i)
    have hlt := (a i).isLt
    by_cases hc : 2 * (a i).toNat < 2 ^ 32
    · rw [if_pos hc] at e
      exact ⟨by omega, e.symm⟩
    · rw [if_neg hc] at e
      omega
  induction i with
  | zero => exact ⟨fun n h => absurd h (by omega), fun _ _ => rfl⟩
  | succ i ih =>
    obtain ⟨h1, h2⟩ := ih (by omega)
    refine ⟨fun n hn => ?_, fun n hn => ?_⟩
    · show store32 _ _ _ _ = _
      unfold store32
      by_cases hlt : n < 32 * i
      · rw [if_neg (by omega)]; exact h1 n hlt
      · rw [if_pos (by omega), show off + n - (off + 32 * i) = n - 32 * i by omega]
        have hb := w1PackV_byte (fun v => ldv a (8 * i + v.1)) (fun v j => (hnat _).1) (n - 32 * i) (by omega)
        apply UInt8.toNat_inj.1
        refine hb.trans ?_
        rw [List.getD_eq_getElem _ _ (by omega)]
        unfold polyw1Pack
        rw [List.getElem_ofFn]
        have hv : (Fin.ofNat 8 ((n - 32 * i) / 4)).1 = (n - 32 * i) / 4 := by show (n - 32 * i) / 4 % 8 = _; omega
        have lane : ∀ m, m < 2 → ∀ h, (ldv a (8 * i + (Fin.ofNat 8 ((n - 32 * i) / 4)).1) (Fin.ofNat 8 (2 * ((n - 32 * i) % 4) + m))) = a ⟨2 * (n / 1) + m, h⟩ := by
          intro m hm h
          rw [hv]
          unfold ldv
          congr 1
          apply Fin.ext
          show (8 * (8 * i + (n - 32 * i) / 4) + (2 * ((n - 32 * i) % 4) + m) % 8) % 256 = 2 * (n / 1) + m
          rw [Nat.div_one]
          omega
        have l0 := lane 0 (by omega) (by rw [Nat.div_one]; omega)
        rw [Nat.add_zero] at l0
        rw [l0, lane 1 (by omega) (by rw [Nat.div_one]; omega)]
        have hc := w1_tab ⟨_, (hnat ⟨2 * (n / 1) + 0, by rw [Nat.div_one]; omega⟩).1⟩ ⟨_, (hnat ⟨2 * (n / 1) + 1, by rw [Nat.div_one]; omega⟩).1⟩
        refine hc.symm.trans ?_
        have e : ∀ i, BitVec.ofNat 32 (a i).toNat = BitVec.ofInt 32 (ti a i) := fun i => by rw [← (hnat i).2]; rfl
        rw [e, e]
        have hz : (⟨n % 1, by omega⟩ : Fin 1) = 0 := by apply Fin.ext; show n % 1 = 0; omega
        rw [hz, w1_byte]
        rfl
    · show store32 _ _ _ _ = _
      unfold store32
      rw [if_neg (by omega)]
      exact h2 n (by omega)

/-- `polyw1_pack` writes the portable packing at `off … off + 127` and nothing else. -/
theorem polyw1PackV_spec (r : Nat → UInt8) (off : Nat) (a : VPoly) (ha : ∀ i, 0 ≤ ti a i ∧ ti a i < 16) :
    (∀ n, n < 128 → polyw1PackV r off a (off + n) = (polyw1Pack (ti a)).getD n 0) ∧ (∀ n, n < off ∨ off + 128 ≤ n → polyw1PackV r off a n = r n) :=
  polyw1PackLoop_spec r off a ha 4 (by omega)

end Verif.Avx235
