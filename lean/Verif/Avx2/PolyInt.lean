import Verif.Avx2.Poly
import Verif.Avx2.NttInt
import Verif.Dilithium.Refine

/-! # The coefficient-wise AVX2 functions as integer functions -/

namespace Verif.Avx2
open Verif.Dilithium

variable {C : CSem}

theorem qVec_apply (j : Fin 8) : qVec j = 8380417#32 := by fin_cases j <;> rfl

theorem toInt_mul_of (x y : W32) (h1 : -2147483648 ≤ x.toInt * y.toInt) (h2 : x.toInt * y.toInt ≤ 2147483647) : (x * y).toInt = x.toInt * y.toInt := by
  rw [BitVec.toInt_mul]
  exact toI32_id _ h1 h2

theorem toInt_sra (x : W32) (n : Nat) : (x.sshiftRight n).toInt = x.toInt / (2 ^ n : Nat) := by
  rw [BitVec.toInt_sshiftRight]
  exact Int.shiftRight_eq_div_pow _ _

theorem toInt_of_nat (x : W32) (h : x.toNat < 2147483648) : x.toInt = x.toNat := by
  rw [BitVec.toInt_eq_toNat_cond, if_pos (by omega)]

theorem toNat_of_nonneg (x : W32) (h : 0 ≤ x.toInt) : (x.toNat : Int) = x.toInt ∧ x.toNat < 2147483648 := by
  have := x.isLt
  rw [BitVec.toInt_eq_toNat_cond] at h ⊢
  split at h <;> split <;> omega

theorem msb_iff (x : W32) : x.msb = true ↔ x.toInt < 0 := by
  rw [BitVec.msb_eq_toInt]; simp

theorem toNat_srl (x : W32) (n : Nat) : (x >>> n).toNat = x.toNat / 2 ^ n := by
  rw [BitVec.toNat_ushiftRight, Nat.shiftRight_eq_div_pow]

/-! ## reduce, caddq, add, sub, shiftl -/

theorem ti_vmap (g : Ymm → Ymm) (l : W32 → W32) (h : ∀ f j, g f j = l (f j)) (a : VPoly) (i : Fin 256) : ti (vmap g a) i = (l (a i)).toInt := by
  show (g (ldv a (i.1 / 8)) ⟨i.1 % 8, _⟩).toInt = _
  rw [h, ldv_apply]

theorem ti_vmap2 (g : Ymm → Ymm → Ymm) (l : W32 → W32 → W32) (h : ∀ f f' j, g f f' j = l (f j) (f' j)) (a b : VPoly) (i : Fin 256) :
    ti (vmap2 g a b) i = (l (a i) (b i)).toInt := by
  show (g (ldv a (i.1 / 8)) (ldv b (i.1 / 8)) ⟨i.1 % 8, _⟩).toInt = _
  rw [h, ldv_apply, ldv_apply]

theorem reduce_lane (x : W32) (h : x.toInt ≤ 2143289343) : (x - (x + 4194304#32).sshiftRight 23 * 8380417#32).toInt = reduce32 C x.toInt := by
  obtain ⟨t, e, b1, b2, ht⟩ := reduce32_spec (C := C) x.toInt (toInt_bound32 x).1 h
  have hx := toInt_bound32 x
  have e1 : (x + 4194304#32).toInt = x.toInt + 4194304 := toInt_add_of x 4194304#32 (by show _ ≤ _ + (4194304 : Int); omega) (by show _ + (4194304 : Int) ≤ _; omega)
  have e2 : ((x + 4194304#32).sshiftRight 23).toInt = t := by
    rw [toInt_sra, e1, ht]; norm_num
  have hq : (8380417#32 : W32).toInt = 8380417 := by decide
  have ht' : -256 ≤ t ∧ t ≤ 255 := by rw [ht]; omega
  have e3 : ((x + 4194304#32).sshiftRight 23 * 8380417#32).toInt = t * 8380417 := by
    rw [toInt_mul_of _ _ (by rw [e2, hq]; omega) (by rw [e2, hq]; omega), e2, hq]
  simp only [Q] at e
  rw [toInt_sub_of _ _ (by rw [e3]; omega) (by rw [e3]; omega), e3, e]

theorem polyReduceV_int (a : VPoly) (h : ∀ i, ti a i ≤ 2143289343) : ti (polyReduceV a) = polyReduce C (ti a) := by
  funext i
  unfold polyReduceV
  rw [ti_vmap reduceV (fun x => x - (x + 4194304#32).sshiftRight 23 * 8380417#32)]
  · exact reduce_lane _ (h i)
  · intro f j
    simp only [reduceV, subEpi32, mulloEpi32, sraiEpi32, addEpi32, set1, qVec_apply]
    rfl

theorem caddq_lane (x : W32) : (x + if x.msb then 8380417#32 else 0).toInt = caddq C x.toInt := by
  have hx := toInt_bound32 x
  rw [caddq_spec _ hx.1 hx.2]
  have hq : (8380417#32 : W32).toInt = 8380417 := by decide
  by_cases h : x.toInt < 0
  · rw [if_pos ((msb_iff x).2 h), if_pos h, toInt_add_of _ _ (by rw [hq]; omega) (by rw [hq]; omega), hq]
  · rw [if_neg (by rw [msb_iff]; exact h), if_neg h]
    simp

theorem polyCaddqV_int (a : VPoly) : ti (polyCaddqV a) = polyCaddq C (ti a) := by
  funext i
  unfold polyCaddqV
  rw [ti_vmap caddqV (fun x => x + if x.msb then 8380417#32 else 0)]
  · exact caddq_lane _
  · intro f j
    simp only [caddqV, addEpi32, blendv, setzero, qVec_apply]

theorem polyAddV_int (a b : VPoly) (h : ∀ i, -2147483648 ≤ ti a i + ti b i ∧ ti a i + ti b i ≤ 2147483647) : ti (polyAddV a b) = fun i => ti a i + ti b i := by
  funext i
  unfold polyAddV
  rw [ti_vmap2 addEpi32 (· + ·) (fun _ _ _ => rfl)]
  exact toInt_add_of _ _ (h i).1 (h i).2

theorem polySubV_int (a b : VPoly) (h : ∀ i, -2147483648 ≤ ti a i - ti b i ∧ ti a i - ti b i ≤ 2147483647) : ti (polySubV a b) = fun i => ti a i - ti b i := by
  funext i
  unfold polySubV
  rw [ti_vmap2 subEpi32 (· - ·) (fun _ _ _ => rfl)]
  exact toInt_sub_of _ _ (h i).1 (h i).2

theorem polyShiftlV_int (a : VPoly) (h : ∀ i, 0 ≤ ti a i ∧ ti a i < 262144) : ti (polyShiftlV a) = fun i => ti a i * 8192 := by
  funext i
  unfold polyShiftlV
  rw [ti_vmap (fun f => slliEpi32 f 13) (fun x => x <<< 13) (fun _ _ => rfl)]
  have hi := h i
  obtain ⟨e, -⟩ := toNat_of_nonneg (a i) hi.1
  have hn : (a i <<< 13).toNat = (a i).toNat * 8192 := by
    rw [BitVec.toNat_shiftLeft, Nat.shiftLeft_eq]
    have : (a i).toNat < 262144 := by have := hi.2; unfold ti at this; omega
    omega
  have : (a i).toNat < 262144 := by have := hi.2; unfold ti at this; omega
  rw [toInt_of_nat _ (by omega), hn]
  unfold ti
  push_cast
  rw [e]

/-! ## power2round -/

theorem and_mask (x : W32) : (x &&& BitVec.ofInt 32 (-8192)).toNat = x.toNat / 8192 * 8192 := by
  have e : x &&& BitVec.ofInt 32 (-8192) = (x >>> 13) <<< 13 := by
    ext i hi
    have hm : (BitVec.ofInt 32 (-8192)).getLsbD i = decide (13 ≤ i) := by
      have : ∀ i < 32, (BitVec.ofInt 32 (-8192)).getLsbD i = decide (13 ≤ i) := by decide
      exact this i hi
    rw [BitVec.getElem_and, BitVec.getElem_shiftLeft, ← BitVec.getLsbD_eq_getElem, ← BitVec.getLsbD_eq_getElem, hm]
    by_cases h : 13 ≤ i
    · have h' : ¬ i < 13 := by omega
      simp [h, h']
    · have h' : i < 13 := by omega
      simp [h, h']
  rw [e, BitVec.toNat_shiftLeft, Nat.shiftLeft_eq, toNat_srl]
  have := x.isLt
  rw [Nat.mod_eq_of_lt (by omega)]
  norm_num

theorem power2round_lane (x : W32) (h1 : 0 ≤ x.toInt) (h2 : x.toInt < Q) :
    ((x + 4095#32) >>> 13).toInt = (power2round C x.toInt).1 ∧ (x - ((x + 4095#32) &&& BitVec.ofInt 32 (-8192))).toInt = (power2round C x.toInt).2 := by
  obtain ⟨e, hl⟩ := toNat_of_nonneg x h1
  simp only [Q] at h2
  have hn : (x + 4095#32).toNat = x.toNat + 4095 := by
    rw [BitVec.toNat_add]; show (x.toNat + 4095) % 4294967296 = _; omega
  have d1 : ((x + 4095#32) >>> 13).toInt = (x.toInt + 4095) / 8192 := by
    rw [toInt_of_nat _ (by rw [toNat_srl, hn]; omega), toNat_srl, hn, ← e]; norm_num
  have d2 : ((x + 4095#32) &&& BitVec.ofInt 32 (-8192)).toInt = (x.toInt + 4095) / 8192 * 8192 := by
    have := and_mask (x + 4095#32)
    rw [toInt_of_nat _ (by rw [this, hn]; omega), this, hn, ← e]; norm_num
  have p := power2round_spec (C := C) x.toInt h1 (by simp only [Q]; omega)
  have i1 : C.i32 (x.toInt + 4096) = x.toInt + 4096 := C.i32_id _ (by omega) (by omega)
  have i2 : C.i32 (x.toInt + 4096 - 1) = x.toInt + 4096 - 1 := C.i32_id _ (by omega) (by omega)
  have i3 : C.i32 ((x.toInt + 4096 - 1) / 8192 * 8192) = (x.toInt + 4096 - 1) / 8192 * 8192 := C.i32_id _ (by omega) (by omega)
  have i4 : C.i32 (x.toInt - (x.toInt + 4096 - 1) / 8192 * 8192) = x.toInt - (x.toInt + 4096 - 1) / 8192 * 8192 := C.i32_id _ (by omega) (by omega)
  unfold power2round
  simp only [i1, i2, i3, i4]
  rw [d1, toInt_sub_of _ _ (by rw [d2]; omega) (by rw [d2]; omega), d2]
  constructor <;> omega

theorem polyPower2roundV_int (a : VPoly) (h : ∀ i, 0 ≤ ti a i ∧ ti a i < Q) :
    ti (polyPower2roundV a).1 = (polyPower2round C (ti a)).1 ∧ ti (polyPower2roundV a).2 = (polyPower2round C (ti a)).2 := by
  constructor <;> funext i <;> unfold polyPower2roundV
  · show ti (vmap _ a) i = _
    rw [ti_vmap (fun f => (power2roundV f).1) (fun x => (x + 4095#32) >>> 13) (fun f j => rfl)]
    exact (power2round_lane _ (h i).1 (h i).2).1
  · show ti (vmap _ a) i = _
    rw [ti_vmap (fun f => (power2roundV f).2) (fun x => x - ((x + 4095#32) &&& BitVec.ofInt 32 (-8192))) (fun f j => rfl)]
    exact (power2round_lane _ (h i).1 (h i).2).2

/-! ## decompose -/

theorem wordOf_zero (x : W32) : (wordOf x 0).toNat = x.toNat % 65536 := by
  unfold wordOf; rw [BitVec.extractLsb'_toNat]; simp

theorem wordOf_one (x : W32) : (wordOf x 1).toNat = x.toNat / 65536 := by
  unfold wordOf; rw [BitVec.extractLsb'_toNat, Nat.shiftRight_eq_div_pow]; have := x.isLt; norm_num; omega

theorem ofWords_toNat (a b : BitVec 16) : (ofWords a b).toNat = a.toNat + 65536 * b.toNat := by
  unfold ofWords
  rw [BitVec.toNat_append, Nat.shiftLeft_eq, Nat.mul_comm, ← Nat.two_pow_add_eq_or_of_lt a.isLt]
  ring

theorem word_eq_zero (x : W32) (h : x.toNat < 65536) : wordOf x 1 = 0 := by
  apply BitVec.eq_of_toNat_eq; rw [wordOf_one]; show _ = 0; omega

/-- High part, lane by lane. -/
def dec1 (x : W32) : W32 :=
  let y := (x + 127#32) >>> 7
  let y := ofWords (BitVec.ofNat 16 ((wordOf y 0).toNat * (wordOf (BitVec.ofInt 32 11275) 0).toNat / 65536))
    (BitVec.ofNat 16 ((wordOf y 1).toNat * (wordOf (BitVec.ofInt 32 11275) 1).toNat / 65536))
  let y := ofWords (BitVec.ofInt 16 (((wordOf y 0).toInt * (wordOf (BitVec.ofInt 32 128) 0).toInt / 16384 + 1) / 2))
    (BitVec.ofInt 16 (((wordOf y 1).toInt * (wordOf (BitVec.ofInt 32 128) 1).toInt / 16384 + 1) / 2))
  if (43#32 - y).msb then 0 else y

/-- Low part, lane by lane. -/
def dec0 (x : W32) : W32 :=
  let y := x - dec1 x * 190464#32
  y - ((if (8380417#32 >>> 1).toInt < y.toInt then BitVec.allOnes 32 else 0) &&& 8380417#32)

theorem decomposeV_lane (f : Ymm) (j : Fin 8) : (decomposeV f).1 j = dec1 (f j) ∧ (decomposeV f).2 j = dec0 (f j) := by
  constructor
  · rfl
  · simp only [decomposeV, subEpi32, andSi, cmpgtEpi32, srliEpi32, qVec_apply]
    rfl

theorem dec1_toInt (x : W32) (h1 : 0 ≤ x.toInt) (h2 : x.toInt < Q) :
    (dec1 x).toInt = if (((x.toInt + 127) / 128) * 11275 + 8388608) / 16777216 > 43 then 0 else (((x.toInt + 127) / 128) * 11275 + 8388608) / 16777216 := by
  obtain ⟨e, hl⟩ := toNat_of_nonneg x h1
  simp only [Q] at h2
  have hn : (x + 127#32).toNat = x.toNat + 127 := by
    rw [BitVec.toNat_add]; show (x.toNat + 127) % 4294967296 = _; omega
  have y1 : ((x + 127#32) >>> 7).toNat = (x.toNat + 127) / 128 := by rw [toNat_srl, hn]; norm_num
  unfold dec1
  generalize hy : (x + 127#32) >>> 7 = y at *
  have yl : y.toNat ≤ 65473 := by omega
  have w0 : (wordOf y 0).toNat = y.toNat := by rw [wordOf_zero]; omega
  have w1 : (wordOf y 1).toNat = 0 := by rw [wordOf_one]; omega
  have c0 : (wordOf (BitVec.ofInt 32 11275) 0).toNat = 11275 := by decide
  have c1 : wordOf (BitVec.ofInt 32 128) 0 = 128#16 := by decide
  have c2 : wordOf (BitVec.ofInt 32 128) 1 = 0#16 := by decide
  simp only [w0, w1, c0, c1, c2]
  have m0 : (BitVec.ofNat 16 (y.toNat * 11275 / 65536)).toNat = y.toNat * 11275 / 65536 := by
    rw [BitVec.toNat_ofNat]; omega
  have m1 : BitVec.ofNat 16 (0 * (wordOf (BitVec.ofInt 32 11275) 1).toNat / 65536) = 0#16 := by rw [Nat.zero_mul]
  rw [m1]
  generalize hz : ofWords (BitVec.ofNat 16 (y.toNat * 11275 / 65536)) 0#16 = z
  have zn : z.toNat = y.toNat * 11275 / 65536 := by rw [← hz, ofWords_toNat, m0]; simp
  have z0 : (wordOf z 0).toNat = y.toNat * 11275 / 65536 := by rw [wordOf_zero, zn]; omega
  have z0i : (wordOf z 0).toInt = ((y.toNat * 11275 / 65536 : Nat) : Int) := by
    rw [BitVec.toInt_eq_toNat_cond, z0, if_pos (by omega)]
  have k1 : (128#16 : BitVec 16).toInt = 128 := by decide
  have k0 : (0#16 : BitVec 16).toInt = 0 := by decide
  rw [z0i, k1, k0, Int.mul_zero]
  have t1 : BitVec.ofInt 16 ((0 / 16384 + 1) / 2) = 0#16 := by decide
  rw [t1]
  have r0 : ((y.toNat * 11275 / 65536 : Nat) : Int) * 128 / 16384 = ((y.toNat * 11275 / 65536 / 128 : Nat) : Int) := by omega
  have r1 : (((y.toNat * 11275 / 65536 : Nat) : Int) * 128 / 16384 + 1) / 2 = (((y.toNat * 11275 + 8388608) / 16777216 : Nat) : Int) := by omega
  rw [r1]
  generalize hk : (y.toNat * 11275 + 8388608) / 16777216 = k
  have kl : k ≤ 44 := by omega
  have kk : BitVec.ofInt 16 ((k : Nat) : Int) = BitVec.ofNat 16 k := BitVec.ofInt_natCast ..
  rw [kk]
  generalize hu : ofWords (BitVec.ofNat 16 k) 0#16 = u
  have un : u.toNat = k := by rw [← hu, ofWords_toNat, BitVec.toNat_ofNat]; show k % 65536 + 65536 * 0 = k; omega
  have ui : u.toInt = k := by rw [toInt_of_nat _ (by omega), un]
  have hi : (((x.toInt + 127) / 128) * 11275 + 8388608) / 16777216 = (k : Int) := by rw [← e, ← hk, y1]; norm_num
  rw [hi]
  have c43 : (43#32 : W32).toInt = 43 := by decide
  have hd : (43#32 - u).toInt = 43 - (k : Int) := by rw [toInt_sub_of _ _ (by rw [c43, ui]; omega) (by rw [c43, ui]; omega), c43, ui]
  by_cases hg : 43 < k
  · rw [if_pos ((msb_iff _).2 (by rw [hd]; omega)), if_pos (by omega)]; rfl
  · rw [if_neg (by rw [msb_iff, hd]; omega), if_neg (by omega), ui]

theorem decompose_lane (x : W32) (h1 : 0 ≤ x.toInt) (h2 : x.toInt < Q) :
    (dec1 x).toInt = (decompose C x.toInt).1 ∧ (dec0 x).toInt = (decompose C x.toInt).2 := by
  have hd1 := dec1_toInt x h1 h2
  simp only [Q] at h2
  generalize hk : (((x.toInt + 127) / 128) * 11275 + 8388608) / 16777216 = k at *
  have i1 : C.i32 (x.toInt + 127) = x.toInt + 127 := C.i32_id _ (by omega) (by omega)
  have i2 : C.i32 ((x.toInt + 127) / 128 * 11275) = (x.toInt + 127) / 128 * 11275 := C.i32_id _ (by omega) (by omega)
  have i3 : C.i32 ((x.toInt + 127) / 128 * 11275 + 8388608) = (x.toInt + 127) / 128 * 11275 + 8388608 := C.i32_id _ (by omega) (by omega)
  have kr : 0 ≤ k ∧ k ≤ 44 := by omega
  have i4 : C.i32 (43 - k) = 43 - k := C.i32_id _ (by omega) (by omega)
  have hx1 : Int.xor k (Int.land ((43 - k) / 2147483648) k) = if k > 43 then 0 else k := by
    by_cases h : k > 43
    · rw [if_pos h, show (43 - k) / 2147483648 = -1 by omega, land_neg_one, xor_self']
    · rw [if_neg h, show (43 - k) / 2147483648 = 0 by omega, zero_land, xor_zero']
  generalize hr : (if k > 43 then 0 else k) = r at *
  have rr : 0 ≤ r ∧ r ≤ 43 := by rw [← hr]; split <;> omega
  have rk : r = 0 ∨ r = k := by rw [← hr]; split <;> simp
  have i5 : C.i32 (r * 2) = r * 2 := C.i32_id _ (by omega) (by omega)
  have i6 : C.i32 (r * 2 * 95232) = r * 2 * 95232 := C.i32_id _ (by omega) (by omega)
  have i7 : C.i32 (x.toInt - r * 2 * 95232) = x.toInt - r * 2 * 95232 := C.i32_id _ (by omega) (by omega)
  have i8 : C.i32 ((8380417 - 1) / 2 - (x.toInt - r * 2 * 95232)) = (8380417 - 1) / 2 - (x.toInt - r * 2 * 95232) := C.i32_id _ (by omega) (by omega)
  have hd : decompose C x.toInt = (r, C.i32 (x.toInt - r * 2 * 95232 - Int.land (((8380417 - 1) / 2 - (x.toInt - r * 2 * 95232)) / 2147483648) 8380417)) := by
    unfold decompose
    simp only [i1, i2, i3, hk, i4, hx1, GAMMA2, i5, i6, i7, Q, i8]
  rw [hd]
  refine ⟨hd1, ?_⟩
  have ca : (190464#32 : W32).toInt = 190464 := by decide
  have cq : (8380417#32 : W32).toInt = 8380417 := by decide
  have ch : ((8380417#32 : W32) >>> 1).toInt = 4190208 := by decide
  have m : (dec1 x * 190464#32).toInt = r * 190464 := by
    rw [toInt_mul_of _ _ (by rw [hd1, ca]; omega) (by rw [hd1, ca]; omega), hd1, ca]
  have s : (x - dec1 x * 190464#32).toInt = x.toInt - r * 190464 := by
    rw [toInt_sub_of _ _ (by rw [m]; omega) (by rw [m]; omega), m]
  unfold dec0
  simp only [s, ch]
  by_cases h : 4190208 < x.toInt - r * 190464
  · rw [if_pos h]
    have : BitVec.allOnes 32 &&& 8380417#32 = 8380417#32 := by decide
    rw [this, toInt_sub_of _ _ (by rw [s, cq]; omega) (by rw [s, cq]; omega), s, cq,
      show ((8380417 - 1) / 2 - (x.toInt - r * 2 * 95232)) / 2147483648 = -1 by omega, land_neg_one, C.i32_id _ (by omega) (by omega)]
    omega
  · rw [if_neg h]
    have : (0 : W32) &&& 8380417#32 = 0#32 := by decide
    rw [this, BitVec.sub_zero, s, show ((8380417 - 1) / 2 - (x.toInt - r * 2 * 95232)) / 2147483648 = 0 by omega, zero_land, C.i32_id _ (by omega) (by omega)]
    omega

theorem polyDecomposeV_int (a : VPoly) (h : ∀ i, 0 ≤ ti a i ∧ ti a i < Q) :
    ti (polyDecomposeV a).1 = (polyDecompose C (ti a)).1 ∧ ti (polyDecomposeV a).2 = (polyDecompose C (ti a)).2 := by
  constructor <;> funext i
  · show ti (vmap (fun f => (decomposeV f).1) a) i = _
    rw [ti_vmap (fun f => (decomposeV f).1) dec1 (fun f j => (decomposeV_lane f j).1)]
    exact (decompose_lane _ (h i).1 (h i).2).1
  · show ti (vmap (fun f => (decomposeV f).2) a) i = _
    rw [ti_vmap (fun f => (decomposeV f).2) dec0 (fun f j => (decomposeV_lane f j).2)]
    exact (decompose_lane _ (h i).1 (h i).2).2

/-! ## use_hint -/

/-- What the AVX2 code computes for `UseHint`: like the specification, except that a low part of exactly 0 counts as positive. -/
def useHintA (h r : Int) : Int :=
  if h = 1 then (if Spec.lowBits r ≥ 0 then (Spec.highBits r + 1) % 44 else (Spec.highBits r - 1) % 44) else Spec.highBits r

/-- `useHintV` on one lane. -/
def useHintLane (g f h : W32) : W32 :=
  let h := h - (if f.msb then h else 0) <<< 1
  let g := g + h
  let g := if g.msb then 43#32 else g
  if (if (43#32 : W32).toInt < g.toInt then BitVec.allOnes 32 else 0).msb then 0 else g

theorem useHint_lane (g f h : W32) (hg : 0 ≤ g.toInt ∧ g.toInt ≤ 43) (hh : h.toInt = 0 ∨ h.toInt = 1) :
    (useHintLane g f h).toInt = if h.toInt = 1 then (if f.toInt ≥ 0 then (g.toInt + 1) % 44 else (g.toInt - 1) % 44) else g.toInt := by
  have c43 : (43#32 : W32).toInt = 43 := by decide
  have fin : ∀ u : W32, -1 ≤ u.toInt → u.toInt ≤ 44 → ((if (if (43#32 : W32).toInt < (if u.msb then 43#32 else u).toInt then BitVec.allOnes 32 else 0).msb then 0 else
      (if u.msb then 43#32 else u)) : W32).toInt = u.toInt % 44 := by
    intro u h1 h2
    by_cases hu : u.toInt < 0
    · rw [if_pos ((msb_iff u).2 hu), c43, if_neg (show ¬ (43 : Int) < 43 by omega), if_neg (by decide), c43]; omega
    · rw [if_neg (show ¬ u.msb = true by rw [msb_iff]; exact hu), c43]
      by_cases h4 : 43 < u.toInt
      · rw [if_pos h4, if_pos (by decide)]
        show (0 : Int) = _
        omega
      · rw [if_neg h4, if_neg (by decide)]; omega
  have hz : h.toInt = 0 → h = 0#32 := fun e => BitVec.eq_of_toInt_eq e
  have ho : h.toInt = 1 → h = 1#32 := fun e => BitVec.eq_of_toInt_eq e
  rcases hh with e | e
  · rw [if_neg (by omega)]
    have := fin g (by omega) (by omega)
    unfold useHintLane
    have hs : h - (if f.msb then h else 0) <<< 1 = 0#32 := by rw [hz e]; split <;> decide
    have hadd : g + 0#32 = g := by simp
    simp only [hs, hadd]
    rw [this]; omega
  · rw [if_pos e]
    have c1 : (1#32 : W32).toInt = 1 := by decide
    have cm : (BitVec.ofInt 32 (-1)).toInt = -1 := by decide
    unfold useHintLane
    by_cases hf : f.toInt ≥ 0
    · have hs : h - (if f.msb then h else 0) <<< 1 = 1#32 := by
        rw [ho e, if_neg (by rw [msb_iff]; omega)]; decide
      have ha : (g + 1#32).toInt = g.toInt + 1 := by rw [toInt_add_of _ _ (by rw [c1]; omega) (by rw [c1]; omega), c1]
      simp only [hs]
      rw [fin _ (by omega) (by omega), ha, if_pos hf]
    · have hs : h - (if f.msb then h else 0) <<< 1 = BitVec.ofInt 32 (-1) := by
        rw [ho e, if_pos (by rw [msb_iff]; omega)]; decide
      have ha : (g + BitVec.ofInt 32 (-1)).toInt = g.toInt - 1 := by rw [toInt_add_of _ _ (by rw [cm]; omega) (by rw [cm]; omega), cm]; omega
      simp only [hs]
      rw [fin _ (by omega) (by omega), ha, if_neg hf]

theorem ldv_vmap (g : Ymm → Ymm) (a : VPoly) (i : Fin 256) : ldv (vmap g a) (i.1 / 8) ⟨i.1 % 8, by omega⟩ = vmap g a i := ldv_apply _ i

theorem polyUseHintV_int (a h : VPoly) (ha : ∀ i, 0 ≤ ti a i ∧ ti a i < Q) (hh : ∀ i, ti h i = 0 ∨ ti h i = 1) :
    ti (polyUseHintV a h) = fun i => useHintA (ti h i) (ti a i) := by
  funext i
  have d := polyDecomposeV_int (C := wrapSem) a ha
  have e1 : ((polyDecomposeV a).1 i).toInt = Spec.highBits (ti a i) := by
    have := congrFun d.1 i
    show ti _ i = _
    rw [this]
    show (decompose wrapSem (ti a i)).1 = _
    rw [decompose_eq _ (ha i).1 (ha i).2]; rfl
  have e0 : ((polyDecomposeV a).2 i).toInt = Spec.lowBits (ti a i) := by
    have := congrFun d.2 i
    show ti _ i = _
    rw [this]
    show (decompose wrapSem (ti a i)).2 = _
    rw [decompose_eq _ (ha i).1 (ha i).2]; rfl
  have hr := spec_highBits_range (ti a i) (ha i).1 (ha i).2
  have : polyUseHintV a h i = useHintLane ((polyDecomposeV a).1 i) ((polyDecomposeV a).2 i) (h i) := by
    unfold polyUseHintV
    show useHintLane (ldv (polyDecomposeV a).1 (i.1 / 8) ⟨i.1 % 8, _⟩) (ldv (polyDecomposeV a).2 (i.1 / 8) ⟨i.1 % 8, _⟩) (ldv h (i.1 / 8) ⟨i.1 % 8, _⟩) = _
    rw [ldv_apply, ldv_apply, ldv_apply]
  show (polyUseHintV a h i).toInt = _
  rw [this, useHint_lane _ _ _ (by rw [e1]; exact hr) (hh i), e1, e0]
  rfl

/-! ## chknorm -/

theorem abs_lane (x : W32) (h : -2147483648 < x.toInt) : (if x.toInt < 0 then -x else x).toInt = |x.toInt| := by
  have hx := toInt_bound32 x
  by_cases hn : x.toInt < 0
  · rw [if_pos hn, abs_of_neg hn]
    have : -x = 0#32 - x := by simp
    have c0 : (0#32 : W32).toInt = 0 := by decide
    rw [this, toInt_sub_of _ _ (by rw [c0]; omega) (by rw [c0]; omega), c0]; omega
  · rw [if_neg hn, abs_of_nonneg (by omega)]

theorem or_eq_zero (x y : W32) : x ||| y = 0 ↔ x = 0 ∧ y = 0 := by
  constructor
  · intro h
    constructor <;> ext i hi
    all_goals
      have := congrArg (fun z : W32 => z[i]) h
      simp at this
      simp [this]
  · rintro ⟨rfl, rfl⟩; rfl

theorem chknormAcc_zero (a : VPoly) (B : Int) (hB : -2147483647 ≤ B ∧ B ≤ 2147483647) (ha : ∀ i, -2147483648 < ti a i) (n : Nat) (hn : n ≤ 32) (j : Fin 8) :
    chknormAcc a B n j = 0 ↔ ∀ m (h : m < n), |ti a ⟨8 * m + j.1, by omega⟩| < B := by
  induction n with
  | zero => simp only [Nat.not_lt_zero, IsEmpty.forall_iff, implies_true, iff_true]; rfl
  | succ n ih =>
    have hidx : Fin.ofNat 256 (8 * n + j.1) = (⟨8 * n + j.1, by omega⟩ : Fin 256) := by
      apply Fin.ext; show (8 * n + j.1) % 256 = _; rw [Nat.mod_eq_of_lt (by omega)]
    have hb : (BitVec.ofInt 32 (B - 1)).toInt = B - 1 := by rw [ofInt_toInt]; exact toI32_id _ (by omega) (by omega)
    show chknormAcc a B n j ||| (if (BitVec.ofInt 32 (B - 1)).toInt < (if (ldv a n j).toInt < 0 then -ldv a n j else ldv a n j).toInt then BitVec.allOnes 32 else 0) = 0 ↔ _
    have hl : ldv a n j = a ⟨8 * n + j.1, by omega⟩ := by unfold ldv; rw [hidx]
    rw [or_eq_zero, ih (by omega), hb, hl, abs_lane _ (ha _)]
    constructor
    · rintro ⟨h1, h2⟩ m hm
      by_cases e : m = n
      · subst e
        by_contra hc
        rw [if_pos (by unfold ti at hc; omega)] at h2
        exact absurd h2 (by decide)
      · exact h1 m (by omega)
    · intro h
      refine ⟨fun m hm => h m (by omega), ?_⟩
      have := h n (by omega)
      rw [if_neg (by unfold ti at this; omega)]

theorem polyChknormV_iff (a : VPoly) (B : Int) (hB : -2147483647 ≤ B ∧ B ≤ 1047552) (ha : ∀ i, -2147483648 < ti a i) :
    (polyChknormV a B = 0 ↔ ∀ i, |ti a i| < B) ∧ (polyChknormV a B = 0 ∨ polyChknormV a B = 1) := by
  unfold polyChknormV
  rw [if_neg (by omega)]
  unfold testzSelf
  have hall : ((List.finRange 8).all (fun j => decide (chknormAcc a B 32 j = 0)) = true) ↔ ∀ i, |ti a i| < B := by
    rw [List.all_eq_true]
    constructor
    · intro h i
      have := h ⟨i.1 % 8, by omega⟩ (List.mem_finRange _)
      rw [decide_eq_true_eq, chknormAcc_zero a B ⟨hB.1, by omega⟩ ha 32 (by omega)] at this
      have := this (i.1 / 8) (by omega)
      convert this using 3
      apply Fin.ext
      show i.1 = 8 * (i.1 / 8) + i.1 % 8
      omega
    · intro h j _
      rw [decide_eq_true_eq, chknormAcc_zero a B ⟨hB.1, by omega⟩ ha 32 (by omega)]
      intro m hm
      exact h _
  by_cases h : ∀ i, |ti a i| < B
  · rw [if_pos (hall.2 h)]
    exact ⟨by simp [h], Or.inl rfl⟩
  · rw [if_neg (fun e => h (hall.1 e))]
    exact ⟨by simp [h], Or.inr rfl⟩

/-! ## make_hint: the mask -/

theorem movemask_bits : ∀ b : Fin 8 → Bool, (∀ j : Fin 8, (((List.finRange 8).map fun j => if b j then 2 ^ j.1 else 0).sum).testBit j.1 = b j) ∧
    ((List.finRange 8).map fun j => if b j then 2 ^ j.1 else 0).sum < 256 := by decide +kernel

theorem movemaskPs_testBit (v : Ymm) (j : Fin 8) : (movemaskPs v).testBit j.1 = (v j).msb := (movemask_bits fun j => (v j).msb).1 j
theorem movemaskPs_lt (v : Ymm) : movemaskPs v < 256 := (movemask_bits fun j => (v j).msb).2

theorem hintBad_testBit (f0 f1 : Ymm) (j : Fin 8) (h0 : -2147483648 < (f0 j).toInt) (h1 : 0 ≤ (f1 j).toInt) :
    (hintBad f0 f1).testBit j.1 = decide (makeHint (f0 j).toInt (f1 j).toInt = 1) := by
  unfold hintBad
  rw [movemaskPs_testBit]
  show ((if (BitVec.ofInt 32 95232).toInt < (if (f0 j).toInt < 0 then -f0 j else f0 j).toInt then BitVec.allOnes 32 else 0) |||
    (if (f1 j).toInt < 0 then -(if f0 j = BitVec.ofInt 32 (-95232) then BitVec.allOnes 32 else 0)
      else if f1 j = 0 then 0 else (if f0 j = BitVec.ofInt 32 (-95232) then BitVec.allOnes 32 else 0)) : W32).msb = _
  rw [abs_lane _ h0, if_neg (show ¬ (f1 j).toInt < 0 by omega), BitVec.msb_or]
  have c1 : (BitVec.ofInt 32 95232).toInt = 95232 := by decide
  have c2 : f0 j = BitVec.ofInt 32 (-95232) ↔ (f0 j).toInt = -95232 := by
    constructor
    · intro h; rw [h]; decide
    · intro h; exact BitVec.eq_of_toInt_eq (by rw [h]; decide)
  have c3 : f1 j = 0 ↔ (f1 j).toInt = 0 := by
    constructor
    · intro h; rw [h]; decide
    · intro h; exact BitVec.eq_of_toInt_eq (by rw [h]; decide)
  have ones : (BitVec.allOnes 32).msb = true := by decide
  have zero : (0 : W32).msb = false := by decide
  rw [c1]
  unfold makeHint
  simp only [GAMMA2]
  generalize (f0 j).toInt = x at *
  generalize (f1 j).toInt = y at *
  by_cases ha : 95232 < |x|
  · rw [if_pos ha, ones, Bool.true_or]
    have : x > 95232 ∨ x < -95232 := by rcases lt_abs.1 ha with h | h <;> omega
    rw [if_pos (by tauto)]; rfl
  · rw [if_neg ha, zero, Bool.false_or]
    have hx : ¬ (x > 95232) ∧ ¬ (x < -95232) := by
      constructor
      · intro h; exact ha (lt_abs.2 (Or.inl h))
      · intro h; exact ha (lt_abs.2 (Or.inr (by omega)))
    by_cases hy : y = 0
    · rw [if_pos (c3.2 hy), zero, if_neg (by tauto)]; rfl
    · rw [if_neg (fun e => hy (c3.1 e))]
      by_cases hx2 : x = -95232
      · rw [if_pos (c2.2 hx2), ones, if_pos (by tauto)]; rfl
      · rw [if_neg (fun e => hx2 (c2.1 e)), zero, if_neg (by tauto)]; rfl

end Verif.Avx2
