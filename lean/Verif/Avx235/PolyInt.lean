import Verif.Avx235.Poly
import Verif.Avx2.PolyInt
import Verif.Dilithium35.Refine

/-! # The rounding functions of dilithium3/avx2 and dilithium5/avx2 as integer functions -/

namespace Verif.Avx235
open Verif.Avx2 hiding decomposeV polyDecomposeV useHintV polyUseHintV hintBad makeHintLoop makeHintAvx dec1 dec0 decomposeV_lane dec1_toInt decompose_lane polyDecomposeV_int useHintA useHintLane useHint_lane polyUseHintV_int hintBad_testBit
open Verif.Dilithium (CSem Q land_neg_one zero_land wrapSem)
open Verif.Dilithium35 (decompose polyDecompose makeHint GAMMA2 land15 decompose_eq spec_highBits_range)

variable {C : CSem}

/-- High part, lane by lane. -/
def dec1 (x : W32) : W32 :=
  let y := (x + 127#32) >>> 7
  let y := ofWords (BitVec.ofNat 16 ((wordOf y 0).toNat * (wordOf (BitVec.ofInt 32 1025) 0).toNat / 65536))
    (BitVec.ofNat 16 ((wordOf y 1).toNat * (wordOf (BitVec.ofInt 32 1025) 1).toNat / 65536))
  let y := ofWords (BitVec.ofInt 16 (((wordOf y 0).toInt * (wordOf (BitVec.ofInt 32 512) 0).toInt / 16384 + 1) / 2))
    (BitVec.ofInt 16 (((wordOf y 1).toInt * (wordOf (BitVec.ofInt 32 512) 1).toInt / 16384 + 1) / 2))
  y &&& 15#32

/-- Low part, lane by lane. -/
def dec0 (x : W32) : W32 :=
  let y := x - dec1 x * 523776#32
  y - ((if (8380417#32 >>> 1).toInt < y.toInt then BitVec.allOnes 32 else 0) &&& 8380417#32)

theorem decomposeV_lane (f : Ymm) (j : Fin 8) : (decomposeV f).1 j = dec1 (f j) ∧ (decomposeV f).2 j = dec0 (f j) := by
  constructor
  · rfl
  · simp only [decomposeV, subEpi32, andSi, cmpgtEpi32, srliEpi32, qVec_apply]
    rfl

theorem and15_toNat (x : W32) : (x &&& 15#32).toNat = x.toNat % 16 := by
  rw [BitVec.toNat_and]
  exact Nat.and_two_pow_sub_one_eq_mod x.toNat 4

theorem dec1_toInt (x : W32) (h1 : 0 ≤ x.toInt) (h2 : x.toInt < Q) :
    (dec1 x).toInt = (((x.toInt + 127) / 128) * 1025 + 2097152) / 4194304 % 16 := by
  obtain ⟨e, hl⟩ := toNat_of_nonneg x h1
  simp only [Q] at h2
  have hn : (x + 127#32).toNat = x.toNat + 127 := by
    rw [BitVec.toNat_add]; show (x.toNat + 127) % 4294967296 = _; omega
  have y1 : ((x + 127#32) >>> 7).toNat = (x.toNat + 127) / 128 := by rw [toNat_srl, hn]; norm_num
  unfold dec1
  generalize hy : (x + 127#32) >>> 7 = y at *
  have yl : y.toNat ≤ 65473 := by omega
  have w0 : (wordOf y 0).toNat = y.toNat := by rw [wordOf_zero]; omega
  have w1 : (wordOf y 1).toNat = 0 := by rw [wordOf_one]; omega
  have c0 : (wordOf (BitVec.ofInt 32 1025) 0).toNat = 1025 := by decide
  have c1 : wordOf (BitVec.ofInt 32 512) 0 = 512#16 := by decide
  have c2 : wordOf (BitVec.ofInt 32 512) 1 = 0#16 := by decide
  simp only [w0, w1, c0, c1, c2]
  have m0 : (BitVec.ofNat 16 (y.toNat * 1025 / 65536)).toNat = y.toNat * 1025 / 65536 := by
    rw [BitVec.toNat_ofNat]; omega
  have m1 : BitVec.ofNat 16 (0 * (wordOf (BitVec.ofInt 32 1025) 1).toNat / 65536) = 0#16 := by rw [Nat.zero_mul]
  rw [m1]
  generalize hz : ofWords (BitVec.ofNat 16 (y.toNat * 1025 / 65536)) 0#16 = z
  have zn : z.toNat = y.toNat * 1025 / 65536 := by rw [← hz, ofWords_toNat, m0]; simp
  have z0 : (wordOf z 0).toNat = y.toNat * 1025 / 65536 := by rw [wordOf_zero, zn]; omega
  have z0i : (wordOf z 0).toInt = ((y.toNat * 1025 / 65536 : Nat) : Int) := by
    rw [BitVec.toInt_eq_toNat_cond, z0, if_pos (by omega)]
  have k1 : (512#16 : BitVec 16).toInt = 512 := by decide
  have k0 : (0#16 : BitVec 16).toInt = 0 := by decide
  rw [z0i, k1, k0, Int.mul_zero]
  have t1 : BitVec.ofInt 16 ((0 / 16384 + 1) / 2) = 0#16 := by decide
  rw [t1]
  have r1 : (((y.toNat * 1025 / 65536 : Nat) : Int) * 512 / 16384 + 1) / 2 = (((y.toNat * 1025 + 2097152) / 4194304 : Nat) : Int) := by omega
  rw [r1]
  generalize hk : (y.toNat * 1025 + 2097152) / 4194304 = k
  have kl : k ≤ 16 := by omega
  have kk : BitVec.ofInt 16 ((k : Nat) : Int) = BitVec.ofNat 16 k := BitVec.ofInt_natCast ..
  rw [kk]
  generalize hu : ofWords (BitVec.ofNat 16 k) 0#16 = u
  have un : u.toNat = k := by rw [← hu, ofWords_toNat, BitVec.toNat_ofNat]; show k % 65536 + 65536 * 0 = k; omega
  have hi : (((x.toInt + 127) / 128) * 1025 + 2097152) / 4194304 = (k : Int) := by rw [← e, ← hk, y1]; norm_num
  have un15 := and15_toNat u
  rw [hi, toInt_of_nat _ (by rw [un15]; omega), un15, un]
  norm_num

theorem decompose_lane (x : W32) (h1 : 0 ≤ x.toInt) (h2 : x.toInt < Q) :
    (dec1 x).toInt = (decompose C x.toInt).1 ∧ (dec0 x).toInt = (decompose C x.toInt).2 := by
  have hd1 := dec1_toInt x h1 h2
  simp only [Q] at h2
  generalize hk : (((x.toInt + 127) / 128) * 1025 + 2097152) / 4194304 = k at *
  have i1 : C.i32 (x.toInt + 127) = x.toInt + 127 := C.i32_id _ (by omega) (by omega)
  have i2 : C.i32 ((x.toInt + 127) / 128 * 1025) = (x.toInt + 127) / 128 * 1025 := C.i32_id _ (by omega) (by omega)
  have i3 : C.i32 ((x.toInt + 127) / 128 * 1025 + 2097152) = (x.toInt + 127) / 128 * 1025 + 2097152 := C.i32_id _ (by omega) (by omega)
  have kr : 0 ≤ k ∧ k ≤ 16 := by omega
  have hx1 : Int.land k 15 = k % 16 := land15 kr.1
  generalize hr : k % 16 = r at *
  have rr : 0 ≤ r ∧ r ≤ 15 := by omega
  have rk : r = k ∨ (k = 16 ∧ r = 0) := by omega
  have i5 : C.i32 (r * 2) = r * 2 := C.i32_id _ (by omega) (by omega)
  have i6 : C.i32 (r * 2 * 261888) = r * 2 * 261888 := C.i32_id _ (by omega) (by omega)
  have i7 : C.i32 (x.toInt - r * 2 * 261888) = x.toInt - r * 2 * 261888 := C.i32_id _ (by omega) (by omega)
  have i8 : C.i32 ((8380417 - 1) / 2 - (x.toInt - r * 2 * 261888)) = (8380417 - 1) / 2 - (x.toInt - r * 2 * 261888) := C.i32_id _ (by omega) (by omega)
  have hd : decompose C x.toInt = (r, C.i32 (x.toInt - r * 2 * 261888 - Int.land (((8380417 - 1) / 2 - (x.toInt - r * 2 * 261888)) / 2147483648) 8380417)) := by
    unfold decompose
    simp only [i1, i2, i3, hk, hx1, GAMMA2, i5, i6, i7, Q, i8]
  rw [hd]
  refine ⟨hd1, ?_⟩
  have ca : (523776#32 : W32).toInt = 523776 := by decide
  have cq : (8380417#32 : W32).toInt = 8380417 := by decide
  have ch : ((8380417#32 : W32) >>> 1).toInt = 4190208 := by decide
  have m : (dec1 x * 523776#32).toInt = r * 523776 := by
    rw [toInt_mul_of _ _ (by rw [hd1, ca]; omega) (by rw [hd1, ca]; omega), hd1, ca]
  have s : (x - dec1 x * 523776#32).toInt = x.toInt - r * 523776 := by
    rw [toInt_sub_of _ _ (by rw [m]; omega) (by rw [m]; omega), m]
  unfold dec0
  simp only [s, ch]
  by_cases h : 4190208 < x.toInt - r * 523776
  · rw [if_pos h]
    have : BitVec.allOnes 32 &&& 8380417#32 = 8380417#32 := by decide
    rw [this, toInt_sub_of _ _ (by rw [s, cq]; omega) (by rw [s, cq]; omega), s, cq,
      show ((8380417 - 1) / 2 - (x.toInt - r * 2 * 261888)) / 2147483648 = -1 by omega, land_neg_one, C.i32_id _ (by omega) (by omega)]
    omega
  · rw [if_neg h]
    have : (0 : W32) &&& 8380417#32 = 0#32 := by decide
    rw [this, BitVec.sub_zero, s, show ((8380417 - 1) / 2 - (x.toInt - r * 2 * 261888)) / 2147483648 = 0 by omega, zero_land, C.i32_id _ (by omega) (by omega)]
    omega

theorem polyDecomposeV_int (a : VPoly) (h : ∀ i, 0 ≤ ti a i ∧ ti a i < Q) :
    ti (polyDecomposeV a).1 = (polyDecompose C (ti a)).1 ∧ ti (polyDecomposeV a).2 = (polyDecompose C (ti a)).2 := by
  constructor <;> funext i
  · show ti (vmap (fun f => (decomposeV f).1) a) i = _
    rw [ti_vmap (fun f => (decomposeV f).1) dec1 (fun f j => (decomposeV_lane f j).1)]
    exact (decompose_lane _ (h i).1 (h i).2).1
  · show ti (vmap (fun f => (decomposeV f).2) a) i = _
    rw [ti_vmap (fun f => (decomposeV f).2) dec0 (fun f j => (decomposeV_lane f j).2)]
    exact (decompose_lane _ (h i).1 (h i).2).2

/-! ## use_hint -/

/-- What the AVX2 code computes for `UseHint`: like the specification, except that a low part of exactly 0 counts as positive. -/
def useHintA (h r : Int) : Int :=
  if h = 1 then (if Dilithium35.Spec.lowBits r ≥ 0 then (Dilithium35.Spec.highBits r + 1) % 16 else (Dilithium35.Spec.highBits r - 1) % 16)
  else Dilithium35.Spec.highBits r

/-- `useHintV` on one lane. -/
def useHintLane (g f h : W32) : W32 :=
  let h := h - (if f.msb then h else 0) <<< 1
  let g := g + h
  g &&& 15#32

theorem useHint_lane (g f h : W32) (hg : 0 ≤ g.toInt ∧ g.toInt ≤ 15) (hh : h.toInt = 0 ∨ h.toInt = 1) :
    (useHintLane g f h).toInt = if h.toInt = 1 then (if f.toInt ≥ 0 then (g.toInt + 1) % 16 else (g.toInt - 1) % 16) else g.toInt := by
  have fin : ∀ u : W32, -1 ≤ u.toInt → u.toInt ≤ 16 → (u &&& 15#32).toInt = u.toInt % 16 := by
    intro u h1 h2
    have e := and15_toNat u
    rw [toInt_of_nat _ (by rw [e]; omega), e]
    have := BitVec.toInt_eq_toNat_cond u
    have := u.isLt
    split at * <;> omega
  have hz : h.toInt = 0 → h = 0#32 := fun e => BitVec.eq_of_toInt_eq e
  have ho : h.toInt = 1 → h = 1#32 := fun e => BitVec.eq_of_toInt_eq e
  rcases hh with e | e
  · rw [if_neg (by omega)]
    have := fin g (by omega) (by omega)
    unfold useHintLane
    have hs : h - (if f.msb then h else 0) <<< 1 = 0#32 := by rw [hz e]; split <;> decide
    have hadd : g + 0#32 = g := by simp
    simp only [hs, hadd]
    rw [this]; omega
  · rw [if_pos e]
    have c1 : (1#32 : W32).toInt = 1 := by decide
    have cm : (BitVec.ofInt 32 (-1)).toInt = -1 := by decide
    unfold useHintLane
    by_cases hf : f.toInt ≥ 0
    · have hs : h - (if f.msb then h else 0) <<< 1 = 1#32 := by
        rw [ho e, if_neg (by rw [msb_iff]; omega)]; decide
      have ha : (g + 1#32).toInt = g.toInt + 1 := by rw [toInt_add_of _ _ (by rw [c1]; omega) (by rw [c1]; omega), c1]
      simp only [hs]
      rw [fin _ (by omega) (by omega), ha, if_pos hf]
    · have hs : h - (if f.msb then h else 0) <<< 1 = BitVec.ofInt 32 (-1) := by
        rw [ho e, if_pos (by rw [msb_iff]; omega)]; decide
      have ha : (g + BitVec.ofInt 32 (-1)).toInt = g.toInt - 1 := by rw [toInt_add_of _ _ (by rw [cm]; omega) (by rw [cm]; omega), cm]; omega
      simp only [hs]
      rw [fin _ (by omega) (by omega), ha, if_neg hf]

theorem polyUseHintV_int (a h : VPoly) (ha : ∀ i, 0 ≤ ti a i ∧ ti a i < Q) (hh : ∀ i, ti h i = 0 ∨ ti h i = 1) :
    ti (polyUseHintV a h) = fun i => useHintA (ti h i) (ti a i) := by
  funext i
  have d := polyDecomposeV_int (C := wrapSem) a ha
  have e1 : ((polyDecomposeV a).1 i).toInt = Dilithium35.Spec.highBits (ti a i) := by
    have := congrFun d.1 i
    show ti _ i = _
    rw [this]
    show (decompose wrapSem (ti a i)).1 = _
    rw [decompose_eq _ (ha i).1 (ha i).2]; rfl
  have e0 : ((polyDecomposeV a).2 i).toInt = Dilithium35.Spec.lowBits (ti a i) := by
    have := congrFun d.2 i
    show ti _ i = _
    rw [this]
    show (decompose wrapSem (ti a i)).2 = _
    rw [decompose_eq _ (ha i).1 (ha i).2]; rfl
  have hr := spec_highBits_range (ti a i) (ha i).1 (ha i).2
  have : polyUseHintV a h i = useHintLane ((polyDecomposeV a).1 i) ((polyDecomposeV a).2 i) (h i) := by
    unfold polyUseHintV
    show useHintLane (ldv (polyDecomposeV a).1 (i.1 / 8) ⟨i.1 % 8, _⟩) (ldv (polyDecomposeV a).2 (i.1 / 8) ⟨i.1 % 8, _⟩) (ldv h (i.1 / 8) ⟨i.1 % 8, _⟩) = _
    rw [ldv_apply, ldv_apply, ldv_apply]
  show (polyUseHintV a h i).toInt = _
  rw [this, useHint_lane _ _ _ (by rw [e1]; exact hr) (hh i), e1, e0]
  rfl

/-! ## make_hint: the mask -/

theorem hintBad_testBit (f0 f1 : Ymm) (j : Fin 8) (h0 : -2147483648 < (f0 j).toInt) (h1 : 0 ≤ (f1 j).toInt) :
    (hintBad f0 f1).testBit j.1 = decide (makeHint (f0 j).toInt (f1 j).toInt = 1) := by
  unfold hintBad
  rw [movemaskPs_testBit]
  show ((if (BitVec.ofInt 32 261888).toInt < (if (f0 j).toInt < 0 then -f0 j else f0 j).toInt then BitVec.allOnes 32 else 0) |||
    (if (f1 j).toInt < 0 then -(if f0 j = BitVec.ofInt 32 (-261888) then BitVec.allOnes 32 else 0)
      else if f1 j = 0 then 0 else (if f0 j = BitVec.ofInt 32 (-261888) then BitVec.allOnes 32 else 0)) : W32).msb = _
  rw [abs_lane _ h0, if_neg (show ¬ (f1 j).toInt < 0 by omega), BitVec.msb_or]
  have c1 : (BitVec.ofInt 32 261888).toInt = 261888 := by decide
  have c2 : f0 j = BitVec.ofInt 32 (-261888) ↔ (f0 j).toInt = -261888 := by
    constructor
    · intro h; rw [h]; decide
    · intro h; exact BitVec.eq_of_toInt_eq (by rw [h]; decide)
  have c3 : f1 j = 0 ↔ (f1 j).toInt = 0 := by
    constructor
    · intro h; rw [h]; decide
    · intro h; exact BitVec.eq_of_toInt_eq (by rw [h]; decide)
  have ones : (BitVec.allOnes 32).msb = true := by decide
  have zero : (0 : W32).msb = false := by decide
  rw [c1]
  unfold makeHint
  simp only [GAMMA2]
  generalize (f0 j).toInt = x at *
  generalize (f1 j).toInt = y at *
  by_cases ha : 261888 < |x|
  · rw [if_pos ha, ones, Bool.true_or]
    have : x > 261888 ∨ x < -261888 := by rcases lt_abs.1 ha with h | h <;> omega
    rw [if_pos (by tauto)]; rfl
  · rw [if_neg ha, zero, Bool.false_or]
    have hx : ¬ (x > 261888) ∧ ¬ (x < -261888) := by
      constructor
      · intro h; exact ha (lt_abs.2 (Or.inl h))
      · intro h; exact ha (lt_abs.2 (Or.inr (by omega)))
    by_cases hy : y = 0
    · rw [if_pos (c3.2 hy), zero, if_neg (by tauto)]; rfl
    · rw [if_neg (fun e => hy (c3.1 e))]
      by_cases hx2 : x = -261888
      · rw [if_pos (c2.2 hx2), ones, if_pos (by tauto)]; rfl
      · rw [if_neg (fun e => hx2 (c2.1 e)), zero, if_neg (by tauto)]; rfl

end Verif.Avx235
