import Verif.Avx2.NttSpec
import Verif.Dilithium.Lin

/-! # The AVX2 transforms against ntt.c of the clean implementation -/

namespace Verif.Avx2
open Verif.Dilithium

/-- The coefficients as integers. -/
def ti (a : VPoly) : Poly := fun i => (a i).toInt

/-- The order of `ntt_avx`. -/
def permP {α : Type} (a : Fin 256 → α) : Fin 256 → α := fun i => a ⟨perm i.1, perm_lt i.1 i.2⟩

theorem permP_permP {α : Type} (a : Fin 256 → α) : permP (permP a) = a := by
  funext i
  unfold permP
  exact congrArg a (Fin.ext (perm_perm i.1 i.2))

theorem ti_permP (a : VPoly) : ti (permP a) = permP (ti a) := rfl

theorem zt_bound : ∀ k < 256, -4108315 ≤ zt k ∧ zt k ≤ 4108315 := by decide +kernel

theorem ofInt_toInt (x : Int) : (BitVec.ofInt 32 x).toInt = toI32 x := by rw [BitVec.toInt_ofInt]; rfl

theorem Zt_toInt (k : Nat) (h : k < 256) : (Zt k).toInt = zt k := by
  have := zt_bound k h
  unfold Zt
  rw [ofInt_toInt, toI32_id _ (by omega) (by omega)]

theorem wm_toInt (C : CSem) (k : Nat) (h : k < 256) (x : W32) : (wm k x).toInt = montgomeryReduce C (zt k * x.toInt) := by
  unfold wm
  rw [mm_toInt C, Zt_toInt k h]
  rw [Zt_toInt k h]
  unfold ZQ
  rw [ofInt_toInt]
  exact (toI32_spec _).1

theorem div_toInt (C : CSem) (x : W32) : (mm wq DvQ Dv x).toInt = montgomeryReduce C (41978 * x.toInt) := by
  rw [mm_toInt C]
  · rfl
  · decide

theorem toInt_add_of (x y : W32) (h1 : -2147483648 ≤ x.toInt + y.toInt) (h2 : x.toInt + y.toInt ≤ 2147483647) : (x + y).toInt = x.toInt + y.toInt := by
  rw [BitVec.toInt_add]; exact toI32_id _ h1 h2

theorem toInt_sub_of (x y : W32) (h1 : -2147483648 ≤ x.toInt - y.toInt) (h2 : x.toInt - y.toInt ≤ 2147483647) : (x - y).toInt = x.toInt - y.toInt := by
  rw [BitVec.toInt_sub]; exact toI32_id _ h1 h2

/-- A layer on dwords against a layer on integers. -/
theorem layer_exact (oob : Int) (len : Nat) (hlen : IsLen len) (w : Nat → W32 → W32 → W32 × W32) (c : Nat → Int → Int → Int × Int) (B : Int) (a : VPoly) (ha : Bnd B (ti a))
    (h : ∀ b < 128 / len, ∀ lo hi : W32, (-B ≤ lo.toInt ∧ lo.toInt ≤ B) → (-B ≤ hi.toInt ∧ hi.toInt ≤ B) →
      (w b lo hi).1.toInt = (c b lo.toInt hi.toInt).1 ∧ (w b lo hi).2.toInt = (c b lo.toInt hi.toInt).2) :
    ti (pairLayer 0 len w a) = pairLayer oob len c (ti a) := by
  have hb : ∀ i : Fin 256, i.1 / (2 * len) < 128 / len := fun i => by
    have hi := i.2
    unfold IsLen at hlen
    simp only [List.mem_cons, List.not_mem_nil, or_false] at hlen
    rcases hlen with h | h | h | h | h | h | h | h <;> subst h <;> norm_num <;> omega
  funext i
  have hi := i.2
  show (pairLayer 0 len w a i).toInt = _
  unfold pairLayer
  split
  · rename_i hl
    obtain ⟨_, _, h3⟩ := split_pos len i.1 hlen hi hl
    rw [rd_lt _ _ _ h3, rd_lt _ _ _ h3]
    exact (h _ (hb i) _ _ (ha i) (ha ⟨_, h3⟩)).1
  · have h3 : i.1 - len < 256 := by omega
    rw [rd_lt _ _ _ h3, rd_lt _ _ _ h3]
    exact (h _ (hb i) _ _ (ha ⟨_, h3⟩) (ha i)).2

variable {C : CSem} {oob : Int}

theorem wLayer_exact (L : Nat) (hL : L < 8) (B : Int) (hB : B + Q ≤ 2147483647) (a : VPoly) (ha : Bnd B (ti a)) :
    ti (wLayer L a) = pairLayer oob (128 / 2 ^ L) (fun b => cBf C oob (128 / (128 / 2 ^ L) + b)) (ti a) ∧ Bnd (B + Q) (ti (wLayer L a)) ∧
      res (ti (wLayer L a)) = fwd (128 / 2 ^ L) (res (ti a)) := by
  have hlen := isLen_fwd L hL
  have e2 : 128 / (128 / 2 ^ L) = 2 ^ L := by interval_cases L <;> rfl
  have key : ti (wLayer L a) = pairLayer oob (128 / 2 ^ L) (fun b => cBf C oob (128 / (128 / 2 ^ L) + b)) (ti a) := by
    refine layer_exact oob _ hlen _ _ B a ha ?_
    intro b hb lo hi hlo hhi
    have hk : 2 ^ L + b < 256 := by rw [e2] at hb; have := pow_le_128 L hL; omega
    have h0 : 2 ^ L + b ≠ 0 := by have := pow_le_128 L hL; omega
    have hz : zeta oob (2 ^ L + b) = zt (2 ^ L + b) := by rw [zeta_eq oob _ hk]; unfold zt; rw [if_neg h0]
    have zb := zt_bound _ hk
    have hb32 := toInt_bound32 hi
    have mb := mul_bnd (X := 4108315) (Y := 2147483648) zb (by omega : -2147483648 ≤ hi.toInt ∧ hi.toInt ≤ 2147483648)
    have mr := mont_range C (zt (2 ^ L + b) * hi.toInt) (by simp only [Q]; omega) (by simp only [Q]; omega)
    simp only [Q] at mr hB
    have hm := wm_toInt C _ hk hi
    dsimp only
    rw [e2]
    unfold cBf
    rw [hz, C.i64_id _ (by omega) (by omega)]
    rw [C.i32_id _ (by omega) (by omega), C.i32_id _ (by omega) (by omega)]
    rw [toInt_add_of _ _ (by rw [hm]; omega) (by rw [hm]; omega), toInt_sub_of _ _ (by rw [hm]; omega) (by rw [hm]; omega), hm]
    exact ⟨rfl, rfl⟩
  obtain ⟨a', e, r, b⟩ := nttLayer_spec (C := C) (oob := oob) _ hlen B hB (ti a) ha
  rw [nttLayer_eq C oob _ hlen (ti a)] at e
  have ea : pairLayer oob (128 / 2 ^ L) (fun b => cBf C oob (128 / (128 / 2 ^ L) + b)) (ti a) = a' := congrArg Prod.fst e
  rw [key, ea]
  exact ⟨rfl, b, r⟩

/-- **`ntt_avx` computes what `ntt` computes**, integer for integer, in another order. -/
theorem nttC_clean (M : Mach) (a : VPoly) (B : Int) (hB : B + 8 * Q ≤ 2147483647) (ha : Bnd B (ti a)) : ti (nttC M a) = permP (ntt C oob (ti a)) := by
  have e : nttC M a = permP (wNtt 8 a) := by
    funext i; rw [nttC_eq, rd_lt _ _ _ (perm_lt i.1 i.2)]; rfl
  rw [e, ti_permP]
  refine congrArg permP ?_
  simp only [Q] at hB
  obtain ⟨e1, b1, _⟩ := wLayer_exact (C := C) (oob := oob) 0 (by omega) B (by simp only [Q]; omega) a ha
  obtain ⟨e2, b2, _⟩ := wLayer_exact (C := C) (oob := oob) 1 (by omega) _ (by simp only [Q]; omega) _ b1
  obtain ⟨e3, b3, _⟩ := wLayer_exact (C := C) (oob := oob) 2 (by omega) _ (by simp only [Q]; omega) _ b2
  obtain ⟨e4, b4, _⟩ := wLayer_exact (C := C) (oob := oob) 3 (by omega) _ (by simp only [Q]; omega) _ b3
  obtain ⟨e5, b5, _⟩ := wLayer_exact (C := C) (oob := oob) 4 (by omega) _ (by simp only [Q]; omega) _ b4
  obtain ⟨e6, b6, _⟩ := wLayer_exact (C := C) (oob := oob) 5 (by omega) _ (by simp only [Q]; omega) _ b5
  obtain ⟨e7, b7, _⟩ := wLayer_exact (C := C) (oob := oob) 6 (by omega) _ (by simp only [Q]; omega) _ b6
  obtain ⟨e8, b8, _⟩ := wLayer_exact (C := C) (oob := oob) 7 (by omega) _ (by simp only [Q]; omega) _ b7
  have w8 : wNtt 8 a = wLayer 7 (wLayer 6 (wLayer 5 (wLayer 4 (wLayer 3 (wLayer 2 (wLayer 1 (wLayer 0 a))))))) := by simp only [wNtt]
  rw [w8, e8, e7, e6, e5, e4, e3, e2, e1]
  unfold ntt
  simp only [List.foldl_cons, List.foldl_nil]
  have n1 := nttLayer_eq C oob 128 (by decide)
  have n2 := nttLayer_eq C oob 64 (by decide)
  have n3 := nttLayer_eq C oob 32 (by decide)
  have n4 := nttLayer_eq C oob 16 (by decide)
  have n5 := nttLayer_eq C oob 8 (by decide)
  have n6 := nttLayer_eq C oob 4 (by decide)
  have n7 := nttLayer_eq C oob 2 (by decide)
  have n8 := nttLayer_eq C oob 1 (by decide)
  norm_num at n1 n2 n3 n4 n5 n6 n7 n8
  norm_num
  rw [n1, n2, n3, n4, n5, n6, n7, n8]

/-! ## Inverse -/

theorem zt0_factor : ((zt 0 : Int) : F) * Rinv = Z 1 * (((41978 : Int) : F) * Rinv) := by
  have := cast_eq_of_dvd (zt 0 * 8265825) (zetas.getD 1 0 * 8265825 * (41978 * 8265825)) (by decide +kernel)
  unfold Z Rinv
  rw [← Int.cast_mul, ← Int.cast_mul, ← Int.cast_mul, ← Int.cast_mul]
  exact this

/-- Layers 0 to 6. -/
theorem wInvLayer_res (C : CSem) (L : Nat) (hL : L < 7) (B : Int) (hB : 2 * B ≤ 2147483647) (hQ : Q ≤ 2 * B) (a : VPoly) (ha : Bnd B (ti a)) :
    Bnd (2 * B) (ti (wInvLayer L a)) ∧ res (ti (wInvLayer L a)) = bwd (2 ^ L) (res (ti a)) := by
  have hlen := isLen_inv L (by omega)
  have key : ti (wInvLayer L a) = pairLayer 0 (2 ^ L) (fun b => cIbf C 0 (256 / 2 ^ L - 1 - b)) (ti a) := by
    refine layer_exact 0 _ hlen _ _ B a ha ?_
    intro b hb lo hi hlo hhi
    have hb' : 256 / 2 ^ L - 1 - b < 256 ∧ 256 / 2 ^ L - 1 - b ≠ 0 := by
      interval_cases L <;> norm_num at * <;> omega
    rw [if_pos hL]
    generalize 256 / 2 ^ L - 1 - b = k at hb'
    obtain ⟨hk, h0⟩ := hb'
    have hz : zeta 0 k = zt k := by rw [zeta_eq 0 _ hk]; unfold zt; rw [if_neg h0]
    have zb := zt_bound _ hk
    have es : (hi - lo).toInt = hi.toInt - lo.toInt := toInt_sub_of _ _ (by omega) (by omega)
    have mb := mul_bnd (X := 4108315) (Y := 2147483648) zb (by omega : -2147483648 ≤ hi.toInt - lo.toInt ∧ hi.toInt - lo.toInt ≤ 2147483648)
    have hm := wm_toInt C _ hk (hi - lo)
    unfold cIbf
    rw [hz]
    rw [C.i32_id (lo.toInt + hi.toInt) (by omega) (by omega), C.i32_id (-zt k) (by omega) (by omega), C.i32_id (lo.toInt - hi.toInt) (by omega) (by omega)]
    rw [show -zt k * (lo.toInt - hi.toInt) = zt k * (hi.toInt - lo.toInt) by ring, C.i64_id _ (by omega) (by omega)]
    dsimp only
    rw [toInt_add_of _ _ (by omega) (by omega), hm, es]
    exact ⟨rfl, rfl⟩
  obtain ⟨a', e, r, b⟩ := invnttLayer_spec (C := C) (oob := 0) _ hlen B hB hQ (ti a) ha
  rw [invnttLayer_eq C 0 _ hlen (ti a)] at e
  have ea : pairLayer 0 (2 ^ L) (fun b => cIbf C 0 (256 / 2 ^ L - 1 - b)) (ti a) = a' := congrArg Prod.fst e
  rw [key, ea]
  exact ⟨b, r⟩

theorem fin_hi (C : CSem) (z x y : Int) (z0 : z = -3975713) (zf : ((z : Int) : F) * Rinv = Z 1 * (((41978 : Int) : F) * Rinv))
    (b1 : -(128 * 8380417) ≤ x ∧ x ≤ 128 * 8380417) (b2 : -(128 * 8380417) ≤ y ∧ y ≤ 128 * 8380417) :
    ((montgomeryReduce C (z * (x - y)) : Int) : F) = ((41978 : Int) : F) * Rinv * (-Z 1 * ((y : F) - (x : F))) ∧
      (-6176131 ≤ montgomeryReduce C (z * (x - y)) ∧ montgomeryReduce C (z * (x - y)) ≤ 6176131) := by
  have d1 : -(256 * 8380417) ≤ x - y ∧ x - y ≤ 256 * 8380417 := by omega
  have d2 : -(3975713 * (256 * 8380417)) ≤ z * (x - y) ∧ z * (x - y) ≤ 3975713 * (256 * 8380417) := by rw [z0]; omega
  obtain ⟨k, hk, h1, h2⟩ := mont_spec (C := C) (z * (x - y)) (by simp only [Q]; omega) (by simp only [Q]; omega)
  rw [mont_cast _ (by simp only [Q]; omega) (by simp only [Q]; omega)]
  simp only [Q] at hk
  constructor
  · rw [Int.cast_mul, Int.cast_sub]
    linear_combination ((x : F) - (y : F)) * zf
  · clear zf; omega

/-- The last layer with the scaling. -/
theorem wFin_res (C : CSem) (a : VPoly) (ha : Bnd (128 * Q) (ti a)) :
    res (ti (wFin (wInvLayer 7 a))) = (((41978 : Int) : F) * Rinv) • bwd 128 (res (ti a)) ∧ Bnd 6176131 (ti (wFin (wInvLayer 7 a))) := by
  have key : ∀ i : Fin 256, ((((wFin (wInvLayer 7 a)) i).toInt : Int) : F) = (((41978 : Int) : F) * Rinv) * bwd 128 (res (ti a)) i ∧
      (-6176131 ≤ ((wFin (wInvLayer 7 a)) i).toInt ∧ ((wFin (wInvLayer 7 a)) i).toInt ≤ 6176131) := by
    intro i
    have hi := i.2
    unfold wFin wInvLayer bwd
    by_cases c : i.1 < 128
    · rw [if_pos c]
      have h3 : i.1 + 128 < 256 := by omega
      unfold pairLayer
      rw [if_pos (by norm_num; omega), if_pos (by norm_num; omega)]
      rw [show i.1 + 2 ^ 7 = i.1 + 128 by rfl, rd_lt _ _ _ h3, rd_lt _ _ _ h3]
      have b1 := ha i
      have b2 := ha ⟨_, h3⟩
      unfold ti at b1 b2
      simp only [Q] at b1 b2
      rw [div_toInt C, toInt_add_of _ _ (by omega) (by omega)]
      obtain ⟨k, hk, h1, h2⟩ := mont_spec (C := C) (41978 * ((a i).toInt + (a ⟨i.1 + 128, h3⟩).toInt)) (by simp only [Q]; omega) (by simp only [Q]; omega)
      rw [mont_cast _ (by simp only [Q]; omega) (by simp only [Q]; omega)]
      simp only [Q] at hk
      refine ⟨?_, by omega⟩
      show _ = _ * ((((a i).toInt : Int) : F) + (((a ⟨i.1 + 128, h3⟩).toInt : Int) : F))
      rw [Int.cast_mul, Int.cast_add]
      ring
    · rw [if_neg c]
      have h3 : i.1 - 128 < 256 := by omega
      unfold pairLayer
      rw [if_neg (by norm_num; omega), if_neg (by norm_num; omega)]
      rw [show i.1 - 2 ^ 7 = i.1 - 128 by rfl, rd_lt _ _ _ h3, rd_lt _ _ _ h3]
      have b1 := ha i
      have b2 := ha ⟨_, h3⟩
      unfold ti at b1 b2
      simp only [Q] at b1 b2
      dsimp only
      rw [if_neg (by omega), wm_toInt C 0 (by omega), toInt_sub_of _ _ (by omega) (by omega)]
      rw [show i.1 / (2 * 128) = 0 by omega]
      exact fin_hi C (zt 0) (a i).toInt (a ⟨i.1 - 128, h3⟩).toInt rfl zt0_factor b1 b2
  exact ⟨funext fun i => (key i).1, fun i => (key i).2⟩

theorem wInv_res (C : CSem) (a : VPoly) (ha : Bnd Q (ti a)) :
    res (ti (wFin (wInv 8 a))) = (((41978 : Int) : F) * Rinv) • fInv (res (ti a)) ∧ Bnd 6176131 (ti (wFin (wInv 8 a))) := by
  obtain ⟨b1, r1⟩ := wInvLayer_res C 0 (by omega) Q (by decide) (by decide) a ha
  obtain ⟨b2, r2⟩ := wInvLayer_res C 1 (by omega) _ (by decide) (by decide) _ b1
  obtain ⟨b3, r3⟩ := wInvLayer_res C 2 (by omega) _ (by decide) (by decide) _ b2
  obtain ⟨b4, r4⟩ := wInvLayer_res C 3 (by omega) _ (by decide) (by decide) _ b3
  obtain ⟨b5, r5⟩ := wInvLayer_res C 4 (by omega) _ (by decide) (by decide) _ b4
  obtain ⟨b6, r6⟩ := wInvLayer_res C 5 (by omega) _ (by decide) (by decide) _ b5
  obtain ⟨b7, r7⟩ := wInvLayer_res C 6 (by omega) _ (by decide) (by decide) _ b6
  have b7' : Bnd (128 * Q) (ti (wInvLayer 6 (wInvLayer 5 (wInvLayer 4 (wInvLayer 3 (wInvLayer 2 (wInvLayer 1 (wInvLayer 0 a)))))))) := fun i => by
    have := b7 i; simp only [Q] at this ⊢; omega
  obtain ⟨r8, b8⟩ := wFin_res C _ b7'
  have w8 : wInv 8 a = wInvLayer 7 (wInvLayer 6 (wInvLayer 5 (wInvLayer 4 (wInvLayer 3 (wInvLayer 2 (wInvLayer 1 (wInvLayer 0 a))))))) := by
    simp only [wInv]
  rw [w8]
  refine ⟨?_, b8⟩
  rw [r8, r7, r6, r5, r4, r3, r2, r1]
  rfl

/-- **`invntt_avx`**, on input in the order of `ntt_avx`. -/
theorem invnttC_res (C : CSem) (M : Mach) (a : VPoly) (ha : Bnd Q (ti a)) :
    res (ti (invnttC M (permP a))) = res (invnttTomont C oob (ti a)) ∧ Bnd 6176131 (ti (invnttC M (permP a))) := by
  have e : invnttC M (permP a) = wFin (wInv 8 a) := invnttC_eq M a
  rw [e]
  obtain ⟨r, b⟩ := wInv_res C a ha
  exact ⟨by rw [r, (invLayers_spec (C := C) (oob := oob) (ti a) ha).1], b⟩

/-! ## Pointwise -/

theorem pointwiseC_clean (M : Mach) (a b : VPoly) : ti (pointwiseC M a b) = polyPointwise C (ti a) (ti b) := by
  funext i
  have h := mul_bound32 (a i) (b i)
  show (pointwiseC M a b i).toInt = montgomeryReduce C (C.i64 ((a i).toInt * (b i).toInt))
  rw [pointwiseC_eq, mont64_toInt C _ (by rw [smul_toInt]; omega) (by rw [smul_toInt]; omega), smul_toInt, C.i64_id _ (by omega) (by omega)]

theorem pointwiseC'_eq' (M : Mach) (a b : VPoly) : pointwiseC' M a b = pointwiseC M a b := by
  funext i; rw [pointwiseC_eq, pointwiseC'_eq]

theorem toInt_add64_of (x y : BitVec 64) (h1 : -9223372036854775808 ≤ x.toInt + y.toInt) (h2 : x.toInt + y.toInt ≤ 9223372036854775807) :
    (x + y).toInt = x.toInt + y.toInt := by
  rw [BitVec.toInt_add, Int.bmod_eq_of_le (by norm_num; omega) (by norm_num; omega)]

theorem pointwiseAccC_int (C : CSem) (M : Mach) (u v : Fin 4 → VPoly) (A B : Int) (hu : ∀ k, Bnd A (ti (u k))) (hv : ∀ k, Bnd B (ti (v k))) (h : A * B ≤ 2000000000000000000) (i : Fin 256) :
    (pointwiseAccC M u v i).toInt = montgomeryReduce C (∑ k, ti (u k) i * ti (v k) i) := by
  have m : ∀ k, -(A * B) ≤ ti (u k) i * ti (v k) i ∧ ti (u k) i * ti (v k) i ≤ A * B := fun k => mul_bnd (hu k i) (hv k i)
  have m0 := m 0; have m1 := m 1; have m2 := m 2; have m3 := m 3
  unfold ti at m0 m1 m2 m3
  have e : (smul (u 0 i) (v 0 i) + smul (u 1 i) (v 1 i) + smul (u 2 i) (v 2 i) + smul (u 3 i) (v 3 i)).toInt = ∑ k, ti (u k) i * ti (v k) i := by
    rw [Fin.sum_univ_four]
    unfold ti
    generalize hx0 : (u 0 i).toInt * (v 0 i).toInt = x0 at *
    generalize hx1 : (u 1 i).toInt * (v 1 i).toInt = x1 at *
    generalize hx2 : (u 2 i).toInt * (v 2 i).toInt = x2 at *
    generalize hx3 : (u 3 i).toInt * (v 3 i).toInt = x3 at *
    rw [← smul_toInt] at hx0 hx1 hx2 hx3
    have s1 := toInt_add64_of (smul (u 0 i) (v 0 i)) (smul (u 1 i) (v 1 i)) (by omega) (by omega)
    have s2 := toInt_add64_of _ (smul (u 2 i) (v 2 i)) (show _ ≤ (smul (u 0 i) (v 0 i) + smul (u 1 i) (v 1 i)).toInt + _ by omega) (by omega)
    have s3 := toInt_add64_of _ (smul (u 3 i) (v 3 i)) (show _ ≤ (smul (u 0 i) (v 0 i) + smul (u 1 i) (v 1 i) + smul (u 2 i) (v 2 i)).toInt + _ by omega) (by omega)
    omega
  have eb : -(4 * (A * B)) ≤ ∑ k, ti (u k) i * ti (v k) i ∧ ∑ k, ti (u k) i * ti (v k) i ≤ 4 * (A * B) := by
    rw [Fin.sum_univ_four]; unfold ti; omega
  rw [pointwiseAccC_eq, mont64_toInt C _ (by rw [e]; omega) (by rw [e]; omega), e]

theorem pointwiseAccC_res (C : CSem) (M : Mach) (u v : Fin 4 → VPoly) (A B : Int) (hu : ∀ k, Bnd A (ti (u k))) (hv : ∀ k, Bnd B (ti (v k)))
    (h : 4 * (A * B) ≤ 2147483647 * Q) :
    res (ti (pointwiseAccC M u v)) = Rinv • ∑ k, res (ti (u k)) * res (ti (v k)) ∧ Bnd Q (ti (pointwiseAccC M u v)) := by
  have m : ∀ i k, -(A * B) ≤ ti (u k) i * ti (v k) i ∧ ti (u k) i * ti (v k) i ≤ A * B := fun i k => mul_bnd (hu k i) (hv k i)
  have eb : ∀ i, -(4 * (A * B)) ≤ ∑ k, ti (u k) i * ti (v k) i ∧ ∑ k, ti (u k) i * ti (v k) i ≤ 4 * (A * B) := fun i => by
    have m0 := m i 0; have m1 := m i 1; have m2 := m i 2; have m3 := m i 3
    rw [Fin.sum_univ_four]; omega
  simp only [Q] at h
  constructor
  · funext i
    have := eb i
    show (((pointwiseAccC M u v i).toInt : Int) : F) = _
    rw [pointwiseAccC_int C M u v A B hu hv (by omega) i, mont_cast _ (by simp only [Q]; omega) (by simp only [Q]; omega)]
    simp only [Pi.smul_apply, Finset.sum_apply, smul_eq_mul, Pi.mul_apply, res]
    push_cast
    ring
  · intro i
    have := eb i
    show -Q ≤ (pointwiseAccC M u v i).toInt ∧ (pointwiseAccC M u v i).toInt ≤ Q
    rw [pointwiseAccC_int C M u v A B hu hv (by omega) i]
    exact mont_range C _ (by simp only [Q]; omega) (by simp only [Q]; omega)

end Verif.Avx2
