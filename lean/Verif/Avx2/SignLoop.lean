import Verif.Avx2.SignHint

/-! # The AVX2 signing loop produces the portable signature -/

namespace Verif.Avx2

open Verif.Dilithium
open Verif.Dilithium.Spec (Rq toRq std IsNtt matMul)

variable {C : CSem} {H : Shake}

theorem range_filter (n : Nat) (p : Nat → Bool) : (List.range n).filter p = ((List.finRange n).filter fun j => p j.1).map (·.1) := by
  rw [← List.map_coe_finRange_eq_range, List.filter_map]
  rfl

theorem hintPos_idx (a0 a1 : VPoly) (h : Poly) (hh : ∀ i, h i = makeHint (ti a0 i) (ti a1 i)) : hintPos a0 a1 256 = idx h := by
  unfold hintPos idx
  rw [range_filter]
  refine congrArg _ (List.filter_congr fun j _ => ?_)
  have e : Fin.ofNat 256 j.1 = j := Fin.ext (Nat.mod_eq_of_lt j.2)
  rw [e, ← hh]
  have := makeHint_01 (ti a0 j) (ti a1 j)
  rw [← hh] at this
  rcases this with t | t <;> rw [t] <;> decide

theorem hintStepA_eq (J : Fin 4 → Fin 5 → Junk) {x : CtxA} {c : VPoly} {w0 w1 : Fin 4 → VPoly} {R T h : Vec} (i : Fin 4)
    (e1 : ti (polyReduceV (polySubV (w0 i) (mulPoly (fun n => J i (n.castLE (by omega))) c (x.s2 i)))) = R i)
    (e2 : ti (polyReduceV (mulPoly (fun n => J i (n.castLE (by omega) + 2)) c (x.t0 i))) = T i) (b1 : Bnd 1000000 (R i)) (b2 : Bnd 1000000 (T i))
    (hh : ∀ n, h i n = makeHint (R i n + T i n) (ti (w1 i) n)) (hw : ∀ n, 0 ≤ ti (w1 i) n) (st : (Nat → UInt8) × Nat) :
    hintStepA J x c w0 w1 st i = hintStepS (fun i => decide ((∀ n, |R i n| < 95154) ∧ ∀ n, |T i n| < 95232)) (fun i => (idx (h i)).map UInt8.ofNat) st i := by
  unfold hintStepA hintStepS
  dsimp only
  generalize hU : polyReduceV (polySubV (w0 i) (mulPoly (fun n => J i (n.castLE (by omega))) c (x.s2 i))) = U at *
  generalize hV : polyReduceV (mulPoly (fun n => J i (n.castLE (by omega) + 2)) c (x.t0 i)) = V at *
  have n1 := (polyChknormV_iff U (95232 - 78) (by decide) (fun n => by rw [e1]; have := b1 n; omega)).1
  have n2 := (polyChknormV_iff V 95232 (by decide) (fun n => by rw [e2]; have := b2 n; omega)).1
  rw [e1] at n1
  rw [e2] at n2
  by_cases c1 : ∀ n, |R i n| < 95154
  · rw [if_neg (by rw [n1.2 c1]; decide)]
    by_cases c2 : ∀ n, |T i n| < 95232
    · rw [if_neg (by rw [n2.2 c2]; decide), if_neg (c := decide _ = false) (fun e => of_decide_eq_false e ⟨c1, c2⟩)]
      have es : ti (polyAddV U V) = fun n => R i n + T i n := by
        rw [polyAddV_int _ _ fun n => by rw [e1, e2]; have := b1 n; have := b2 n; omega, e1, e2]
      have hs := makeHintAvx_spec (polyAddV U V) (w1 i) (J i 4).bytes (fun n => by rw [es]; have := b1 n; have := b2 n; dsimp only; omega) hw
      rw [hintPos_idx _ _ (h i) (fun n => by rw [hh, es])] at hs
      generalize makeHintAvx (polyAddV U V) (w1 i) (J i 4).bytes = g at hs
      obtain ⟨buf, n⟩ := g
      obtain ⟨s1, s2, -⟩ := hs
      dsimp only at s1 s2 ⊢
      subst s1
      have hr : readB buf 0 (idx (h i)).length = (idx (h i)).map UInt8.ofNat := by
        apply List.ext_getElem
        · rw [readB_length, List.length_map]
        · intro k k1 k2
          rw [readB_get, Nat.zero_add, s2 k k2]
      rw [hr, List.length_map]
    · rw [if_pos (fun e => c2 (n2.1 e)), if_pos (decide_eq_false fun e => c2 e.2)]
  · rw [if_pos (fun e => c1 (n1.1 e)), if_pos (decide_eq_false fun e => c1 e.1)]

/-- What one pass of the AVX2 loop must do, given the portable pass. -/
def AttemptRel (a : Option ((Nat → UInt8) × Bool)) : Option (Option Bytes) → Prop
  | none => a = none
  | some none => ∃ m, a = some (m, false)
  | some (some s) => ∃ m, a = some (m, true) ∧ readB m 0 2420 = s

/-- The four packed commitments. -/
theorem packW1_read (m : Nat → UInt8) (w1 : Fin 4 → VPoly) (v : Vec) (hv : ∀ k, ti (w1 k) = v k) (hr : ∀ k i, 0 ≤ v k i ∧ v k i < 64) :
    readB ((List.finRange 4).foldl (fun sig i => polyw1PackV sig (i.1 * 192) (w1 i)) m) 0 768 = vecPackW1 v := by
  have hb : ∀ k i, 0 ≤ ti (w1 k) i ∧ ti (w1 k) i < 64 := fun k i => by rw [hv]; exact hr k i
  have get : ∀ (m : Nat → UInt8) (k : Fin 4) (off : Nat), readB (polyw1PackV m off (w1 k)) off 192 = polyw1Pack (v k) := by
    intro m k off
    apply List.ext_getElem
    · rw [readB_length, polyw1Pack_len]
    · intro n h1 h2
      rw [readB_get, (polyw1PackV_spec m off (w1 k) (hb k)).1 n (by rw [readB_length] at h1; exact h1), hv]
      exact (List.getElem_eq_getD 0).symm
  have keep : ∀ (m : Nat → UInt8) (k : Fin 4) (off o n : Nat), o + n ≤ off → readB (polyw1PackV m off (w1 k)) o n = readB m o n := by
    intro m k off o n h
    exact readB_congr _ _ _ _ fun j hj => (polyw1PackV_spec m off (w1 k) (hb k)).2 _ (by omega)
  rw [finRange4]
  simp only [List.foldl_cons, List.foldl_nil, show (0 : Fin 4).1 = 0 from rfl, show (1 : Fin 4).1 = 1 from rfl,
    show (2 : Fin 4).1 = 2 from rfl, show (3 : Fin 4).1 = 3 from rfl, Nat.reduceMul, Nat.zero_mul, Nat.one_mul]
  rw [show 768 = 192 + (192 + (192 + 192)) from rfl, readB_add, readB_add, readB_add]
  simp only [Nat.zero_add, Nat.reduceAdd]
  rw [get, keep _ 3 576 384 192 (by omega), get, keep _ 3 576 192 192 (by omega), keep _ 2 384 192 192 (by omega), get,
    keep _ 3 576 0 192 (by omega), keep _ 2 384 0 192 (by omega), keep _ 1 192 0 192 (by omega), get]
  unfold vecPackW1
  rw [finRange4]
  simp only [List.flatMap_cons, List.flatMap_nil, List.append_nil]

theorem chknorm_any (Z : Fin 4 → VPoly) (zv : Vec) (hz : ∀ k, ti (Z k) = zv k) (hb : ∀ k, Bnd 1000000 (zv k)) :
    ((List.finRange 4).any fun i => decide (polyChknormV (Z i) (131072 - 78) ≠ 0)) = vecChknorm C zv (GAMMA1 - BETA) := by
  have n := fun k => (polyChknormV_iff (Z k) (131072 - 78) (by decide) (fun n => by rw [hz]; have := hb k n; omega)).1
  have e := vecChknorm_false (C := C) (v := zv) (B := GAMMA1 - BETA) (by decide) (fun k => (hb k).mono (by decide))
  rw [Bool.eq_iff_iff, ← not_iff_not, Bool.not_eq_true, Bool.not_eq_true, e, List.any_eq_false]
  simp only [List.mem_finRange, true_implies, decide_eq_true_eq, not_not]
  refine forall_congr' fun k => ?_
  rw [n k, hz k]
  exact forall_congr' fun i => abs_lt

theorem layoutSig (m : Nat → UInt8) (c p0 p1 p2 p3 hb : Bytes) (hc : readB m 0 32 = c) (hh : readB m 2336 84 = hb) (l0 : p0.length = 576) (l1 : p1.length = 576)
    (l2 : p2.length = 576) (l3 : p3.length = 576) :
    readB (writeAt (writeAt (writeAt (writeAt m 32 p0) 608 p1) 1184 p2) 1760 p3) 0 2420 = c ++ (p0 ++ (p1 ++ (p2 ++ (p3 ++ hb)))) := by
  rw [show 2420 = 32 + (576 + (576 + (576 + (576 + 84)))) from rfl]
  simp only [readB_add]
  simp only [Nat.zero_add, Nat.reduceAdd]
  simp only [readB_disj, readB_same, l0, l1, l2, l3, hc, hh, Nat.reduceAdd, Nat.reduceLeDiff, true_or, or_true, Nat.zero_add]

/-- The end of a pass. -/
theorem final_rel (Z : Fin 4 → VPoly) (zv R T h : Vec) (c : Bytes) (hcl : c.length = 32) (sg : Nat → UInt8) (hz : ∀ k, ti (Z k) = zv k)
    (bz : ∀ k, Bnd 1000000 (zv k)) (bR : ∀ k, Bnd 1000000 (R k)) (bT : ∀ k, Bnd 1000000 (T k)) (n : Int) (hn : (wt h : Int) = n) :
    AttemptRel (if (List.finRange 4).any (fun i => decide (polyChknormV (Z i) (131072 - 78) ≠ 0)) then some (writeAt sg 0 c, false) else
        some (finishA C Z ((List.finRange 4).foldlM (hintStepS (fun i => decide ((∀ n, |R i n| < 95154) ∧ ∀ n, |T i n| < 95232)) fun i => (idx (h i)).map UInt8.ofNat)
          (writeAt (writeAt sg 0 c) 2336 (List.replicate 80 0), 0))))
      (if vecChknorm C zv (GAMMA1 - BETA) then some none else
       if vecChknorm C R (GAMMA2 - BETA) then some none else
       if vecChknorm C T GAMMA2 then some none else
       if n > 80 then some none else some (some (packSig C c zv h))) := by
  rw [chknorm_any (C := C) Z zv hz bz]
  cases c1 : vecChknorm C zv (GAMMA1 - BETA) with
  | true => exact ⟨_, rfl⟩
  | false =>
  have eR := vecChknorm_false (C := C) (v := R) (B := GAMMA2 - BETA) (by decide) (fun k => (bR k).mono (by decide))
  have eT := vecChknorm_false (C := C) (v := T) (B := GAMMA2) (by decide) (fun k => (bT k).mono (by decide))
  have fail : (¬ (∀ k i, -(GAMMA2 - BETA) < R k i ∧ R k i < GAMMA2 - BETA) ∨ ¬ (∀ k i, -GAMMA2 < T k i ∧ T k i < GAMMA2) ∨ 80 < wt h) →
      ∃ m, some (finishA C Z ((List.finRange 4).foldlM (hintStepS (fun i => decide ((∀ n, |R i n| < 95154) ∧ ∀ n, |T i n| < 95232))
        fun i => (idx (h i)).map UInt8.ofNat) (writeAt (writeAt sg 0 c) 2336 (List.replicate 80 0), 0))) = some (m, false) := by
    intro hf
    obtain ⟨m', hm'⟩ := hintStepS_fail (fun i => decide ((∀ n, |R i n| < 95154) ∧ ∀ n, |T i n| < 95232)) (fun i => (idx (h i)).map UInt8.ofNat)
      (writeAt (writeAt sg 0 c) 2336 (List.replicate 80 0)) (by
        rcases hf with hf | hf | hf
        · left
          by_contra hc
          apply hf
          intro k i
          have := Classical.not_not.1 fun e => hc ⟨k, decide_eq_false e⟩
          exact abs_lt.1 (this.1 i)
        · left
          by_contra hc
          apply hf
          intro k i
          have := Classical.not_not.1 fun e => hc ⟨k, decide_eq_false e⟩
          exact abs_lt.1 (this.2 i)
        · right
          simp only [List.length_map]
          unfold wt at hf
          omega)
    exact ⟨m', by rw [hm']; rfl⟩
  rw [if_neg (by decide)]
  cases c2 : vecChknorm C R (GAMMA2 - BETA) with
  | true =>
    exact fail (Or.inl fun e => by rw [eR.2 e] at c2; cases c2)
  | false =>
  cases c3 : vecChknorm C T GAMMA2 with
  | true => exact fail (Or.inr (Or.inl fun e => by rw [eT.2 e] at c3; cases c3))
  | false =>
  by_cases c4 : n > 80
  · simp only [Bool.false_eq_true, if_false, if_pos c4]
    exact fail (Or.inr (Or.inr (by omega)))
  simp only [Bool.false_eq_true, if_false, if_neg c4]
  obtain ⟨m', k, g1, g2, g3⟩ := hintStepS_pack (fun i => decide ((∀ n, |R i n| < 95154) ∧ ∀ n, |T i n| < 95232)) h (writeAt sg 0 c)
    (fun i => decide_eq_true ⟨fun n => abs_lt.2 (eR.1 c2 i n), fun n => abs_lt.2 (eT.1 c3 i n)⟩) (by omega)
  rw [g1]
  refine ⟨_, rfl, ?_⟩
  have hc : readB m' 0 32 = c := by
    rw [show 2336 = 32 + 2304 from rfl, readB_add, readB_add] at g2
    have := (List.append_inj g2 (by rw [readB_length, readB_length])).1
    rw [this, readB_same _ _ _ _ hcl]
  rw [finRange4]
  simp only [List.foldl_cons, List.foldl_nil, show (0 : Fin 4).1 = 0 from rfl, show (1 : Fin 4).1 = 1 from rfl,
    show (2 : Fin 4).1 = 2 from rfl, show (3 : Fin 4).1 = 3 from rfl, Nat.reduceMul, Nat.zero_mul, Nat.one_mul, Nat.reduceAdd, hz]
  rw [layoutSig m' c _ _ _ _ _ hc g3 (polyzPack_len _) (polyzPack_len _) (polyzPack_len _) (polyzPack_len _)]
  unfold packSig
  rw [finRange4, List.take_of_length_le (by omega)]
  simp only [List.flatMap_cons, List.flatMap_nil, List.append_nil, List.append_assoc]

theorem addRed (C : CSem) (a P : VPoly) (y e : Poly) (ha : ti a = y) (by' : Bnd 500000 y) (a1 : res (ti P) = res e) (a2 : Bnd 6176131 (ti P)) (be : Bnd 500000 e) :
    ti (polyReduceV (polyAddV a P)) = fun i => y i + e i := by
  have ea := polyAddV_int a P (fun n => by rw [ha]; have := by' n; have := a2 n; omega)
  rw [polyReduceV_int (C := C) _ (fun n => by rw [ea, ha]; have := by' n; have := a2 n; dsimp only; omega), ea, ha]
  funext n
  have hdv := dvd_of_res a1 n
  have b1 := be n
  have b2 := by' n
  have b3 := a2 n
  show reduce32 C (y n + ti P n) = y n + e n
  refine reduce32_center _ _ ?_ ?_ ?_
  · obtain ⟨t, ht⟩ := hdv
    exact ⟨t, by omega⟩
  · omega
  · simp only [Q] at *; omega

theorem subRed (C : CSem) (a P : VPoly) (y e : Poly) (ha : ti a = y) (by' : Bnd 500000 y) (a1 : res (ti P) = res e) (a2 : Bnd 6176131 (ti P)) (be : Bnd 500000 e) :
    ti (polyReduceV (polySubV a P)) = fun i => y i - e i := by
  have ea := polySubV_int a P (fun n => by rw [ha]; have := by' n; have := a2 n; omega)
  rw [polyReduceV_int (C := C) _ (fun n => by rw [ea, ha]; have := by' n; have := a2 n; dsimp only; omega), ea, ha]
  funext n
  have hdv := dvd_of_res a1 n
  have b1 := be n
  have b2 := by' n
  have b3 := a2 n
  show reduce32 C (y n - ti P n) = y n - e n
  refine reduce32_center _ _ ?_ ?_ ?_
  · obtain ⟨t, ht⟩ := hdv
    exact ⟨-t, by simp only [Q] at *; omega⟩
  · omega
  · simp only [Q] at *; omega

theorem redOnly (C : CSem) (P : VPoly) (e : Poly) (a1 : res (ti P) = res e) (a2 : Bnd 6176131 (ti P)) (be : Bnd 500000 e) : ti (polyReduceV P) = e := by
  rw [polyReduceV_int (C := C) _ (fun n => by have := a2 n; omega)]
  funext n
  have hdv := dvd_of_res a1 n
  have b1 := be n
  have b3 := a2 n
  show reduce32 C (ti P n) = e n
  refine reduce32_center _ _ ?_ ?_ ?_
  · obtain ⟨t, ht⟩ := hdv
    exact ⟨t, by omega⟩
  · omega
  · simp only [Q] at *; omega

theorem toUInt16_idx : ∀ k : Fin 4, (UInt64.ofNat k.1).toUInt16 = UInt16.ofNat k.1 := by decide

/-- One pass of the signing loop. -/
theorem signAttemptA_rel (Jy Jc : Junk) (J : Fin 3 → Fin 4 → Junk) (J1 : Fin 4 → Fin 2 → Junk) (J2 : Fin 4 → Fin 5 → Junk) (M1 M2 M0 : Fin 4 → Mach) (sig : Nat → UInt8)
    {mu rhoprime : Bytes} {mat : Mat} {s1 s2 t0 : Vec} {nonce : UInt16} {nonce' : UInt64} (hl : rhoprime.length = 64) (hm : ∀ i j, Bnd Q (mat i j))
    (h1 : ∀ k, Bnd 5 (s1 k)) (h2 : ∀ k, Bnd 5 (s2 k)) (h0 : ∀ k, Bnd 4096 (t0 k)) (hn : nonce'.toUInt16 = 4 * nonce) :
    AttemptRel (signAttemptA C H Jy Jc J J1 J2 ⟨mu, rhoprime, fun i j => permP (ofP (mat i j)), fun k => nttC (M1 k) (ofP (s1 k)), fun k => nttC (M2 k) (ofP (s2 k)),
        fun k => nttC (M0 k) (ofP (t0 k))⟩ sig nonce')
      (signAttempt C H ⟨mu, rhoprime, mat, vecNtt C s1, vecNtt C s2, vecNtt C t0⟩ nonce) := by
  choose A hA using fun i => Classical.skolem.1 fun j => exists_isNtt (mat i j)
  obtain ⟨y, hyd⟩ : ∃ y, vecUniformGamma1 C H rhoprime nonce = y := ⟨_, rfl⟩
  obtain ⟨w, hwd⟩ : ∃ w, Spec.wOf A y = w := ⟨_, rfl⟩
  obtain ⟨c, hcd⟩ : ∃ c, shake256 H 32 (mu ++ vecPackW1 fun k i => Spec.highBits (w k i)) = c := ⟨_, rfl⟩
  have hcl : c.length = 32 := by rw [← hcd]; exact shake256_len _ _
  have hy : ∀ k i, -GAMMA1 < y k i ∧ y k i ≤ GAMMA1 := by rw [← hyd]; exact fun k i => vecUniformGamma1_range (C := C) (H := H) rhoprime nonce k i
  have hwr : ∀ k i, 0 ≤ w k i ∧ w k i < Q := by rw [← hwd]; exact fun k i => std_range _ _
  unfold signAttemptA
  -- y
  obtain ⟨z, hz⟩ : ∃ z, polyUniformGamma14x H Jy rhoprime (fun i => (nonce' + UInt64.ofNat i.1).toUInt16) = z := ⟨_, rfl⟩
  have hzy : ∀ k, ti (z k) = y k := by
    intro k
    rw [← hz, ← hyd, polyUniformGamma14x_eq (C := C) _ _ _ hl]
    unfold vecUniformGamma1
    rw [UInt64.toUInt16_add, hn, toUInt16_idx]
  simp only [hz]
  have hzB : ∀ k, Bnd GAMMA1 (ti (z k)) := fun k i => by rw [hzy]; have := hy k i; omega
  -- w
  have hw : ∀ k : Fin 4, ti (commitA J ⟨mu, rhoprime, fun i j => permP (ofP (mat i j)), fun k => nttC (M1 k) (ofP (s1 k)), fun k => nttC (M2 k) (ofP (s2 k)),
        fun k => nttC (M0 k) (ofP (t0 k))⟩ z k) = w k := by
    intro k
    have a := rowMul_res (J 1 k).mach (J 2 k).mach (fun i => (J 0 i).mach) (row := mat k)
      (hm k) hzB (by decide)
    unfold commitA
    dsimp only
    rw [polyCaddqV_int (C := C), ← hwd]
    refine caddq_std ?_ ?_
    · intro n; have := a.2 n; simp only [Q]; omega
    · apply fNtt_inj
      rw [a.1, fNtt_matMul hA]
      simp only [hzy]
  generalize commitA J ⟨mu, rhoprime, fun i j => permP (ofP (mat i j)), fun k => nttC (M1 k) (ofP (s1 k)), fun k => nttC (M2 k) (ofP (s2 k)),
        fun k => nttC (M0 k) (ofP (t0 k))⟩ z = W at hw ⊢
  have hd := fun k => polyDecomposeV_int (C := C) (W k) (by rw [hw k]; exact hwr k)
  have hd1 : ∀ k, ti (polyDecomposeV (W k)).1 = fun i => Spec.highBits (w k i) := by
    intro k
    rw [(hd k).1, hw]
    funext i
    show (decompose C (w k i)).1 = _
    rw [decompose_eq _ (hwr k i).1 (hwr k i).2]; rfl
  have hd2 : ∀ k, ti (polyDecomposeV (W k)).2 = fun i => Spec.lowBits (w k i) := by
    intro k
    rw [(hd k).2, hw]
    funext i
    show (decompose C (w k i)).2 = _
    rw [decompose_eq _ (hwr k i).1 (hwr k i).2]; rfl
  have hlow : ∀ k i, -GAMMA2 ≤ Spec.lowBits (w k i) ∧ Spec.lowBits (w k i) ≤ GAMMA2 := fun k i => spec_lowBits_range _ (hwr k i).1 (hwr k i).2
  have hhi : ∀ k i, 0 ≤ Spec.highBits (w k i) ∧ Spec.highBits (w k i) ≤ 43 := fun k i => spec_highBits_range _ (hwr k i).1 (hwr k i).2
  clear hw hd
  unfold respondA
  dsimp only
  rw [packW1_read _ _ (fun k i => Spec.highBits (w k i)) hd1 (fun k i => by have := hhi k i; omega), hcd, readB_same _ _ _ _ hcl]
  generalize (List.finRange 4).foldl (fun sig i => polyw1PackV sig (i.1 * 192) (polyDecomposeV (W i)).1) sig = sg
  cases hcp : polyChallenge C H c with
  | none => rw [signAttempt_none hm hA hyd hwd hcd hcp]; rfl
  | some cp =>
  rw [signAttempt_run (C := C) (H := H) hm hA h1 h2 h0 hyd hwd hcd hcp]
  obtain ⟨hct, hcc⟩ := polyChallenge_spec H _ cp hcp
  have hcB := chal_bnd hct
  have mulB : ∀ (s : Vec) (B : Int), (∀ k, Bnd B (s k)) → ∀ k i, -(39 * B) ≤ Spec.cMul cp s k i ∧ Spec.cMul cp s k i ≤ 39 * B := by
    intro s B hs k i
    have := negaMul_bnd cp (s k) B hct (hs k) i
    rw [hcc] at this
    exact this
  have m1 := mulB s1 5 h1
  have m2 := mulB s2 5 h2
  have m0 := mulB t0 4096 h0
  rw [Option.bind_eq_bind, Option.bind_some]
  have ez : ∀ k, ti (polyReduceV (polyAddV (z k) (mulPoly (J1 k) (nttC Jc.mach (ofP cp)) (nttC (M1 k) (ofP (s1 k)))))) = Spec.zOf y cp s1 k := by
    intro k
    have a := mulPoly_res (J1 k) Jc.mach (M1 k) hcB ((h1 k).mono (show (5 : Int) ≤ Q by decide))
    exact addRed C _ _ _ _ (hzy k) (fun n => by have := hy k n; simp only [GAMMA1] at *; omega) a.1 a.2 (fun n => by have := m1 k n; omega)
  have eR : ∀ k : Fin 4, ti (polyReduceV (polySubV (polyDecomposeV (W k)).2 (mulPoly (fun n => J2 k (n.castLE (by omega))) (nttC Jc.mach (ofP cp)) (nttC (M2 k) (ofP (s2 k))))))
      = fun i => Spec.lowBits (w k i) - Spec.cMul cp s2 k i := by
    intro k
    have a := mulPoly_res (fun n => J2 k (n.castLE (by omega))) Jc.mach (M2 k) hcB ((h2 k).mono (show (5 : Int) ≤ Q by decide))
    exact subRed C _ _ _ _ (hd2 k) (fun n => by have := hlow k n; simp only [GAMMA2] at *; omega) a.1 a.2 (fun n => by have := m2 k n; omega)
  have eT : ∀ k : Fin 4, ti (polyReduceV (mulPoly (fun n => J2 k (n.castLE (by omega) + 2)) (nttC Jc.mach (ofP cp)) (nttC (M0 k) (ofP (t0 k))))) = Spec.cMul cp t0 k := by
    intro k
    have a := mulPoly_res (fun n => J2 k (n.castLE (by omega) + 2)) Jc.mach (M0 k) hcB ((h0 k).mono (show (4096 : Int) ≤ Q by decide))
    exact redOnly C _ _ a.1 a.2 (fun n => by have := m0 k n; omega)
  obtain ⟨R, hR⟩ : ∃ R : Vec, R = fun k i => Spec.lowBits (w k i) - Spec.cMul cp s2 k i := ⟨_, rfl⟩
  obtain ⟨T, hT⟩ : ∃ T : Vec, T = Spec.cMul cp t0 := ⟨_, rfl⟩
  rw [← hR, ← hT]
  have bR : ∀ k, Bnd 1000000 (R k) := fun k i => by
    rw [hR]; dsimp only; have := hlow k i; have := m2 k i; simp only [GAMMA2] at *; omega
  have bT : ∀ k, Bnd 1000000 (T k) := fun k i => by rw [hT]; have := m0 k i; omega
  have hwt := wt_makeHint (vecAdd C R T) (fun k i => Spec.highBits (w k i))
  have hh : ∀ k i, (vecMakeHint (vecAdd C R T) (fun k i => Spec.highBits (w k i))).1 k i = makeHint (R k i + T k i) (ti (polyDecomposeV (W k)).1 i) := by
    intro k i
    show makeHint (polyAdd C (R k) (T k) i) (Spec.highBits (w k i)) = _
    rw [polyAdd_eq (C := C) (bR k) (bT k) (by decide) i, hd1]
  generalize vecMakeHint (vecAdd C R T) (fun k i => Spec.highBits (w k i)) = g at hwt hh ⊢
  have hf : hintStepA J2 ⟨mu, rhoprime, fun i j => permP (ofP (mat i j)), fun k => nttC (M1 k) (ofP (s1 k)), fun k => nttC (M2 k) (ofP (s2 k)),
      fun k => nttC (M0 k) (ofP (t0 k))⟩ (nttC Jc.mach (ofP cp)) (fun i => (polyDecomposeV (W i)).2) (fun i => (polyDecomposeV (W i)).1) =
      hintStepS (fun i => decide ((∀ n, |R i n| < 95154) ∧ ∀ n, |T i n| < 95232)) (fun i => (idx (g.1 i)).map UInt8.ofNat) := by
    funext st i
    refine hintStepA_eq (R := R) (T := T) (h := g.1) J2 i ?_ ?_ (bR i) (bT i) (hh i) ?_ st
    · dsimp only
      rw [hR]; exact eR i
    · dsimp only
      rw [hT]; exact eT i
    · intro n; rw [hd1]; exact (hhi i n).1
  rw [hf]
  exact final_rel (C := C) (fun k => polyReduceV (polyAddV (z k) (mulPoly (J1 k) (nttC Jc.mach (ofP cp)) (nttC (M1 k) (ofP (s1 k)))))) (Spec.zOf y cp s1) R T g.1 c hcl
    sg ez (fun k i => by have := hy k i; have := m1 k i; simp only [Spec.zOf, GAMMA1] at *; omega) bR bT g.2 hwt

end Verif.Avx2
