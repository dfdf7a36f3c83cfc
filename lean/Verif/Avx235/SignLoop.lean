import Verif.Avx235.SignHint
import Verif.Avx235.HintLemmas
import Verif.Dilithium35.Total

/-! # One pass of the AVX2 signing loop of dilithium3 and dilithium5 -/

namespace Verif.Avx235

open Verif.Dilithium (Shake Poly CSem Q F Bnd res fNtt fNtt_inj std_range caddq_std shake256 shake256_len idx reduce32 reduce32_center dvd_of_res negaMul_bnd chal_bnd polyAdd polyAdd_eq)
open Verif.Dilithium.Spec (Rq toRq std IsNtt)
open Verif.Dilithium35 (Mode Vec Mat matrixExpand matrixExpand_bnd fNtt_matMul polyzPack polyzPack_len polyChallenge polyChallenge_spec vecPackW1 vecUniformGamma1 vecUniformGamma1_range
  polyUniformGamma1 pad pad_fin wt packHint packSig makeHint makeHint_01 wt_makeHint vecMakeHint vecChknorm vecChknorm_false vecAdd vecNtt decompose decompose_eq spec_lowBits_range
  spec_highBits_range signAttempt signAttempt_run signAttempt_none tau_le60 beta_le GAMMA1 GAMMA2)
open Verif.Dilithium35.Spec (matMul wOf zOf cMul lowBits highBits)
open Verif.Avx2 (VPoly Junk Mach ti nttC invnttC polyAddV polySubV polyReduceV polyCaddqV polyChknormV polyChknormV_iff mulPoly mulPoly_res ofP readB writeAt permP ti_ofP_bnd polyAddV_int
  polySubV_int polyReduceV_int polyCaddqV_int readB_length readB_get readB_congr readB_add readB_same readB_disj writeAt_out range_filter)

variable {C : CSem} {H : Shake} {md : Mode}

/-! ## Sampling of `y` -/

theorem sampleY_eq (J : Fin 2 → Junk) {rp : Bytes} (hl : rp.length = 64) {nonce : UInt16} {nonce' : UInt64} (hn : nonce'.toUInt16 = UInt16.ofNat md.L * nonce) (k : Fin md.L) :
    ti (sampleY md H J rp nonce' k) = vecUniformGamma1 md C H rp nonce k := by
  unfold vecUniformGamma1
  cases md with
  | three =>
    change nonce'.toUInt16 = UInt16.ofNat 5 * nonce at hn
    have e0 : nonce'.toUInt16 = UInt16.ofNat 5 * nonce + UInt16.ofNat 0 := by rw [hn]; simp
    have e1 : (nonce' + 1).toUInt16 = UInt16.ofNat 5 * nonce + UInt16.ofNat 1 := by rw [UInt64.toUInt16_add, hn]; rfl
    have e2 : (nonce' + 2).toUInt16 = UInt16.ofNat 5 * nonce + UInt16.ofNat 2 := by rw [UInt64.toUInt16_add, hn]; rfl
    have e3 : (nonce' + 3).toUInt16 = UInt16.ofNat 5 * nonce + UInt16.ofNat 3 := by rw [UInt64.toUInt16_add, hn]; rfl
    have e4 : (nonce' + 4).toUInt16 = UInt16.ofNat 5 * nonce + UInt16.ofNat 4 := by rw [UInt64.toUInt16_add, hn]; rfl
    unfold sampleY
    dsimp only
    rw [e1, e2, e3, e4, e0]
    change Fin 5 at k
    have g := fun j => polyUniformGamma14x_eq (C := C) H (J 0) rp hl ![UInt16.ofNat 5 * nonce + UInt16.ofNat 0, UInt16.ofNat 5 * nonce + UInt16.ofNat 1,
      UInt16.ofNat 5 * nonce + UInt16.ofNat 2, UInt16.ofNat 5 * nonce + UInt16.ofNat 3] j
    have g' := polyUniformGamma1_eq (C := C) H (J 1) rp hl (UInt16.ofNat 5 * nonce + UInt16.ofNat 4)
    fin_cases k
    · exact g 0
    · exact g 1
    · exact g 2
    · exact g 3
    · exact g'
  | five =>
    change nonce'.toUInt16 = UInt16.ofNat 7 * nonce at hn
    have e0 : nonce'.toUInt16 = UInt16.ofNat 7 * nonce + UInt16.ofNat 0 := by rw [hn]; simp
    have e1 : (nonce' + 1).toUInt16 = UInt16.ofNat 7 * nonce + UInt16.ofNat 1 := by rw [UInt64.toUInt16_add, hn]; rfl
    have e2 : (nonce' + 2).toUInt16 = UInt16.ofNat 7 * nonce + UInt16.ofNat 2 := by rw [UInt64.toUInt16_add, hn]; rfl
    have e3 : (nonce' + 3).toUInt16 = UInt16.ofNat 7 * nonce + UInt16.ofNat 3 := by rw [UInt64.toUInt16_add, hn]; rfl
    have e4 : (nonce' + 4).toUInt16 = UInt16.ofNat 7 * nonce + UInt16.ofNat 4 := by rw [UInt64.toUInt16_add, hn]; rfl
    have e5 : (nonce' + 5).toUInt16 = UInt16.ofNat 7 * nonce + UInt16.ofNat 5 := by rw [UInt64.toUInt16_add, hn]; rfl
    have e6 : (nonce' + 6).toUInt16 = UInt16.ofNat 7 * nonce + UInt16.ofNat 6 := by rw [UInt64.toUInt16_add, hn]; rfl
    unfold sampleY
    dsimp only
    rw [e1, e2, e3, e4, e5, e6, e0]
    change Fin 7 at k
    have g := fun j => polyUniformGamma14x_eq (C := C) H (J 0) rp hl ![UInt16.ofNat 7 * nonce + UInt16.ofNat 0, UInt16.ofNat 7 * nonce + UInt16.ofNat 1,
      UInt16.ofNat 7 * nonce + UInt16.ofNat 2, UInt16.ofNat 7 * nonce + UInt16.ofNat 3] j
    have g' := fun j => polyUniformGamma14x_eq (C := C) H (J 1) rp hl ![UInt16.ofNat 7 * nonce + UInt16.ofNat 4, UInt16.ofNat 7 * nonce + UInt16.ofNat 5,
      UInt16.ofNat 7 * nonce + UInt16.ofNat 6, 0] j
    fin_cases k
    · exact g 0
    · exact g 1
    · exact g 2
    · exact g 3
    · exact g' 0
    · exact g' 1
    · exact g' 2

/-! ## Hints -/

theorem hintPos_idx (a0 a1 : VPoly) (h : Poly) (hh : ∀ i, h i = makeHint (ti a0 i) (ti a1 i)) : hintPos a0 a1 256 = idx h := by
  unfold hintPos idx
  rw [range_filter]
  refine congrArg _ (List.filter_congr fun j _ => ?_)
  have e : Fin.ofNat 256 j.1 = j := Fin.ext (Nat.mod_eq_of_lt j.2)
  rw [e, ← hh]
  have := makeHint_01 (ti a0 j) (ti a1 j)
  rw [← hh] at this
  rcases this with t | t <;> rw [t] <;> decide

/-- The checks of pass `i`. -/
def okOf (md : Mode) (R T : Vec md.K) (j : Nat) : Bool := decide (∀ i : Fin md.K, i.1 = j → (∀ n, |R i n| < 261888 - md.BETA) ∧ ∀ n, |T i n| < 261888)

theorem okOf_all (R T : Vec md.K) : (∀ j, j < md.K → okOf md R T j = true) ↔ ∀ i : Fin md.K, (∀ n, |R i n| < 261888 - md.BETA) ∧ ∀ n, |T i n| < 261888 := by
  unfold okOf
  simp only [decide_eq_true_eq]
  exact ⟨fun h i => h i.1 i.2 i rfl, fun h j hj i _ => h i⟩

theorem hintStepA_eq (J : PassJunk md) {x : CtxA md} {c : VPoly} {w0 w1 : Fin md.K → VPoly} {R T h : Vec md.K} (i : Fin md.K)
    (e1 : ti (polyReduceV (polySubV (w0 i) (mulPoly (J.cs2 i) c (x.s2 i)))) = R i)
    (e2 : ti (polyReduceV (mulPoly (J.ct0 i) c (x.t0 i))) = T i) (b1 : Bnd 1000000 (R i)) (b2 : Bnd 1000000 (T i))
    (hh : ∀ n, h i n = makeHint (R i n + T i n) (ti (w1 i) n)) (hw : ∀ n, 0 ≤ ti (w1 i) n) (st : (Nat → UInt8) × Nat) :
    hintStepA md J x c w0 w1 st i = hintStepN (md.CTILDE + md.L * 640) md.OMEGA (okOf md R T) (pad h) st i.1 := by
  have hβ := beta_le md
  have hok : okOf md R T i.1 = decide ((∀ n, |R i n| < 261888 - md.BETA) ∧ ∀ n, |T i n| < 261888) := by
    unfold okOf
    refine decide_eq_decide.2 ⟨fun h => h i rfl, fun h j hj => ?_⟩
    rw [Fin.ext hj]; exact h
  unfold hintStepA hintStepN
  dsimp only
  rw [hok, pad_fin]
  generalize hU : polyReduceV (polySubV (w0 i) (mulPoly (J.cs2 i) c (x.s2 i))) = U at *
  generalize hV : polyReduceV (mulPoly (J.ct0 i) c (x.t0 i)) = V at *
  have n1 := (polyChknormV_iff U (261888 - md.BETA) (by omega) (fun n => by rw [e1]; have := b1 n; omega)).1
  have n2 := (polyChknormV_iff V 261888 (by decide) (fun n => by rw [e2]; have := b2 n; omega)).1
  rw [e1] at n1
  rw [e2] at n2
  by_cases c1 : ∀ n, |R i n| < 261888 - md.BETA
  · rw [if_neg (not_not.2 (n1.2 c1))]
    by_cases c2 : ∀ n, |T i n| < 261888
    · rw [if_neg (not_not.2 (n2.2 c2)), if_neg (c := decide _ = false) (fun e => of_decide_eq_false e ⟨c1, c2⟩)]
      have es : ti (polyAddV U V) = fun n => R i n + T i n := by
        rw [polyAddV_int _ _ fun n => by rw [e1, e2]; have := b1 n; have := b2 n; omega, e1, e2]
      have hs := makeHintAvx_spec (polyAddV U V) (w1 i) (J.hint i) (fun n => by rw [es]; have := b1 n; have := b2 n; dsimp only; omega) hw
      rw [hintPos_idx _ _ (h i) (fun n => by rw [hh, es])] at hs
      generalize makeHintAvx (polyAddV U V) (w1 i) (J.hint i) = g at hs
      obtain ⟨buf, n⟩ := g
      obtain ⟨s1, s2, -⟩ := hs
      dsimp only at s1 s2 ⊢
      subst s1
      have hr : readB buf 0 (idx (h i)).length = (idx (h i)).map UInt8.ofNat := by
        apply List.ext_getElem
        · rw [readB_length, List.length_map]
        · intro k k1 k2
          rw [readB_get, Nat.zero_add, s2 k k2]
      rw [hr]
    · rw [if_pos (fun e => c2 (n2.1 e)), if_pos (decide_eq_false fun e => c2 e.2)]
  · rw [if_pos (fun e => c1 (n1.1 e)), if_pos (decide_eq_false fun e => c1 e.1)]

/-- What one pass of the AVX2 loop must do, given the portable pass. -/
def AttemptRel (md : Mode) (a : Option ((Nat → UInt8) × Bool)) : Option (Option Bytes) → Prop
  | none => a = none
  | some none => ∃ m, a = some (m, false)
  | some (some s) => ∃ m, a = some (m, true) ∧ readB m 0 md.SIGLEN = s

theorem chknorm_any (Z : Fin md.L → VPoly) (zv : Vec md.L) (hz : ∀ k, ti (Z k) = zv k) (hb : ∀ k, Bnd 1000000 (zv k)) :
    ((List.finRange md.L).any fun i => decide (polyChknormV (Z i) (524288 - md.BETA) ≠ 0)) = vecChknorm C zv (GAMMA1 - md.BETA) := by
  have hβ := beta_le md
  have n := fun k => (polyChknormV_iff (Z k) (524288 - md.BETA) (by omega) (fun n => by rw [hz]; have := hb k n; omega)).1
  have e := vecChknorm_false (C := C) (v := zv) (B := GAMMA1 - md.BETA) (by simp only [GAMMA1]; omega) (fun k => (hb k).mono (by decide))
  rw [Bool.eq_iff_iff, ← not_iff_not, Bool.not_eq_true, Bool.not_eq_true, e, List.any_eq_false]
  simp only [List.mem_finRange, true_implies, decide_eq_true_eq, not_not]
  refine forall_congr' fun k => ?_
  rw [n k, hz k]
  exact forall_congr' fun i => abs_lt

/-- The end of a pass. -/
theorem final_rel (Z : Fin md.L → VPoly) (zv : Vec md.L) (R T h : Vec md.K) (c : Bytes) (hcl : c.length = md.CTILDE) (sg : Nat → UInt8) (hz : ∀ k, ti (Z k) = zv k)
    (bz : ∀ k, Bnd 1000000 (zv k)) (bR : ∀ k, Bnd 1000000 (R k)) (bT : ∀ k, Bnd 1000000 (T k)) (n : Int) (hn : (wt h : Int) = n) :
    AttemptRel md (if (List.finRange md.L).any (fun i => decide (polyChknormV (Z i) (524288 - md.BETA) ≠ 0)) then some (writeAt sg 0 c, false) else
        some (finishA md C Z ((List.finRange md.K).foldlM (fun s i => hintStepN (md.CTILDE + md.L * 640) md.OMEGA (okOf md R T) (pad h) s i.1)
          (writeAt (writeAt sg 0 c) (md.CTILDE + md.L * 640) (List.replicate md.OMEGA 0), 0))))
      (if vecChknorm C zv (GAMMA1 - md.BETA) then some none else
       if vecChknorm C R (GAMMA2 - md.BETA) then some none else
       if vecChknorm C T GAMMA2 then some none else
       if n > md.OMEGA then some none else some (some (packSig md C c zv h))) := by
  have hβ := beta_le md
  rw [chknorm_any (C := C) Z zv hz bz]
  cases c1 : vecChknorm C zv (GAMMA1 - md.BETA) with
  | true => exact ⟨_, rfl⟩
  | false =>
  have eR := vecChknorm_false (C := C) (v := R) (B := GAMMA2 - md.BETA) (by simp only [GAMMA2]; omega) (fun k => (bR k).mono (by decide))
  have eT := vecChknorm_false (C := C) (v := T) (B := GAMMA2) (by decide) (fun k => (bT k).mono (by decide))
  rw [if_neg (by decide), foldlM_finRange md.K (hintStepN (md.CTILDE + md.L * 640) md.OMEGA (okOf md R T) (pad h))]
  have pk := hintN_pack (md.CTILDE + md.L * 640) md.OMEGA md.K (okOf md R T) h (writeAt sg 0 c)
  rw [okOf_all] at pk
  have cond : ((∀ i : Fin md.K, (∀ n, |R i n| < 261888 - md.BETA) ∧ ∀ n, |T i n| < 261888) ∧ wt h ≤ md.OMEGA) ↔
      (vecChknorm C R (GAMMA2 - md.BETA) = false ∧ vecChknorm C T GAMMA2 = false ∧ ¬ n > md.OMEGA) := by
    rw [eR, eT, ← hn]
    constructor
    · rintro ⟨a, b⟩
      exact ⟨fun k i => abs_lt.1 ((a k).1 i), fun k i => abs_lt.1 ((a k).2 i), by omega⟩
    · rintro ⟨a, b, d⟩
      exact ⟨fun k => ⟨fun i => abs_lt.2 (a k i), fun i => abs_lt.2 (b k i)⟩, by omega⟩
  cases hf : (List.range md.K).foldlM (hintStepN (md.CTILDE + md.L * 640) md.OMEGA (okOf md R T) (pad h))
      (writeAt (writeAt sg 0 c) (md.CTILDE + md.L * 640) (List.replicate md.OMEGA 0), 0) with
  | error m' =>
    have := pk.2 m' hf
    rw [cond] at this
    have e : (if false = true then some none else if vecChknorm C R (GAMMA2 - md.BETA) = true then some none else if vecChknorm C T GAMMA2 = true then some none else
        if n > md.OMEGA then some none else some (some (packSig md C c zv h)) : Option (Option Bytes)) = some none := by
      rw [if_neg (by decide)]
      cases a : vecChknorm C R (GAMMA2 - md.BETA) with
      | true => rfl
      | false =>
        cases b : vecChknorm C T GAMMA2 with
        | true => rfl
        | false =>
          rw [if_neg (by decide), if_neg (by decide), if_pos]
          by_contra d
          exact this ⟨a, b, d⟩
    rw [e]
    exact ⟨_, rfl⟩
  | ok st =>
    obtain ⟨m', k⟩ := st
    obtain ⟨a, b, g2, g3⟩ := pk.1 m' k hf
    obtain ⟨d1, d2, d3⟩ := cond.1 ⟨a, b⟩
    rw [if_neg (by decide), d1, d2, if_neg (by decide), if_neg (by decide), if_neg d3]
    refine ⟨_, rfl, ?_⟩
    have hc : readB m' 0 md.CTILDE = c := by
      rw [readB_add, readB_add] at g2
      have := (List.append_inj g2 (by rw [readB_length, readB_length])).1
      rw [this, readB_same _ _ _ _ hcl]
    simp only [hz]
    have bl := blocksW md.L 640 md.CTILDE (fun i => polyzPack C (zv i)) (fun i => polyzPack_len _) m'
    rw [show md.SIGLEN = md.CTILDE + md.L * 640 + (md.OMEGA + md.K) from rfl, readB_add, readB_add, Nat.zero_add, Nat.zero_add, bl.1, bl.2 0 md.CTILDE (by omega),
      bl.2 (md.CTILDE + md.L * 640) _ (by omega), hc, g3]
    unfold packSig
    rw [List.take_of_length_le (by omega)]

/-! ## Products -/

theorem addRed (C : CSem) (a P : VPoly) (y e : Poly) (ha : ti a = y) (by' : Bnd 600000 y) (a1 : res (ti P) = res e) (a2 : Bnd 6176131 (ti P)) (be : Bnd 300000 e) :
    ti (polyReduceV (polyAddV a P)) = fun i => y i + e i := by
  have ea := polyAddV_int a P (fun n => by rw [ha]; have := by' n; have := a2 n; omega)
  rw [polyReduceV_int (C := C) _ (fun n => by rw [ea, ha]; have := by' n; have := a2 n; dsimp only; omega), ea, ha]
  funext n
  have hdv := dvd_of_res a1 n
  have b1 := be n
  have b2 := by' n
  have b3 := a2 n
  show reduce32 C (y n + ti P n) = y n + e n
  refine reduce32_center _ _ ?_ ?_ ?_
  · obtain ⟨t, ht⟩ := hdv
    exact ⟨t, by omega⟩
  · omega
  · simp only [Q] at *; omega

theorem subRed (C : CSem) (a P : VPoly) (y e : Poly) (ha : ti a = y) (by' : Bnd 600000 y) (a1 : res (ti P) = res e) (a2 : Bnd 6176131 (ti P)) (be : Bnd 300000 e) :
    ti (polyReduceV (polySubV a P)) = fun i => y i - e i := by
  have ea := polySubV_int a P (fun n => by rw [ha]; have := by' n; have := a2 n; omega)
  rw [polyReduceV_int (C := C) _ (fun n => by rw [ea, ha]; have := by' n; have := a2 n; dsimp only; omega), ea, ha]
  funext n
  have hdv := dvd_of_res a1 n
  have b1 := be n
  have b2 := by' n
  have b3 := a2 n
  show reduce32 C (y n - ti P n) = y n - e n
  refine reduce32_center _ _ ?_ ?_ ?_
  · obtain ⟨t, ht⟩ := hdv
    exact ⟨-t, by simp only [Q] at *; omega⟩
  · omega
  · simp only [Q] at *; omega

theorem tau_mul (md : Mode) (B x : Int) (hB : 0 ≤ B) (h : -((md.TAU : Int) * B) ≤ x ∧ x ≤ (md.TAU : Int) * B) : -(60 * B) ≤ x ∧ x ≤ 60 * B := by
  have h60 : (md.TAU : Int) * B ≤ 60 * B := Int.mul_le_mul_of_nonneg_right (by exact_mod_cast tau_le60 md) hB
  omega

/-- One pass of the signing loop. -/
theorem signAttemptA_rel (J : PassJunk md) (M1 : Fin md.L → Mach) (M2 M0 : Fin md.K → Mach) (sig : Nat → UInt8)
    {mu rhoprime : Bytes} {mat : Mat md} {s1 : Vec md.L} {s2 t0 : Vec md.K} {nonce : UInt16} {nonce' : UInt64} (hl : rhoprime.length = 64) (hm : ∀ i j, Bnd Q (mat i j))
    (h1 : ∀ k, Bnd 11 (s1 k)) (h2 : ∀ k, Bnd 11 (s2 k)) (h0 : ∀ k, Bnd 4096 (t0 k)) (hn : nonce'.toUInt16 = UInt16.ofNat md.L * nonce) :
    AttemptRel md (signAttemptA md C H J ⟨mu, rhoprime, fun i j => permP (ofP (mat i j)), fun k => nttC (M1 k) (ofP (s1 k)), fun k => nttC (M2 k) (ofP (s2 k)),
        fun k => nttC (M0 k) (ofP (t0 k))⟩ sig nonce')
      (signAttempt md C H ⟨mu, rhoprime, mat, vecNtt C s1, vecNtt C s2, vecNtt C t0⟩ nonce) := by
  choose A hA using fun i => Classical.skolem.1 fun j => Dilithium.exists_isNtt (mat i j)
  obtain ⟨y, hyd⟩ : ∃ y, vecUniformGamma1 md C H rhoprime nonce = y := ⟨_, rfl⟩
  obtain ⟨w, hwd⟩ : ∃ w, wOf A y = w := ⟨_, rfl⟩
  obtain ⟨c, hcd⟩ : ∃ c, shake256 H md.CTILDE (mu ++ vecPackW1 fun k i => highBits (w k i)) = c := ⟨_, rfl⟩
  have hcl : c.length = md.CTILDE := by rw [← hcd]; exact shake256_len _ _
  have hy : ∀ k i, -GAMMA1 < y k i ∧ y k i ≤ GAMMA1 := by rw [← hyd]; exact fun k i => vecUniformGamma1_range (md := md) (C := C) (H := H) rhoprime nonce k i
  have hwr : ∀ k i, 0 ≤ w k i ∧ w k i < Q := by rw [← hwd]; exact fun k i => std_range _ _
  unfold signAttemptA
  -- y
  obtain ⟨z, hz⟩ : ∃ z, sampleY md H J.y rhoprime nonce' = z := ⟨_, rfl⟩
  have hzy : ∀ k, ti (z k) = y k := by
    intro k
    rw [← hz, ← hyd]
    exact sampleY_eq J.y hl hn k
  simp only [hz]
  have hzB : ∀ k, Bnd GAMMA1 (ti (z k)) := fun k i => by rw [hzy]; have := hy k i; omega
  -- w
  have hw : ∀ k : Fin md.K, ti (commitA md J ⟨mu, rhoprime, fun i j => permP (ofP (mat i j)), fun k => nttC (M1 k) (ofP (s1 k)), fun k => nttC (M2 k) (ofP (s2 k)),
        fun k => nttC (M0 k) (ofP (t0 k))⟩ z k) = w k := by
    intro k
    have a := rowMul_res (J.acc k).mach (J.inv k).mach (fun i => (J.yhat i).mach) (row := mat k)
      (hm k) hzB (by decide)
    unfold commitA
    dsimp only
    rw [polyCaddqV_int (C := C), ← hwd]
    refine caddq_std ?_ ?_
    · intro n; have := a.2 n; simp only [Q]; omega
    · apply fNtt_inj
      rw [a.1, fNtt_matMul hA]
      simp only [hzy]
  generalize commitA md J ⟨mu, rhoprime, fun i j => permP (ofP (mat i j)), fun k => nttC (M1 k) (ofP (s1 k)), fun k => nttC (M2 k) (ofP (s2 k)),
        fun k => nttC (M0 k) (ofP (t0 k))⟩ z = W at hw ⊢
  have hd := fun k => polyDecomposeV_int (C := C) (W k) (by rw [hw k]; exact hwr k)
  have hd1 : ∀ k, ti (polyDecomposeV (W k)).1 = fun i => highBits (w k i) := by
    intro k
    rw [(hd k).1, hw]
    funext i
    show (decompose C (w k i)).1 = _
    rw [decompose_eq _ (hwr k i).1 (hwr k i).2]; rfl
  have hd2 : ∀ k, ti (polyDecomposeV (W k)).2 = fun i => lowBits (w k i) := by
    intro k
    rw [(hd k).2, hw]
    funext i
    show (decompose C (w k i)).2 = _
    rw [decompose_eq _ (hwr k i).1 (hwr k i).2]; rfl
  have hlow : ∀ k i, -GAMMA2 ≤ lowBits (w k i) ∧ lowBits (w k i) ≤ GAMMA2 := fun k i => spec_lowBits_range _ (hwr k i).1 (hwr k i).2
  have hhi : ∀ k i, 0 ≤ highBits (w k i) ∧ highBits (w k i) ≤ 15 := fun k i => spec_highBits_range _ (hwr k i).1 (hwr k i).2
  clear hw hd
  unfold respondA
  dsimp only
  rw [packW1_read _ _ (fun k i => highBits (w k i)) hd1 (fun k i => by have := hhi k i; omega), hcd, readB_same _ _ _ _ hcl]
  generalize (List.finRange md.K).foldl (fun sig i => polyw1PackV sig (i.1 * 128) (polyDecomposeV (W i)).1) sig = sg
  cases hcp : polyChallenge md C H c with
  | none => rw [signAttempt_none hm hA hyd hwd hcd hcp]; rfl
  | some cp =>
  rw [signAttempt_run (C := C) (H := H) hm hA h1 h2 h0 hyd hwd hcd hcp]
  obtain ⟨hct, hcc⟩ := polyChallenge_spec md H _ cp hcp
  have hcB := chal_bnd hct
  have mulB : ∀ {n : Nat} (s : Vec n) (B : Int), 0 ≤ B → (∀ k, Bnd B (s k)) → ∀ k i, -(60 * B) ≤ cMul cp s k i ∧ cMul cp s k i ≤ 60 * B := by
    intro n s B hB hs k i
    have := negaMul_bnd cp (s k) B hct (hs k) i
    rw [hcc] at this
    exact tau_mul md B _ hB this
  have m1 := mulB s1 11 (by decide) h1
  have m2 := mulB s2 11 (by decide) h2
  have m0 := mulB t0 4096 (by decide) h0
  rw [Option.bind_eq_bind, Option.bind_some]
  have ez : ∀ k, ti (polyReduceV (polyAddV (z k) (mulPoly (J.z k) (nttC J.chal.mach (ofP cp)) (nttC (M1 k) (ofP (s1 k)))))) = zOf y cp s1 k := by
    intro k
    have a := mulPoly_res (J.z k) J.chal.mach (M1 k) hcB ((h1 k).mono (show (11 : Int) ≤ Q by decide))
    exact addRed C _ _ _ _ (hzy k) (fun n => by have := hy k n; simp only [GAMMA1] at *; omega) a.1 a.2 (fun n => by have := m1 k n; omega)
  have eR : ∀ k : Fin md.K, ti (polyReduceV (polySubV (polyDecomposeV (W k)).2 (mulPoly (J.cs2 k) (nttC J.chal.mach (ofP cp)) (nttC (M2 k) (ofP (s2 k))))))
      = fun i => lowBits (w k i) - cMul cp s2 k i := by
    intro k
    have a := mulPoly_res (J.cs2 k) J.chal.mach (M2 k) hcB ((h2 k).mono (show (11 : Int) ≤ Q by decide))
    exact subRed C _ _ _ _ (hd2 k) (fun n => by have := hlow k n; simp only [GAMMA2] at *; omega) a.1 a.2 (fun n => by have := m2 k n; omega)
  have eT : ∀ k : Fin md.K, ti (polyReduceV (mulPoly (J.ct0 k) (nttC J.chal.mach (ofP cp)) (nttC (M0 k) (ofP (t0 k))))) = cMul cp t0 k := by
    intro k
    have a := mulPoly_res (J.ct0 k) J.chal.mach (M0 k) hcB ((h0 k).mono (show (4096 : Int) ≤ Q by decide))
    exact Avx2.redOnly C _ _ a.1 a.2 (fun n => by have := m0 k n; omega)
  obtain ⟨R, hR⟩ : ∃ R : Vec md.K, R = fun k i => lowBits (w k i) - cMul cp s2 k i := ⟨_, rfl⟩
  obtain ⟨T, hT⟩ : ∃ T : Vec md.K, T = cMul cp t0 := ⟨_, rfl⟩
  rw [← hR, ← hT]
  have bR : ∀ k, Bnd 1000000 (R k) := fun k i => by
    rw [hR]; dsimp only; have := hlow k i; have := m2 k i; simp only [GAMMA2] at *; omega
  have bT : ∀ k, Bnd 1000000 (T k) := fun k i => by rw [hT]; have := m0 k i; omega
  have hwt := wt_makeHint (vecAdd C R T) (fun k i => highBits (w k i))
  have hh : ∀ k i, (vecMakeHint (vecAdd C R T) (fun k i => highBits (w k i))).1 k i = makeHint (R k i + T k i) (ti (polyDecomposeV (W k)).1 i) := by
    intro k i
    show makeHint (polyAdd C (R k) (T k) i) (highBits (w k i)) = _
    rw [polyAdd_eq (C := C) (bR k) (bT k) (by decide) i, hd1]
  generalize vecMakeHint (vecAdd C R T) (fun k i => highBits (w k i)) = g at hwt hh ⊢
  have hf : hintStepA md J ⟨mu, rhoprime, fun i j => permP (ofP (mat i j)), fun k => nttC (M1 k) (ofP (s1 k)), fun k => nttC (M2 k) (ofP (s2 k)),
      fun k => nttC (M0 k) (ofP (t0 k))⟩ (nttC J.chal.mach (ofP cp)) (fun i => (polyDecomposeV (W i)).2) (fun i => (polyDecomposeV (W i)).1) =
      fun s i => hintStepN (md.CTILDE + md.L * 640) md.OMEGA (okOf md R T) (pad g.1) s i.1 := by
    funext st i
    refine hintStepA_eq (R := R) (T := T) (h := g.1) J i ?_ ?_ (bR i) (bT i) (hh i) ?_ st
    · dsimp only
      rw [hR]; exact eR i
    · dsimp only
      rw [hT]; exact eT i
    · intro n; rw [hd1]; exact (hhi i n).1
  rw [hf]
  exact final_rel (C := C) (fun k => polyReduceV (polyAddV (z k) (mulPoly (J.z k) (nttC J.chal.mach (ofP cp)) (nttC (M1 k) (ofP (s1 k)))))) (zOf y cp s1) R T g.1 c hcl
    sg ez (fun k i => by have := hy k i; have := m1 k i; simp only [zOf, GAMMA1] at *; omega) bR bT g.2 hwt

end Verif.Avx235
