import Verif.Dilithium35.Keys
import Verif.Dilithium35.Sample
import Verif.Dilithium.SignCorrect

/-! # Signatures of dilithium3 and dilithium5 verify -/

namespace Verif.Dilithium35

open Verif.Dilithium (CSem Shake Poly Q F res fNtt Rinv Bnd polyPointwise polyPointwise_res polyAdd polyAdd_res polyAdd_eq polySub polySub_res polyNtt polyNtt_res polyInvntt
  polyInvntt_res polyReduce polyReduce_res polyCaddq polyCaddq_res polyChknorm_false polyShiftl strict_bnd fNtt_add fNtt_sub fNtt_smul fNtt_inj cast_Q caddq_spec
  power2round_ext polyUniform_range shake256 shake256_len idx idx_length res_shiftl)

variable {C : CSem} {H : Shake} {md : Mode}

theorem forVec_some {α : Type} (n : Nat) (f : Fin n → Option α) (v : Fin n → α) (h : forVec n f = some v) (i : Fin n) : f i = some (v i) := by
  induction n with
  | zero => exact i.elim0
  | succ n ih =>
    unfold forVec at h
    simp only [Option.bind_eq_bind, Option.bind_eq_some_iff, Option.pure_def, Option.some.injEq] at h
    obtain ⟨u, hu, a, ha, rfl⟩ := h
    dsimp only
    by_cases hi : i.1 < n
    · rw [dif_pos hi]
      exact ih _ _ hu ⟨i.1, hi⟩
    · rw [dif_neg hi]
      have : i = Fin.last n := Fin.ext (by have := i.2; simp only [Fin.val_last]; omega)
      rw [this]
      exact ha

theorem matrixExpand_bnd {rho : Bytes} {M : Mat md} (h : matrixExpand md C H rho = some M) (i : Fin md.K) (j : Fin md.L) : Bnd Q (M i j) := by
  have h1 := forVec_some _ _ _ h i
  have h2 := forVec_some _ _ _ h1 j
  intro x
  have := polyUniform_range H rho _ _ h2 x
  simp only [Q] at *
  omega

theorem vecUniformEta_range {n : Nat} {seed : Bytes} {k : UInt16} {v : Vec n} (h : vecUniformEta md C H n seed k = some v) (j : Fin n) (i : Fin 256) :
    -md.ETA ≤ v j i ∧ v j i ≤ md.ETA := polyUniformEta_range md H seed _ _ (forVec_some _ _ _ h j) i

theorem pointwiseAcc_res {A B : Int} (n : Nat) (hn : n ≤ 8) {u v : Vec n} (hu : ∀ k, Bnd A (u k)) (hv : ∀ k, Bnd B (v k)) (h : A * B < 2147483648 * Q) :
    res (pointwiseAcc C n u v) = Rinv • ∑ k, res (u k) * res (v k) ∧ Bnd (n * Q) (pointwiseAcc C n u v) := by
  induction n with
  | zero =>
    refine ⟨?_, fun i => by simp [pointwiseAcc]⟩
    funext i
    simp [pointwiseAcc, res]
  | succ n ih =>
    have p := fun k => polyPointwise_res (C := C) (hu k) (hv k) h
    cases n with
    | zero =>
      refine ⟨?_, ?_⟩
      · show res (polyPointwise C (u 0) (v 0)) = _
        rw [(p 0).1]
        simp
      · have := (p 0).2
        intro i
        have := this i
        show -(((0 + 1 : Nat) : Int) * Q) ≤ polyPointwise C (u 0) (v 0) i ∧ polyPointwise C (u 0) (v 0) i ≤ ((0 + 1 : Nat) : Int) * Q
        simp only [Q] at *
        omega
    | succ n =>
      have a := ih (by omega) (u := fun i => u i.castSucc) (v := fun i => v i.castSucc) (fun k => hu _) (fun k => hv _)
      have s := polyAdd_res (C := C) a.2 (p (Fin.last (n + 1))).2 (by simp only [Q]; push_cast; omega)
      refine ⟨?_, ?_⟩
      · show res (polyAdd C (pointwiseAcc C (n + 1) _ _) _) = _
        rw [s.1, a.1, (p _).1, ← smul_add]
        congr 1
        exact (Fin.sum_univ_castSucc (fun k => res (u k) * res (v k))).symm
      · show Bnd _ (polyAdd C (pointwiseAcc C (n + 1) _ _) _)
        exact s.2.mono (by simp only [Q]; push_cast; omega)

theorem vecChknorm_false {n : Nat} {v : Vec n} {B : Int} (hB : B ≤ 1047552) (hv : ∀ k, Bnd 1073741823 (v k)) :
    vecChknorm C v B = false ↔ ∀ k i, -B < v k i ∧ v k i < B := by
  unfold vecChknorm
  rw [List.any_eq_false]
  constructor
  · intro h k
    have := h k (List.mem_finRange k)
    exact (polyChknorm_false hB (hv k)).1 (by simpa using this)
  · intro h k _
    rw [(polyChknorm_false hB (hv k)).2 (h k)]
    decide

theorem K_le (md : Mode) : md.K ≤ 8 := by cases md <;> decide
theorem L_le (md : Mode) : md.L ≤ 8 := by cases md <;> decide
theorem eta_le (md : Mode) : 0 ≤ md.ETA ∧ md.ETA ≤ 4 := by cases md <;> decide
theorem etaMin_le (md : Mode) : md.etaMin ≤ -md.ETA := by cases md <;> decide
theorem beta_le (md : Mode) : 0 ≤ md.BETA ∧ md.BETA ≤ 196 := by cases md <;> decide

/-- What key generation establishes. -/
structure KeyOk (md : Mode) (C : CSem) (H : Shake) (pk sk : Bytes) (f : SkFields md) (mat : Mat md) (t1 : Vec md.K) : Prop where
  pk_eq : pk = packPk md f.rho t1
  sk_eq : sk = packSk md C f
  tr_eq : f.tr = shake256 H 64 pk
  mat_eq : matrixExpand md C H f.rho = some mat
  rho_len : f.rho.length = 32
  key_len : f.key.length = 32
  t1_range : ∀ k i, 0 ≤ t1 k i ∧ t1 k i < 1024
  t0_range : ∀ k i, -4096 < f.t0 k i ∧ f.t0 k i ≤ 4096
  s1_range : ∀ k i, -md.ETA ≤ f.s1 k i ∧ f.s1 k i ≤ md.ETA
  s2_range : ∀ k i, -md.ETA ≤ f.s2 k i ∧ f.s2 k i ≤ md.ETA
  eqn : ∀ k, (8192 : F) • fNtt (res (t1 k)) + fNtt (res (f.t0 k)) = (∑ j, res (mat k j) * fNtt (res (f.s1 j))) + fNtt (res (f.s2 k))

theorem matVec_res {mat : Mat md} {v : Vec md.L} {B : Int} (hm : ∀ i j, Bnd Q (mat i j)) (hv : ∀ j, Bnd B (v j)) (hB : B + 8 * Q < 2147483648) (k : Fin md.K) :
    res (matrixPointwise md C mat (vecNtt C v) k) = Rinv • ∑ j, res (mat k j) * fNtt (res (v j)) ∧ Bnd (8 * Q) (matrixPointwise md C mat (vecNtt C v) k) := by
  have hn := fun j => polyNtt_res (C := C) (hv j) (by omega)
  have := pointwiseAcc_res (C := C) md.L (L_le md) (u := mat k) (v := vecNtt C v) (hm k) (fun j => (hn j).2) (by simp only [Q] at *; nlinarith)
  refine ⟨?_, this.2.mono (by have := L_le md; simp only [Q]; omega)⟩
  unfold matrixPointwise
  rw [this.1]
  congr 1
  refine Finset.sum_congr rfl fun j _ => ?_
  show _ * res (polyNtt C (v j)) = _
  rw [(hn j).1]

theorem keypairDet_ok {coins pk sk : Bytes} (h : keypairDet md C H coins = some (pk, sk)) : ∃ f mat t1, KeyOk md C H pk sk f mat t1 := by
  unfold keypairDet at h
  simp only [Option.bind_eq_bind, Option.bind_eq_some_iff, Option.pure_def, Option.some.injEq, Prod.mk.injEq] at h
  obtain ⟨mat, hmat, s1, hs1, s2, hs2, rfl, rfl⟩ := h
  have hm := fun i j => matrixExpand_bnd hmat i j
  have r1 := vecUniformEta_range hs1
  have r2 := vecUniformEta_range hs2
  have b1 : ∀ j, Bnd 4 (s1 j) := fun j i => by have := r1 j i; have := eta_le md; omega
  have b2 : ∀ j, Bnd 4 (s2 j) := fun j i => by have := r2 j i; have := eta_le md; omega
  generalize hseed : shake256 H 128 (coins.take 32) = seed at *
  have hlen : seed.length = 128 := by rw [← hseed]; exact shake256_len _ _
  -- the vector t
  have key : ∀ k, fNtt (res (polyAdd C (vecInvntt C (vecReduce C (matrixPointwise md C mat (vecNtt C s1))) k) (s2 k)))
      = (∑ j, res (mat k j) * fNtt (res (s1 j))) + fNtt (res (s2 k)) ∧
      Bnd (Q + 3) (polyAdd C (vecInvntt C (vecReduce C (matrixPointwise md C mat (vecNtt C s1))) k) (s2 k)) := by
    intro k
    have a := matVec_res (C := C) (B := 4) hm b1 (by decide) k
    have b := polyReduce_res (C := C) a.2 (by decide)
    have c := polyInvntt_res (C := C) (b.2.mono (by decide)) (b.1.trans a.1)
    have d := polyAdd_res (C := C) (strict_bnd c.2) (b2 k) (by decide)
    have c' : fNtt (res (vecInvntt C (vecReduce C (matrixPointwise md C mat (vecNtt C s1))) k)) = _ := c.1
    refine ⟨?_, ?_⟩
    · show fNtt (res (polyAdd C (polyInvntt C (polyReduce C (matrixPointwise md C mat (vecNtt C s1) k))) (s2 k))) = _
      rw [d.1, fNtt_add, c.1]
    · intro i
      have h1 := c.2 i
      have h2 := b2 k i
      have e := polyAdd_eq (C := C) (strict_bnd c.2) (b2 k) (by decide) i
      show -(Q + 3) ≤ polyAdd C (polyInvntt C (polyReduce C (matrixPointwise md C mat (vecNtt C s1) k))) (s2 k) i ∧
        polyAdd C (polyInvntt C (polyReduce C (matrixPointwise md C mat (vecNtt C s1) k))) (s2 k) i ≤ Q + 3
      rw [e]
      omega
  generalize ht : vecAdd C (vecInvntt C (vecReduce C (matrixPointwise md C mat (vecNtt C s1)))) s2 = t at *
  have key' : ∀ k, fNtt (res (t k)) = (∑ j, res (mat k j) * fNtt (res (s1 j))) + fNtt (res (s2 k)) ∧ Bnd (Q + 3) (t k) := by
    intro k; rw [← ht]; exact key k
  have hcq : ∀ k, res (vecCaddq C t k) = res (t k) ∧ ∀ i, -3 ≤ vecCaddq C t k i ∧ vecCaddq C t k i ≤ Q + 3 := by
    intro k
    constructor
    · funext i
      have := (key' k).2 i
      simp only [res, vecCaddq, polyCaddq]
      rw [caddq_spec _ (by simp only [Q] at *; omega) (by simp only [Q] at *; omega)]
      split
      · rw [Int.cast_add, cast_Q, add_zero]
      · rfl
    · intro i
      have := (key' k).2 i
      simp only [vecCaddq, polyCaddq]
      rw [caddq_spec _ (by simp only [Q] at *; omega) (by simp only [Q] at *; omega)]
      split <;> simp only [Q] at * <;> omega
  generalize vecCaddq C t = u at *
  have hp : ∀ k i, u k i = (vecPower2round C u).1 k i * 8192 + (vecPower2round C u).2 k i ∧ -4096 < (vecPower2round C u).2 k i ∧
      (vecPower2round C u).2 k i ≤ 4096 ∧ 0 ≤ (vecPower2round C u).1 k i ∧ (vecPower2round C u).1 k i < 1024 := by
    intro k i
    have := (hcq k).2 i
    exact power2round_ext (C := C) (u k i) (by omega) (by simp only [Q] at *; omega)
  refine ⟨_, mat, _, ⟨rfl, rfl, rfl, hmat, ?_, ?_, ?_, ?_, r1, r2, ?_⟩⟩
  · simp only; rw [List.length_take]; omega
  · simp only; rw [List.length_take, List.length_drop]; omega
  · intro k i; exact ⟨(hp k i).2.2.2.1, (hp k i).2.2.2.2⟩
  · intro k i; exact ⟨(hp k i).2.1, (hp k i).2.2.1⟩
  · intro k
    simp only
    rw [← (key' k).1, ← (hcq k).1, ← fNtt_smul, ← fNtt_add]
    congr 1
    funext i
    have := (hp k i).1
    simp only [res, Pi.add_apply, Pi.smul_apply, smul_eq_mul]
    rw [this]
    push_cast
    ring

/-! ## One accepted signing attempt -/

theorem makeHint_01 (a b : Int) : makeHint a b = 0 ∨ makeHint a b = 1 := by unfold makeHint; split <;> simp

theorem cnt_eq (g : Nat → Poly) (m : Nat) (hg : ∀ j i, g j i = 0 ∨ g j i = 1) : (cnt g m : Int) = ((List.range m).map fun j => ((List.finRange 256).map (g j)).sum).sum := by
  induction m with
  | zero => rfl
  | succ m ih => rw [cnt_succ, Nat.cast_add, ih, idx_length _ (hg m), List.range_succ, List.map_append, List.sum_append]; simp

theorem wt_makeHint {n : Nat} (v0 v1 : Vec n) : (wt (vecMakeHint v0 v1).1 : Int) = (vecMakeHint v0 v1).2 := by
  unfold wt
  rw [cnt_eq]
  · rw [← List.map_coe_finRange_eq_range, List.map_map]
    unfold vecMakeHint
    simp only
    congr 1
    apply List.map_congr_left
    intro i _
    simp only [Function.comp, pad_fin]
    rfl
  · intro j i
    unfold pad
    split
    · exact makeHint_01 _ _
    · exact Or.inl rfl

/-- What an accepted attempt establishes. -/
structure AttemptOk (md : Mode) (C : CSem) (H : Shake) (mu : Bytes) (mat : Mat md) (s1 : Vec md.L) (s2 t0 : Vec md.K) (sig : Bytes) (c : Bytes) (z : Vec md.L) (h w1 v : Vec md.K) (y : Vec md.L) (cp : Poly) : Prop where
  sig_eq : sig = packSig md C c z h
  c_eq : c = shake256 H md.CTILDE (mu ++ vecPackW1 w1)
  cp_eq : polyChallenge md C H c = some cp
  z_norm : ∀ k i, -(GAMMA1 - md.BETA) < z k i ∧ z k i < GAMMA1 - md.BETA
  h_eq : h = (vecMakeHint v w1).1
  h_wt : wt h ≤ md.OMEGA
  w1_range : ∀ k i, 0 ≤ w1 k i ∧ w1 k i ≤ 15
  v_norm : ∀ k i, -523776 < v k i ∧ v k i < 523776
  z_eqn : ∀ k, fNtt (res (z k)) = fNtt (res cp) * fNtt (res (s1 k)) + fNtt (res (y k))
  w_eqn : ∀ k, (523776 : F) • fNtt (res (w1 k)) + fNtt (res (v k)) = (∑ j, res (mat k j) * fNtt (res (y j))) -
    fNtt (res cp) * fNtt (res (s2 k)) + fNtt (res cp) * fNtt (res (t0 k))

theorem vecUniformGamma1_range (seed : Bytes) (n : UInt16) (k : Fin md.L) (i : Fin 256) :
    -GAMMA1 < vecUniformGamma1 md C H seed n k i ∧ vecUniformGamma1 md C H seed n k i ≤ GAMMA1 := polyzUnpack_range _ i

/-- The product of the challenge with a small vector. -/
theorem chal_mul {n : Nat} {cp : Poly} {s : Vec n} {B : Int} (hc : Bnd 1 cp) (hs : ∀ k, Bnd B (s k)) (hB0 : 0 ≤ B) (hB : B ≤ 9000000) (k : Fin n) :
    fNtt (res (vecInvntt C (vecPointwisePoly C (polyNtt C cp) (vecNtt C s)) k)) = fNtt (res cp) * fNtt (res (s k)) ∧
    ∀ i, -Q < vecInvntt C (vecPointwisePoly C (polyNtt C cp) (vecNtt C s)) k i ∧ vecInvntt C (vecPointwisePoly C (polyNtt C cp) (vecNtt C s)) k i < Q := by
  have a := polyNtt_res (C := C) hc (by decide)
  have b := polyNtt_res (C := C) (hs k) (by simp only [Q]; omega)
  have p := polyPointwise_res (C := C) a.2 b.2 (by simp only [Q]; nlinarith)
  have q := polyInvntt_res (C := C) p.2 p.1
  rw [a.1, b.1] at q
  exact q

theorem decompose_mod (a : Int) (h1 : 0 ≤ a) (h2 : a < Q) : 0 ≤ (decompose C a).1 ∧ (decompose C a).1 ≤ 15 ∧ -GAMMA2 ≤ (decompose C a).2 ∧ (decompose C a).2 ≤ GAMMA2 ∧
    ((523776 : F) * ((decompose C a).1 : F) + ((decompose C a).2 : F) = (a : F)) := by
  have := decompose_spec (C := C) a h1 h2
  obtain ⟨p1, p2, h | h⟩ := this
  · refine ⟨p1, p2, by omega, by omega, ?_⟩
    conv_rhs => rw [h.1]
    push_cast
    ring
  · refine ⟨p1, p2, by simp only [Q, GAMMA2] at *; omega, by simp only [Q, GAMMA2] at *; omega, ?_⟩
    rw [h.1, h.2.1, Int.cast_sub, cast_Q]
    simp

theorem signAttempt_ok {x : SignCtx md} {s1 : Vec md.L} {s2 t0 : Vec md.K} {nonce : UInt16} {sig : Bytes} (hm : ∀ i j, Bnd Q (x.mat i j))
    (e1 : x.s1 = vecNtt C s1) (e2 : x.s2 = vecNtt C s2) (e0 : x.t0 = vecNtt C t0)
    (h1 : ∀ k, Bnd 4 (s1 k)) (h2 : ∀ k, Bnd 4 (s2 k)) (h0 : ∀ k, Bnd 4096 (t0 k))
    (h : signAttempt md C H x nonce = some (some sig)) : ∃ c z h w1 v y cp, AttemptOk md C H x.mu x.mat s1 s2 t0 sig c z h w1 v y cp := by
  unfold signAttempt at h
  rw [e1, e2, e0] at h
  have hy := fun k i => vecUniformGamma1_range (md := md) (C := C) (H := H) x.rhoprime nonce k i
  generalize vecUniformGamma1 md C H x.rhoprime nonce = y at *
  have hyB : ∀ k, Bnd GAMMA1 (y k) := fun k i => by have := hy k i; omega
  simp only [Option.bind_eq_bind, Option.bind_eq_some_iff] at h
  -- w
  have hw : ∀ k, fNtt (res (vecInvntt C (vecReduce C (matrixPointwise md C x.mat (vecNtt C y))) k)) = (∑ j, res (x.mat k j) * fNtt (res (y j))) ∧
      ∀ i, -Q < vecInvntt C (vecReduce C (matrixPointwise md C x.mat (vecNtt C y))) k i ∧ vecInvntt C (vecReduce C (matrixPointwise md C x.mat (vecNtt C y))) k i < Q := by
    intro k
    have a := matVec_res (C := C) hm hyB (by decide) k
    have b := polyReduce_res (C := C) a.2 (by decide)
    exact polyInvntt_res (C := C) (b.2.mono (by decide)) (b.1.trans a.1)
  generalize vecInvntt C (vecReduce C (matrixPointwise md C x.mat (vecNtt C y))) = w at *
  have hwq := fun k => polyCaddq_res (C := C) (hw k).2
  have hd : ∀ k i, 0 ≤ (vecDecompose C (vecCaddq C w)).1 k i ∧ (vecDecompose C (vecCaddq C w)).1 k i ≤ 15 ∧
      -GAMMA2 ≤ (vecDecompose C (vecCaddq C w)).2 k i ∧ (vecDecompose C (vecCaddq C w)).2 k i ≤ GAMMA2 ∧
      (523776 : F) * ((vecDecompose C (vecCaddq C w)).1 k i : F) + ((vecDecompose C (vecCaddq C w)).2 k i : F) = (w k i : F) := by
    intro k i
    have := decompose_mod (C := C) (polyCaddq C (w k) i) ((hwq k).2 i).1 ((hwq k).2 i).2
    refine ⟨this.1, this.2.1, this.2.2.1, this.2.2.2.1, this.2.2.2.2.trans ?_⟩
    exact congrFun (hwq k).1 i
  generalize (vecDecompose C (vecCaddq C w)).1 = w1 at *
  generalize (vecDecompose C (vecCaddq C w)).2 = w0 at *
  obtain ⟨cp, hcp, h⟩ := h
  have hct := (polyChallenge_spec md H _ cp hcp).1
  have hcB : Bnd 1 cp := fun i => by rcases hct i with h | h | h <;> omega
  -- z
  have hz := fun k => chal_mul (C := C) hcB h1 (by decide) (by decide) k
  generalize vecInvntt C (vecPointwisePoly C (polyNtt C cp) (vecNtt C s1)) = cs1 at *
  have hz1 := fun k => polyAdd_res (C := C) (strict_bnd (hz k).2) (hyB k) (by decide)
  have hz2 := fun k => polyReduce_res (C := C) (hz1 k).2 (by decide)
  -- cs2
  have hs2 := fun k => chal_mul (C := C) hcB h2 (by decide) (by decide) k
  generalize vecInvntt C (vecPointwisePoly C (polyNtt C cp) (vecNtt C s2)) = cs2 at *
  have hw0B : ∀ k, Bnd GAMMA2 (w0 k) := fun k i => ⟨(hd k i).2.2.1, (hd k i).2.2.2.1⟩
  have hr1 := fun k => polySub_res (C := C) (hw0B k) (strict_bnd (hs2 k).2) (by decide)
  have hr2 := fun k => polyReduce_res (C := C) (hr1 k).2 (by decide)
  -- ct0
  have ht0 := fun k => chal_mul (C := C) hcB h0 (by decide) (by decide) k
  generalize vecInvntt C (vecPointwisePoly C (polyNtt C cp) (vecNtt C t0)) = ct0 at *
  have ht2 := fun k => polyReduce_res (C := C) (strict_bnd (ht0 k).2) (by decide)
  split at h
  · simp at h
  rename_i c1
  split at h
  · simp at h
  rename_i c2
  split at h
  · simp at h
  rename_i c3
  split at h
  · simp at h
  rename_i c4
  simp only [Option.pure_def, Option.some.injEq] at h
  rw [Bool.not_eq_true, vecChknorm_false (v := vecReduce C (vecAdd C cs1 y)) (by have := beta_le md; simp only [GAMMA1]; omega) (fun k => (hz2 k).2.mono (by decide))] at c1
  rw [Bool.not_eq_true, vecChknorm_false (v := vecReduce C (vecSub C w0 cs2)) (by have := beta_le md; simp only [GAMMA2]; omega) (fun k => (hr2 k).2.mono (by decide))] at c2
  rw [Bool.not_eq_true, vecChknorm_false (v := vecReduce C ct0) (by decide) (fun k => (ht2 k).2.mono (by decide))] at c3
  have hv := fun k => polyAdd_eq (C := C) (A := GAMMA2) (B := GAMMA2) (a := vecReduce C (vecSub C w0 cs2) k) (b := vecReduce C ct0 k)
    (fun i => by have := c2 k i; have := beta_le md; simp only [GAMMA2] at *; omega) (fun i => by have := c3 k i; omega) (by decide)
  refine ⟨_, _, _, w1, vecAdd C (vecReduce C (vecSub C w0 cs2)) (vecReduce C ct0), y, cp,
    ⟨h.symm, rfl, hcp, c1, rfl, ?_, fun k i => ⟨(hd k i).1, (hd k i).2.1⟩, ?_, ?_, ?_⟩⟩
  · have := wt_makeHint (vecAdd C (vecReduce C (vecSub C w0 cs2)) (vecReduce C ct0)) w1
    omega
  · intro k i
    have a := c2 k i
    have b := c3 k i
    have e := hv k i
    show -523776 < polyAdd C (vecReduce C (vecSub C w0 cs2) k) (vecReduce C ct0 k) i ∧ polyAdd C (vecReduce C (vecSub C w0 cs2) k) (vecReduce C ct0 k) i < 523776
    rw [e]
    have := beta_le md; simp only [GAMMA2] at *
    omega
  · intro k
    rw [← (hz k).1, ← fNtt_add]
    congr 1
    exact (hz2 k).1.trans (hz1 k).1
  · intro k
    rw [← (hw k).1, ← (hs2 k).1, ← (ht0 k).1, ← fNtt_smul, ← fNtt_sub, ← fNtt_add, ← fNtt_add]
    congr 1
    have er : res (vecReduce C (vecSub C w0 cs2) k) = res (w0 k) - res (cs2 k) := (hr2 k).1.trans (hr1 k).1
    have et : res (vecReduce C ct0 k) = res (ct0 k) := (ht2 k).1
    funext i
    have ev : res (vecAdd C (vecReduce C (vecSub C w0 cs2)) (vecReduce C ct0) k) i = res (vecReduce C (vecSub C w0 cs2) k) i + res (vecReduce C ct0 k) i := by
      show ((polyAdd C (vecReduce C (vecSub C w0 cs2) k) (vecReduce C ct0 k) i : Int) : F) = _
      rw [hv k i, Int.cast_add]
      rfl
    simp only [Pi.add_apply, Pi.sub_apply, Pi.smul_apply, smul_eq_mul]
    rw [ev, er, et]
    have := (hd k i).2.2.2.2
    simp only [res, Pi.sub_apply] at *
    rw [← this]
    ring

/-- Any signature the loop returns comes from an accepted attempt. -/
theorem signLoop_attempt {x : SignCtx md} {nonce : UInt16} {sig : Bytes} (h : signLoop md C H x nonce = some sig) : ∃ n, signAttempt md C H x n = some (some sig) := by
  refine signLoop.partial_correctness md C H x (motive := fun _ sig => ∃ n, signAttempt md C H x n = some (some sig)) ?_ nonce sig h
  intro f ih n sig h
  simp only [Option.bind_eq_bind, Option.bind_eq_some_iff] at h
  obtain ⟨r, hr, h⟩ := h
  cases r with
  | some s => cases h; exact ⟨n, hr⟩
  | none => exact ih _ _ h

/-- Completeness, for the fields. -/
theorem verify_of_attempt {pk sk m sig c : Bytes} {f : SkFields md} {mat : Mat md} {t1 : Vec md.K} {z : Vec md.L} {h w1 v : Vec md.K} {y : Vec md.L} {cp : Poly} (ok : KeyOk md C H pk sk f mat t1)
    (att : AttemptOk md C H (shake256 H 64 (f.tr ++ m)) mat f.s1 f.s2 f.t0 sig c z h w1 v y cp) : verify md C H sig m pk = some true := by
  have hc : c.length = md.CTILDE := by rw [att.c_eq]; exact shake256_len _ _
  have hh : ∀ k i, h k i = 0 ∨ h k i = 1 := by intro k i; rw [att.h_eq]; exact makeHint_01 _ _
  have hpk : unpackPk md C pk = (f.rho, t1) := by rw [ok.pk_eq]; exact unpackPk_packPk _ _ ok.rho_len ok.t1_range
  have hpkl : pk.length = md.PKLEN := by rw [ok.pk_eq]; exact packPk_len _ _ ok.rho_len
  have hsl : sig.length = md.SIGLEN := by rw [att.sig_eq]; exact packSig_len _ _ _ hc
  have hsig : unpackSig md C sig = some (c, z, h) := by
    rw [att.sig_eq]
    exact unpackSig_packSig c z h hc (fun k i => by have := att.z_norm k i; have := beta_le md; simp only [GAMMA1] at *; omega) hh att.h_wt
  have hzB : ∀ k, Bnd GAMMA1 (z k) := fun k i => by have := att.z_norm k i; have := beta_le md; simp only [GAMMA1] at *; omega
  have hn : vecChknorm C z (GAMMA1 - md.BETA) = false := (vecChknorm_false (by have := beta_le md; simp only [GAMMA1]; omega) (fun k => (hzB k).mono (by decide))).2 att.z_norm
  have hmB := fun i j => matrixExpand_bnd ok.mat_eq i j
  have hct := (polyChallenge_spec md H _ cp att.cp_eq).1
  have hcB : Bnd 1 cp := fun i => by rcases hct i with h | h | h <;> omega
  -- the reconstructed vector
  have key : ∀ k, fNtt (res (vecInvntt C (vecReduce C (vecSub C (matrixPointwise md C mat (vecNtt C z))
      (vecPointwisePoly C (polyNtt C cp) (vecNtt C (vecShiftl C t1))))) k)) = (523776 : F) • fNtt (res (w1 k)) + fNtt (res (v k)) ∧
      ∀ i, -Q < vecInvntt C (vecReduce C (vecSub C (matrixPointwise md C mat (vecNtt C z))
      (vecPointwisePoly C (polyNtt C cp) (vecNtt C (vecShiftl C t1))))) k i ∧ vecInvntt C (vecReduce C (vecSub C (matrixPointwise md C mat (vecNtt C z))
      (vecPointwisePoly C (polyNtt C cp) (vecNtt C (vecShiftl C t1))))) k i < Q := by
    intro k
    have a := matVec_res (C := C) hmB hzB (by decide) k
    have sh := res_shiftl (C := C) (ok.t1_range k)
    have nc := polyNtt_res (C := C) hcB (by decide)
    have nt := polyNtt_res (C := C) sh.2 (by decide)
    have p := polyPointwise_res (C := C) nc.2 nt.2 (by decide)
    have d := polySub_res (C := C) a.2 p.2 (by decide)
    have r := polyReduce_res (C := C) d.2 (by decide)
    have e : res (polyReduce C (polySub C (matrixPointwise md C mat (vecNtt C z) k) (polyPointwise C (polyNtt C cp) (polyNtt C (polyShiftl C (t1 k))))))
        = Rinv • ((523776 : F) • fNtt (res (w1 k)) + fNtt (res (v k))) := by
      rw [r.1, d.1, a.1, p.1, nc.1, nt.1, sh.1, ← smul_sub, fNtt_smul]
      congr 1
      rw [att.w_eqn k]
      have hz : ∑ j, res (mat k j) * fNtt (res (z j)) = fNtt (res cp) * (∑ j, res (mat k j) * fNtt (res (f.s1 j))) + ∑ j, res (mat k j) * fNtt (res (y j)) := by
        rw [Finset.mul_sum, ← Finset.sum_add_distrib]
        refine Finset.sum_congr rfl fun j _ => ?_
        rw [att.z_eqn j]
        ring
      have ek : (8192 : F) • fNtt (res (t1 k)) = (∑ j, res (mat k j) * fNtt (res (f.s1 j))) + fNtt (res (f.s2 k)) - fNtt (res (f.t0 k)) := by
        rw [← ok.eqn k]; ring
      rw [hz, ek]
      ring
    exact polyInvntt_res (C := C) (r.2.mono (by decide)) e
  have hw : vecUseHint C (vecCaddq C (vecInvntt C (vecReduce C (vecSub C (matrixPointwise md C mat (vecNtt C z))
      (vecPointwisePoly C (polyNtt C cp) (vecNtt C (vecShiftl C t1))))))) h = w1 := by
    funext k i
    have kk := key k
    generalize vecInvntt C (vecReduce C (vecSub C (matrixPointwise md C mat (vecNtt C z))
      (vecPointwisePoly C (polyNtt C cp) (vecNtt C (vecShiftl C t1))))) = W at *
    have q := polyCaddq_res (C := C) kk.2
    have hdv : Q ∣ polyCaddq C (W k) i - (w1 k i * 523776 + v k i) := by
      have e : res (polyCaddq C (W k)) = (523776 : F) • res (w1 k) + res (v k) := by
        rw [q.1]
        apply fNtt_inj
        rw [kk.1, fNtt_add, fNtt_smul]
      have ei := congrFun e i
      simp only [res, Pi.add_apply, Pi.smul_apply, smul_eq_mul] at ei
      have ei' : ((polyCaddq C (W k) i : Int) : F) = ((w1 k i * 523776 + v k i : Int) : F) := by
        rw [ei]; push_cast; ring
      have := (ZMod.intCast_eq_intCast_iff_dvd_sub _ _ 8380417).1 ei'.symm
      exact_mod_cast this
    have := (useHint_makeHint (C := C) (polyCaddq C (W k) i) (w1 k i) (v k i) (q.2 i).1 (q.2 i).2 (att.w1_range k i).1 (att.w1_range k i).2
      (att.v_norm k i).1 (att.v_norm k i).2 hdv).1
    rw [att.h_eq]
    exact this
  unfold verify
  rw [if_neg (by rw [hsl]; simp), hpk, hsig]
  simp only
  rw [hn]
  simp only [Bool.false_eq_true, if_false, Option.bind_eq_bind]
  rw [att.cp_eq, ok.mat_eq]
  simp only [Option.bind_some]
  rw [hw, List.take_of_length_le (l := pk) (by omega), ← ok.tr_eq, ← att.c_eq]
  simp

/-- Every signature made with a generated key verifies. -/
theorem verify_signature {coins pk sk m sig : Bytes} (hk : keypairDet md C H coins = some (pk, sk)) (hs : signature md C H m sk = some sig) :
    verify md C H sig m pk = some true ∧ sig.length = md.SIGLEN := by
  obtain ⟨f, mat, t1, ok⟩ := keypairDet_ok hk
  have hf : unpackSk md C sk = f := by
    rw [ok.sk_eq]
    refine unpackSk_packSk f ⟨ok.rho_len, ok.key_len, by rw [ok.tr_eq]; exact shake256_len _ _, ?_, ?_, ok.t0_range⟩
    · intro k i; have := ok.s1_range k i; have := etaMin_le md; omega
    · intro k i; have := ok.s2_range k i; have := etaMin_le md; omega
  unfold signature signCtx at hs
  simp only [hf, ok.mat_eq, Option.bind_eq_bind, Option.bind_some, Option.pure_def] at hs
  obtain ⟨n, hn⟩ := signLoop_attempt hs
  obtain ⟨c, z, h, w1, v, y, cp, att⟩ := signAttempt_ok (s1 := f.s1) (s2 := f.s2) (t0 := f.t0) (fun i j => matrixExpand_bnd ok.mat_eq i j) rfl rfl rfl
    (fun k i => by have := ok.s1_range k i; have := eta_le md; omega) (fun k i => by have := ok.s2_range k i; have := eta_le md; omega) (fun k i => by have := ok.t0_range k i; omega) hn
  refine ⟨verify_of_attempt ok att, ?_⟩
  rw [att.sig_eq]
  exact packSig_len _ _ _ (by rw [att.c_eq]; exact shake256_len _ _)

theorem open_sign {coins pk sk m sm : Bytes} (hk : keypairDet md C H coins = some (pk, sk)) (hs : cryptoSign md C H m sk = some sm) :
    cryptoOpen md C H sm pk = some (some m) := by
  unfold cryptoSign at hs
  simp only [Option.bind_eq_bind, Option.bind_eq_some_iff, Option.pure_def, Option.some.injEq] at hs
  obtain ⟨sig, hsig, rfl⟩ := hs
  obtain ⟨hv, hl⟩ := verify_signature hk hsig
  unfold cryptoOpen
  rw [if_neg (by rw [List.length_append]; omega), ← hl, List.take_left, List.drop_left, hv]
  simp

end Verif.Dilithium35
