import Verif.Dilithium.Norm
import Verif.Dilithium.Spec

/-! # The C code computes the functions of the specification -/

namespace Verif.Dilithium

open Spec (Rq toRq std IsNtt matMul modpm)

variable {C : CSem} {H : Shake}

theorem root_table : ∀ n < 256, (8380417 : Int) ∣ (if n % 2 = 0 then zetas.getD ((256 + n) / 2) 0 else -zetas.getD ((256 + n) / 2) 0) * 8265825
    - ((1753 ^ (2 * Spec.brv n + 1) % 8380417 : Nat) : Int) := by decide +kernel

theorem rho_eq_root (n : Fin 256) : rho (256 + n.1) = Spec.root n := by
  have := cast_eq_of_dvd _ _ (root_table n.1 n.2)
  unfold rho Z Spec.root Rinv
  rw [if_neg (by omega)]
  rw [Int.cast_natCast (R := F), ZMod.natCast_mod, Nat.cast_pow] at this
  rw [show ((1753 : ZMod 8380417)) = ((1753 : Nat) : F) from rfl, ← this]
  by_cases h : n.1 % 2 = 0
  · rw [if_pos (by omega), if_pos h]; push_cast; rfl
  · rw [if_neg (by omega), if_neg h]; push_cast; ring

theorem isNtt_iff (A : Rq) (a : Poly) : IsNtt A a ↔ fNtt A = res a := by
  unfold IsNtt
  constructor
  · intro h; funext n; rw [fNtt_eval, rho_eq_root]; exact h n
  · intro h n; rw [← rho_eq_root, ← fNtt_eval, h]; rfl

theorem fNtt_sum {n : Nat} (f : Fin n → Fin 256 → F) : fNtt (∑ j, f j) = ∑ j, fNtt (f j) := by
  classical
  induction (Finset.univ : Finset (Fin n)) using Finset.induction_on with
  | empty => simp [fNtt_zero]
  | insert a s ha ih => rw [Finset.sum_insert ha, Finset.sum_insert ha, fNtt_add, ih]

theorem fNtt_matMul {A : Fin 4 → Fin 4 → Rq} {mat : Mat} (hA : ∀ i j, IsNtt (A i j) (mat i j)) (v : Vec) (k : Fin 4) :
    fNtt (matMul A (fun j => toRq (v j)) k) = ∑ j, res (mat k j) * fNtt (res (v j)) := by
  unfold matMul
  rw [fNtt_sum]
  refine Finset.sum_congr rfl fun j _ => ?_
  rw [fNtt_mul, (isNtt_iff _ _).1 (hA k j)]
  rfl

theorem exists_isNtt (a : Poly) : ∃ A, IsNtt A a := by
  obtain ⟨p, hp⟩ := fNtt_surj (res a)
  exact ⟨p, (isNtt_iff _ _).2 hp⟩

theorem std_of_res {a : Poly} {x : Rq} (ha : ∀ i, 0 ≤ a i ∧ a i < Q) (h : res a = x) : a = std x := by
  apply res_inj_of_range ha
  · intro i
    have := ZMod.val_lt (x i)
    simp only [Spec.std, Q]
    omega
  · rw [h]
    funext i
    simp [res, Spec.std]

theorem std_range (x : Rq) (i : Fin 256) : 0 ≤ std x i ∧ std x i < Q := by
  have := ZMod.val_lt (x i)
  simp only [Spec.std, Q]
  omega

/-! ## Rounding -/

theorem power2round_eq (a : Int) (h1 : 0 ≤ a) (h2 : a < Q) : power2round C a = Spec.power2Round a := by
  obtain ⟨e, b1, b2, -, -⟩ := power2round_spec (C := C) a h1 h2
  unfold Spec.power2Round modpm
  refine Prod.ext ?_ ?_ <;> simp only <;> split <;> omega

theorem decompose_eq (a : Int) (h1 : 0 ≤ a) (h2 : a < Q) : decompose C a = Spec.decompose a := by
  have hd := decompose_spec (C := C) a h1 h2
  unfold Spec.decompose modpm
  simp only [Q, GAMMA2] at *
  split <;> split <;> refine Prod.ext ?_ ?_ <;> simp only <;> omega

theorem spec_highBits_range (a : Int) (h1 : 0 ≤ a) (h2 : a < Q) : 0 ≤ Spec.highBits a ∧ Spec.highBits a ≤ 43 := by
  unfold Spec.highBits
  rw [← decompose_eq (C := wrapSem) a h1 h2]
  have := decompose_spec (C := wrapSem) a h1 h2
  exact ⟨this.1, this.2.1⟩

theorem spec_lowBits_range (a : Int) (h1 : 0 ≤ a) (h2 : a < Q) : -GAMMA2 ≤ Spec.lowBits a ∧ Spec.lowBits a ≤ GAMMA2 := by
  unfold Spec.lowBits
  rw [← decompose_eq (C := wrapSem) a h1 h2]
  exact ⟨(decompose_mod (C := wrapSem) a h1 h2).2.2.1, (decompose_mod (C := wrapSem) a h1 h2).2.2.2.1⟩

theorem useHint_eq (a h : Int) (h1 : 0 ≤ a) (h2 : a < Q) (hh : h = 0 ∨ h = 1) : useHint C a h = Spec.useHint h a := by
  have hr := spec_highBits_range a h1 h2
  unfold useHint Spec.useHint Spec.highBits Spec.lowBits at *
  rw [decompose_eq a h1 h2]
  generalize Spec.decompose a = d at *
  obtain ⟨a1, a0⟩ := d
  simp only at *
  have hi : ∀ x : Int, 0 ≤ x → x ≤ 50 → C.i32 x = x := fun x h1 h2 => C.i32_id x (by omega) (by omega)
  rcases hh with rfl | rfl
  · simp
  · simp only [one_ne_zero, if_false, if_true]
    split
    · split
      · omega
      · rw [hi _ (by omega) (by omega)]; omega
    · split
      · omega
      · rw [hi _ (by omega) (by omega)]; omega

/-! ## Key generation -/

theorem caddq_std {a : Poly} {x : Rq} (ha : ∀ i, -Q < a i ∧ a i < Q) (h : res a = x) : polyCaddq C a = std x := by
  have := polyCaddq_res (C := C) ha
  exact std_of_res this.2 (this.1.trans h)

theorem keypair_eq {coins : Bytes} {mat : Mat} {s1 s2 : Vec} {A : Fin 4 → Fin 4 → Rq} (rho rhoprime key : Bytes)
    (hseed : shake256 H 128 (coins.take 32) = rho ++ rhoprime ++ key) (lr : rho.length = 32) (lp : rhoprime.length = 64) (lk : key.length = 32)
    (hmat : matrixExpand C H rho = some mat) (hs1 : vecUniformEta C H rhoprime 0 = some s1) (hs2 : vecUniformEta C H rhoprime 4 = some s2)
    (hA : ∀ i j, IsNtt (A i j) (mat i j)) :
    let t := Spec.tOf A s1 s2
    let pk := packPk rho (fun k i => (Spec.power2Round (t k i)).1)
    keypairDet C H coins = some (pk, packSk C { rho := rho, tr := shake256 H 64 pk, key := key, t0 := fun k i => (Spec.power2Round (t k i)).2, s1 := s1, s2 := s2 }) := by
  have hm := fun i j => matrixExpand_bnd hmat i j
  have r1 := vecUniformEta_range hs1
  have r2 := vecUniformEta_range hs2
  have e1 : (rho ++ rhoprime ++ key).take 32 = rho := by rw [List.append_assoc, ← lr]; exact List.take_left
  have e2 : ((rho ++ rhoprime ++ key).drop 32).take 64 = rhoprime := by
    rw [List.append_assoc, drop_pre lr.symm, ← lp]; exact List.take_left
  have e3 : ((rho ++ rhoprime ++ key).drop 96).take 32 = key := by
    rw [drop_pre (by rw [List.length_append]; omega), List.take_of_length_le (by omega)]
  have hu : vecCaddq C (vecAdd C (vecInvntt C (vecReduce C (matrixPointwise C mat (vecNtt C s1)))) s2) = Spec.tOf A s1 s2 := by
    funext k
    have a := matVec_res (C := C) (B := 2) hm (fun j i => r1 j i) (by decide) k
    have b := polyReduce_res (C := C) a.2 (by decide)
    have c := polyInvntt_res (C := C) (b.2.mono (by decide)) (b.1.trans a.1)
    have c' := polyInvntt_tight (C := C) (b.2.mono (by decide)) (b.1.trans a.1)
    have d := polyAdd_res (C := C) c' (show Bnd 2 (s2 k) from fun i => r2 k i) (by decide)
    refine caddq_std (a := polyAdd C (polyInvntt C (polyReduce C (matrixPointwise C mat (vecNtt C s1) k))) (s2 k)) ?_ ?_
    · intro i; have := d.2 i; simp only [Q]; omega
    · rw [d.1]
      have e : res (polyInvntt C (polyReduce C (matrixPointwise C mat (vecNtt C s1) k))) = matMul A (fun j => toRq (s1 j)) k := by
        apply fNtt_inj
        rw [c.1, fNtt_matMul hA]
      rw [e]
      rfl
  have tr : ∀ k i, 0 ≤ Spec.tOf A s1 s2 k i ∧ Spec.tOf A s1 s2 k i < Q := fun k i => std_range _ _
  have hp1 : (vecPower2round C (Spec.tOf A s1 s2)).1 = fun k i => (Spec.power2Round (Spec.tOf A s1 s2 k i)).1 := by
    funext k i
    show (power2round C (Spec.tOf A s1 s2 k i)).1 = _
    rw [power2round_eq _ (tr k i).1 (tr k i).2]
  have hp2 : (vecPower2round C (Spec.tOf A s1 s2)).2 = fun k i => (Spec.power2Round (Spec.tOf A s1 s2 k i)).2 := by
    funext k i
    show (power2round C (Spec.tOf A s1 s2 k i)).2 = _
    rw [power2round_eq _ (tr k i).1 (tr k i).2]
  unfold keypairDet
  simp only [hseed, e1, e2, e3, hmat, hs1, hs2, Option.bind_eq_bind, Option.bind_some, hu, hp1, hp2]
  rfl

/-! ## Signing -/

/-- Subtracting a small error: the two forms of the low-bits check agree. -/
theorem lowBits_sub (w e : Int) (h1 : 0 ≤ w) (h2 : w < Q) (he : -78 ≤ e ∧ e ≤ 78) :
    (|Spec.lowBits w - e| < 95154 ↔ |Spec.lowBits ((w - e) % 8380417)| < 95154) ∧
    (|Spec.lowBits w - e| < 95154 → Spec.highBits ((w - e) % 8380417) = Spec.highBits w) := by
  have hw := decompose_spec (C := wrapSem) w h1 h2
  have hr := decompose_spec (C := wrapSem) ((w - e) % 8380417) (by omega) (by simp only [Q]; omega)
  rw [decompose_eq _ h1 h2] at hw
  rw [decompose_eq _ (by omega) (by simp only [Q]; omega)] at hr
  unfold Spec.highBits Spec.lowBits
  generalize Spec.decompose w = d at *
  generalize Spec.decompose ((w - e) % 8380417) = d' at *
  obtain ⟨a1, a0⟩ := d
  obtain ⟨b1, b0⟩ := d'
  simp only [Q, GAMMA2] at *
  rw [abs_lt, abs_lt]
  have ht : ∃ t, (w - e) % 8380417 = w - e - 8380417 * t ∧ (t = -1 ∨ t = 0 ∨ t = 1) ∧ 0 ≤ w - e - 8380417 * t ∧ w - e - 8380417 * t < 8380417 :=
    ⟨(w - e) / 8380417, by omega, by omega, by omega, by omega⟩
  obtain ⟨t, ht, ht', hlo, hhi⟩ := ht
  rw [ht] at hr
  clear ht
  rcases ht' with rfl | rfl | rfl <;> constructor <;> omega

theorem ones_eq_wt (h : Vec) (hh : ∀ k i, h k i = 0 ∨ h k i = 1) : Spec.ones h = wt h := by
  have key : ∀ p : Poly, (∀ i, p i = 0 ∨ p i = 1) → (Finset.univ.filter fun i => p i = 1).card = (idx p).length := by
    intro p hp
    unfold idx
    rw [List.length_map]
    have e : (Finset.univ.filter fun i => p i = 1) = ((List.finRange 256).filter fun j => decide (p j ≠ 0)).toFinset := by
      ext i
      simp only [Finset.mem_filter, Finset.mem_univ, true_and, List.mem_toFinset, List.mem_filter, List.mem_finRange, decide_eq_true_eq]
      rcases hp i with h | h <;> simp [h]
    rw [e, List.toFinset_card_of_nodup]
    exact (List.nodup_finRange 256).filter _
  unfold Spec.ones wt
  rw [Fin.sum_univ_four, key _ (hh 0), key _ (hh 1), key _ (hh 2), key _ (hh 3)]

/-- One pass of the signing loop in terms of exact integer vectors, for any secret vectors a secret key can encode (coefficients up to 5). -/
theorem signAttempt_run {mu rhoprime : Bytes} {mat : Mat} {A : Fin 4 → Fin 4 → Rq} {s1 s2 t0 : Vec} {nonce : UInt16} {cp : Poly} (hm : ∀ i j, Bnd Q (mat i j))
    (hA : ∀ i j, IsNtt (A i j) (mat i j)) (h1 : ∀ k, Bnd 5 (s1 k)) (h2 : ∀ k, Bnd 5 (s2 k)) (h0 : ∀ k, Bnd 4096 (t0 k))
    {y w : Vec} {c : Bytes} (hyd : vecUniformGamma1 C H rhoprime nonce = y) (hwd : Spec.wOf A y = w)
    (hcd : shake256 H 32 (mu ++ vecPackW1 fun k i => Spec.highBits (w k i)) = c) (hcp : polyChallenge C H c = some cp) :
    signAttempt C H ⟨mu, rhoprime, mat, vecNtt C s1, vecNtt C s2, vecNtt C t0⟩ nonce =
      if vecChknorm C (Spec.zOf y cp s1) (GAMMA1 - BETA) then some none else
      if vecChknorm C (fun k i => Spec.lowBits (w k i) - Spec.cMul cp s2 k i) (GAMMA2 - BETA) then some none else
      if vecChknorm C (Spec.cMul cp t0) GAMMA2 then some none else
      if (vecMakeHint (vecAdd C (fun k i => Spec.lowBits (w k i) - Spec.cMul cp s2 k i) (Spec.cMul cp t0)) (fun k i => Spec.highBits (w k i))).2 > 80 then some none else
      some (some (packSig C c (Spec.zOf y cp s1) (vecMakeHint (vecAdd C (fun k i => Spec.lowBits (w k i) - Spec.cMul cp s2 k i) (Spec.cMul cp t0))
        (fun k i => Spec.highBits (w k i))).1)) := by
  have hy : ∀ k i, -GAMMA1 < y k i ∧ y k i ≤ GAMMA1 := by rw [← hyd]; exact fun k i => vecUniformGamma1_range (C := C) (H := H) rhoprime nonce k i
  have hyB : ∀ k, Bnd GAMMA1 (y k) := fun k i => by have := hy k i; omega
  have hw : vecCaddq C (vecInvntt C (vecReduce C (matrixPointwise C mat (vecNtt C y)))) = w := by
    rw [← hwd]
    funext k
    have a := matVec_res (C := C) hm hyB (by decide) k
    have b := polyReduce_res (C := C) a.2 (by decide)
    have c := polyInvntt_res (C := C) (b.2.mono (by decide)) (b.1.trans a.1)
    refine caddq_std (a := polyInvntt C (polyReduce C (matrixPointwise C mat (vecNtt C y) k))) c.2 ?_
    apply fNtt_inj
    rw [c.1, fNtt_matMul hA]
  have hwr : ∀ k i, 0 ≤ w k i ∧ w k i < Q := by rw [← hwd]; exact fun k i => std_range _ _
  have hd1 : (vecDecompose C w).1 = fun k i => Spec.highBits (w k i) := by
    funext k i
    show (decompose C (w k i)).1 = _
    rw [decompose_eq _ (hwr k i).1 (hwr k i).2]; rfl
  have hd2 : (vecDecompose C w).2 = fun k i => Spec.lowBits (w k i) := by
    funext k i
    show (decompose C (w k i)).2 = _
    rw [decompose_eq _ (hwr k i).1 (hwr k i).2]; rfl
  have hlow : ∀ k i, -GAMMA2 ≤ Spec.lowBits (w k i) ∧ Spec.lowBits (w k i) ≤ GAMMA2 := by
    intro k i
    exact spec_lowBits_range _ (hwr k i).1 (hwr k i).2
  obtain ⟨hct, hcc⟩ := polyChallenge_spec H _ cp hcp
  have hcB := chal_bnd hct
  have mulB : ∀ (s : Vec) (B : Int), (∀ k, Bnd B (s k)) → ∀ k i, -(39 * B) ≤ Spec.cMul cp s k i ∧ Spec.cMul cp s k i ≤ 39 * B := by
    intro s B hs k i
    have := negaMul_bnd cp (s k) B hct (hs k) i
    rw [hcc] at this
    exact this
  have m1 := mulB s1 5 h1
  have m2 := mulB s2 5 h2
  have m0 := mulB t0 4096 h0
  -- z
  have hz : vecReduce C (vecAdd C (vecInvntt C (vecPointwisePoly C (polyNtt C cp) (vecNtt C s1))) y) = Spec.zOf y cp s1 := by
    funext k i
    have hc := chal_mul (C := C) hcB h1 (by decide) (by decide) k
    have hr := chal_mul_res (C := C) hcB h1 (by decide) (by decide) k
    have ha := polyAdd_eq (C := C) (strict_bnd hc.2) (hyB k) (by decide) i
    show reduce32 C (polyAdd C _ (y k) i) = _
    rw [ha]
    have hdv := dvd_of_res hr i
    have b1 := m1 k i
    have b2 := hy k i
    have b3 := hc.2 i
    unfold Spec.zOf
    refine reduce32_center _ _ ?_ ?_ ?_
    · obtain ⟨t, ht⟩ := hdv
      exact ⟨t, by unfold Spec.cMul; omega⟩
    · simp only [GAMMA1] at *; omega
    · simp only [GAMMA1, Q] at *; omega
  -- w0 - c s2
  have hr0 : vecReduce C (vecSub C (fun k i => Spec.lowBits (w k i)) (vecInvntt C (vecPointwisePoly C (polyNtt C cp) (vecNtt C s2))))
      = fun k i => Spec.lowBits (w k i) - Spec.cMul cp s2 k i := by
    funext k i
    have hc := chal_mul (C := C) hcB h2 (by decide) (by decide) k
    have hr := chal_mul_res (C := C) hcB h2 (by decide) (by decide) k
    have ha := polySub_eq (C := C) (a := fun i => Spec.lowBits (w k i)) (hlow k) (strict_bnd hc.2) (by decide) i
    show reduce32 C (polySub C (fun i => Spec.lowBits (w k i)) _ i) = _
    rw [ha]
    have hdv := dvd_of_res hr i
    have b1 := m2 k i
    have b2 := hlow k i
    have b3 := hc.2 i
    refine reduce32_center _ _ ?_ ?_ ?_
    · obtain ⟨t, ht⟩ := hdv
      exact ⟨-t, by unfold Spec.cMul; simp only [Q] at *; omega⟩
    · simp only [GAMMA2] at *; omega
    · simp only [GAMMA2, Q] at *; omega
  -- c t0
  have hct0 : vecReduce C (vecInvntt C (vecPointwisePoly C (polyNtt C cp) (vecNtt C t0))) = Spec.cMul cp t0 := by
    funext k i
    have hc := chal_mul (C := C) hcB h0 (by decide) (by decide) k
    have hr := chal_mul_res (C := C) hcB h0 (by decide) (by decide) k
    have hdv := dvd_of_res hr i
    have b1 := m0 k i
    have b3 := hc.2 i
    refine reduce32_center _ _ hdv ?_ ?_
    · omega
    · simp only [Q] at *; omega
  unfold signAttempt
  simp only [hyd, hw, hd1, hd2, hcd, hcp, Option.bind_eq_bind, Option.bind_some, hz, hr0, hct0]
  rfl

/-- If the challenge sampler does not terminate, neither does the attempt. -/
theorem signAttempt_none {mu rhoprime : Bytes} {mat : Mat} {A : Fin 4 → Fin 4 → Rq} {s1 s2 t0 : Vec} {nonce : UInt16} (hm : ∀ i j, Bnd Q (mat i j))
    (hA : ∀ i j, IsNtt (A i j) (mat i j))
    {y w : Vec} {c : Bytes} (hyd : vecUniformGamma1 C H rhoprime nonce = y) (hwd : Spec.wOf A y = w)
    (hcd : shake256 H 32 (mu ++ vecPackW1 fun k i => Spec.highBits (w k i)) = c) (hcp : polyChallenge C H c = none) :
    signAttempt C H ⟨mu, rhoprime, mat, s1, s2, t0⟩ nonce = none := by
  have hy : ∀ k i, -GAMMA1 < y k i ∧ y k i ≤ GAMMA1 := by rw [← hyd]; exact fun k i => vecUniformGamma1_range (C := C) (H := H) rhoprime nonce k i
  have hyB : ∀ k, Bnd GAMMA1 (y k) := fun k i => by have := hy k i; omega
  have hw : vecCaddq C (vecInvntt C (vecReduce C (matrixPointwise C mat (vecNtt C y)))) = w := by
    rw [← hwd]
    funext k
    have a := matVec_res (C := C) hm hyB (by decide) k
    have b := polyReduce_res (C := C) a.2 (by decide)
    have c := polyInvntt_res (C := C) (b.2.mono (by decide)) (b.1.trans a.1)
    refine caddq_std (a := polyInvntt C (polyReduce C (matrixPointwise C mat (vecNtt C y) k))) c.2 ?_
    apply fNtt_inj
    rw [c.1, fNtt_matMul hA]
  have hwr : ∀ k i, 0 ≤ w k i ∧ w k i < Q := by rw [← hwd]; exact fun k i => std_range _ _
  have hd1 : (vecDecompose C w).1 = fun k i => Spec.highBits (w k i) := by
    funext k i
    show (decompose C (w k i)).1 = _
    rw [decompose_eq _ (hwr k i).1 (hwr k i).2]; rfl
  have _hd2 : (vecDecompose C w).2 = fun k i => Spec.lowBits (w k i) := by
    funext k i
    show (decompose C (w k i)).2 = _
    rw [decompose_eq _ (hwr k i).1 (hwr k i).2]; rfl
  unfold signAttempt
  simp only [hyd, hw, hd1, hcd, hcp, Option.bind_eq_bind, Option.bind_none]

/-- One pass of the signing loop computes what the specification says, and accepts exactly under the specification's conditions. -/
theorem signAttempt_eq {mu rhoprime : Bytes} {mat : Mat} {A : Fin 4 → Fin 4 → Rq} {s1 s2 t0 : Vec} {nonce : UInt16} {cp : Poly} (hm : ∀ i j, Bnd Q (mat i j))
    (hA : ∀ i j, IsNtt (A i j) (mat i j)) (h1 : ∀ k, Bnd 2 (s1 k)) (h2 : ∀ k, Bnd 2 (s2 k)) (h0 : ∀ k, Bnd 4096 (t0 k))
    {y w : Vec} {c : Bytes} (hyd : vecUniformGamma1 C H rhoprime nonce = y) (hwd : Spec.wOf A y = w)
    (hcd : shake256 H 32 (mu ++ vecPackW1 fun k i => Spec.highBits (w k i)) = c) (hcp : polyChallenge C H c = some cp) :
    (Spec.Accept w y cp s1 s2 t0 → signAttempt C H ⟨mu, rhoprime, mat, vecNtt C s1, vecNtt C s2, vecNtt C t0⟩ nonce =
      some (some (packSig C c (Spec.zOf y cp s1) (Spec.hOf (Spec.rOf w cp s2) cp t0)))) ∧
    (¬ Spec.Accept w y cp s1 s2 t0 → signAttempt C H ⟨mu, rhoprime, mat, vecNtt C s1, vecNtt C s2, vecNtt C t0⟩ nonce = some none) := by
  have hy : ∀ k i, -GAMMA1 < y k i ∧ y k i ≤ GAMMA1 := by rw [← hyd]; exact fun k i => vecUniformGamma1_range (C := C) (H := H) rhoprime nonce k i
  have hyB : ∀ k, Bnd GAMMA1 (y k) := fun k i => by have := hy k i; omega
  have hwr : ∀ k i, 0 ≤ w k i ∧ w k i < Q := by rw [← hwd]; exact fun k i => std_range _ _
  have hlow : ∀ k i, -GAMMA2 ≤ Spec.lowBits (w k i) ∧ Spec.lowBits (w k i) ≤ GAMMA2 := by
    intro k i
    exact spec_lowBits_range _ (hwr k i).1 (hwr k i).2
  have hhigh : ∀ k i, 0 ≤ Spec.highBits (w k i) ∧ Spec.highBits (w k i) ≤ 43 := fun k i => spec_highBits_range _ (hwr k i).1 (hwr k i).2
  obtain ⟨hct, hcc⟩ := polyChallenge_spec H _ cp hcp
  have hcB := chal_bnd hct
  have mulB : ∀ (s : Vec) (B : Int), (∀ k, Bnd B (s k)) → ∀ k i, -(39 * B) ≤ Spec.cMul cp s k i ∧ Spec.cMul cp s k i ≤ 39 * B := by
    intro s B hs k i
    have := negaMul_bnd cp (s k) B hct (hs k) i
    rw [hcc] at this
    exact this
  have m1 := mulB s1 2 h1
  have m2 := mulB s2 2 h2
  have m0 := mulB t0 4096 h0
  have nz : vecChknorm C (Spec.zOf y cp s1) (GAMMA1 - BETA) = false ↔ Spec.NormLt (Spec.zOf y cp s1) (131072 - 78) := by
    rw [vecChknorm_false (by decide)]
    · unfold Spec.NormLt
      simp only [abs_lt]
    · intro k i
      have := m1 k i; have := hy k i
      simp only [Spec.zOf, GAMMA1] at *; omega
  have nr : vecChknorm C (fun k i => Spec.lowBits (w k i) - Spec.cMul cp s2 k i) (GAMMA2 - BETA) = false ↔
      Spec.NormLt (fun k i => Spec.lowBits (Spec.rOf w cp s2 k i)) (95232 - 78) := by
    rw [vecChknorm_false (by decide)]
    · unfold Spec.NormLt Spec.rOf
      refine forall_congr' fun k => forall_congr' fun i => ?_
      have := (lowBits_sub (w k i) (Spec.cMul cp s2 k i) (hwr k i).1 (hwr k i).2 (by have := m2 k i; omega)).1
      rw [abs_lt] at this
      exact this
    · intro k i
      have := m2 k i; have := hlow k i
      simp only [GAMMA2] at *; omega
  have nt : vecChknorm C (Spec.cMul cp t0) GAMMA2 = false ↔ Spec.NormLt (Spec.cMul cp t0) 95232 := by
    rw [vecChknorm_false (by decide)]
    · unfold Spec.NormLt
      simp only [abs_lt]
    · intro k i
      have := m0 k i
      omega
  -- hints
  have hh : Spec.NormLt (fun k i => Spec.lowBits (Spec.rOf w cp s2 k i)) (95232 - 78) → Spec.NormLt (Spec.cMul cp t0) 95232 →
      (vecMakeHint (vecAdd C (fun k i => Spec.lowBits (w k i) - Spec.cMul cp s2 k i) (Spec.cMul cp t0)) (fun k i => Spec.highBits (w k i))).1
        = Spec.hOf (Spec.rOf w cp s2) cp t0 := by
    intro n1 n2
    have n1' := nr.2 n1
    rw [vecChknorm_false (by decide) (fun k i => by have := m2 k i; have := hlow k i; simp only [GAMMA2] at *; omega)] at n1'
    funext k i
    have b1 := n1' k i
    have b2 := abs_lt.1 (n2 k i)
    have ha := polyAdd_eq (C := C) (A := GAMMA2) (B := GAMMA2) (a := fun i => Spec.lowBits (w k i) - Spec.cMul cp s2 k i) (b := Spec.cMul cp t0 k)
      (fun i => by have := n1' k i; simp only [GAMMA2, BETA] at *; omega) (fun i => by have := abs_lt.1 (n2 k i); simp only [GAMMA2] at *; omega) (by decide) i
    show makeHint (polyAdd C (fun i => Spec.lowBits (w k i) - Spec.cMul cp s2 k i) (Spec.cMul cp t0 k) i) (Spec.highBits (w k i)) = _
    rw [ha]
    have dm := decompose_mod (C := C) (w k i) (hwr k i).1 (hwr k i).2
    rw [decompose_eq _ (hwr k i).1 (hwr k i).2] at dm
    have hl := lowBits_sub (w k i) (Spec.cMul cp s2 k i) (hwr k i).1 (hwr k i).2 (by have := m2 k i; omega)
    have hhb := hl.2 (by rw [abs_lt]; exact b1)
    have hdec := decompose_spec (C := C) (w k i) (hwr k i).1 (hwr k i).2
    rw [decompose_eq _ (hwr k i).1 (hwr k i).2] at hdec
    have hwe : Q ∣ w k i - (Spec.highBits (w k i) * 190464 + Spec.lowBits (w k i)) := by
      unfold Spec.highBits Spec.lowBits
      obtain ⟨-, -, ⟨e, -⟩ | ⟨e1, e2, -⟩⟩ := hdec
      · exact ⟨0, by omega⟩
      · exact ⟨1, by rw [e1, e2]; omega⟩
    unfold Spec.hOf Spec.rOf
    generalize Spec.cMul cp s2 k i = e at *
    generalize Spec.cMul cp t0 k i = g at *
    have hu := (useHint_makeHint (C := C) ((((w k i) - e) % 8380417 + g) % 8380417) (Spec.highBits (w k i)) (Spec.lowBits (w k i) - e + g) (by omega)
      (by simp only [Q]; omega) (hhigh k i).1 (hhigh k i).2 (by simp only [GAMMA2, BETA] at *; omega) (by simp only [GAMMA2, BETA] at *; omega)
      (by
        obtain ⟨t, ht⟩ := hwe
        simp only [Q] at *
        refine Int.dvd_of_emod_eq_zero ?_
        omega)).2
    rw [decompose_eq _ (by omega) (by simp only [Q]; omega)] at hu
    unfold Spec.makeHint
    have er : ((((w k i) - e) % 8380417 + g) % 8380417 + -g) % 8380417 = (w k i - e) % 8380417 := by omega
    rw [er, hhb]
    by_cases hq : Spec.highBits ((((w k i) - e) % 8380417 + g) % 8380417) = Spec.highBits (w k i)
    · rw [if_neg (by simpa using hq)]
      exact hu.2 hq
    · rw [if_pos hq]
      rcases makeHint_01 (Spec.lowBits (w k i) - e + g) (Spec.highBits (w k i)) with h | h
      · exact absurd (hu.1 h) hq
      · exact h
  have hwt := wt_makeHint (vecAdd C (fun k i => Spec.lowBits (w k i) - Spec.cMul cp s2 k i) (Spec.cMul cp t0)) (fun k i => Spec.highBits (w k i))
  have h01 : ∀ k i, Spec.hOf (Spec.rOf w cp s2) cp t0 k i = 0 ∨ Spec.hOf (Spec.rOf w cp s2) cp t0 k i = 1 := by
    intro k i; unfold Spec.hOf Spec.makeHint; split <;> simp
  have hones := ones_eq_wt _ h01
  have hrun := signAttempt_run (C := C) (H := H) hm hA (fun k => (h1 k).mono (by decide)) (fun k => (h2 k).mono (by decide)) h0 hyd hwd hcd hcp
  rw [hrun]
  constructor
  · rintro ⟨a1, a2, a3, a4⟩
    rw [hones, ← hh a2 a3] at a4
    rw [nz.2 a1, nr.2 a2, nt.2 a3, if_neg Bool.false_ne_true, if_neg Bool.false_ne_true, if_neg Bool.false_ne_true, if_neg (by omega), hh a2 a3]
  · intro hna
    split
    · rfl
    rename_i b1
    split
    · rfl
    rename_i b2
    split
    · rfl
    rename_i b3
    rw [Bool.not_eq_true] at b1 b2 b3
    have a1 := nz.1 b1
    have a2 := nr.1 b2
    have a3 := nt.1 b3
    rw [if_pos]
    by_contra h4
    apply hna
    refine ⟨a1, a2, a3, ?_⟩
    rw [hones, ← hh a2 a3]
    omega

/-! ## Verification -/

theorem verify_eq {sig m pk c : Bytes} {z h : Vec} {cp : Poly} {mat : Mat} {A : Fin 4 → Fin 4 → Rq} (hl : sig.length = SIGLEN)
    (hu : unpackSig C sig = some (c, z, h)) (hn : Spec.NormLt z (131072 - 78)) (hcp : polyChallenge C H c = some cp)
    (hmat : matrixExpand C H (pk.take 32) = some mat) (hA : ∀ i j, IsNtt (A i j) (mat i j)) :
    verify C H sig m pk = some (decide (c = shake256 H 32 (shake256 H 64 (shake256 H 64 (pk.take PKLEN) ++ m) ++
      vecPackW1 (Spec.w1Of A z h cp (unpackPk C pk).2)))) := by
  obtain ⟨-, -, -, hh, -⟩ := packSig_unpackSig sig c z h hl hu
  have hzN : ∀ k i, -(GAMMA1 - BETA) < z k i ∧ z k i < GAMMA1 - BETA := fun k i => abs_lt.1 (hn k i)
  have hzB : ∀ k, Bnd GAMMA1 (z k) := fun k i => by have := hzN k i; simp only [GAMMA1, BETA] at *; omega
  have hnc : vecChknorm C z (GAMMA1 - BETA) = false := (vecChknorm_false (by decide) (fun k => (hzB k).mono (by decide))).2 hzN
  have hmB := fun i j => matrixExpand_bnd hmat i j
  have hcB := chal_bnd (polyChallenge_spec H _ cp hcp).1
  have ht : ∀ k i, 0 ≤ (unpackPk C pk).2 k i ∧ (unpackPk C pk).2 k i < 1024 := fun k i => by
    have := polyt1Unpack_range (C := C) (pk.drop (32 + k.1 * 320)) i
    show 0 ≤ polyt1Unpack C _ i ∧ polyt1Unpack C _ i < 1024
    omega
  have hrho : (unpackPk C pk).1 = pk.take 32 := rfl
  generalize hpk : unpackPk C pk = u at *
  obtain ⟨rho, t1⟩ := u
  simp only at ht hrho ⊢
  subst hrho
  have key : vecCaddq C (vecInvntt C (vecReduce C (vecSub C (matrixPointwise C mat (vecNtt C z))
      (vecPointwisePoly C (polyNtt C cp) (vecNtt C (vecShiftl C t1)))))) =
      fun k => std (matMul A (fun j => toRq (z j)) k - negaMul (toRq cp) (toRq fun n => t1 k n * 8192)) := by
    funext k
    have a := matVec_res (C := C) hmB hzB (by decide) k
    have sh := res_shiftl (C := C) (ht k)
    have nc := polyNtt_res (C := C) hcB (by decide)
    have nt := polyNtt_res (C := C) sh.2 (by decide)
    have p := polyPointwise_res (C := C) nc.2 nt.2 (by decide)
    have d := polySub_res (C := C) a.2 p.2 (by decide)
    have r := polyReduce_res (C := C) d.2 (by decide)
    have e : res (polyReduce C (polySub C (matrixPointwise C mat (vecNtt C z) k) (polyPointwise C (polyNtt C cp) (polyNtt C (polyShiftl C (t1 k))))))
        = Rinv • (fNtt (matMul A (fun j => toRq (z j)) k) - fNtt (negaMul (toRq cp) (toRq fun n => t1 k n * 8192))) := by
      have es : (8192 : F) • res (t1 k) = toRq fun n => t1 k n * 8192 := by
        funext i
        simp only [Spec.toRq, res, Pi.smul_apply, smul_eq_mul]
        push_cast
        ring
      have em : fNtt (res cp) * fNtt (toRq fun n => t1 k n * 8192) = fNtt (negaMul (toRq cp) (toRq fun n => t1 k n * 8192)) := by
        rw [fNtt_mul]; rfl
      rw [r.1, d.1, a.1, p.1, nc.1, nt.1, sh.1, ← smul_sub, fNtt_matMul hA, es, em]
    have i := polyInvntt_res (C := C) (r.2.mono (by decide)) e
    refine caddq_std (a := polyInvntt C (polyReduce C (polySub C (matrixPointwise C mat (vecNtt C z) k) (polyPointwise C (polyNtt C cp)
      (polyNtt C (polyShiftl C (t1 k))))))) i.2 ?_
    apply fNtt_inj
    rw [i.1, fNtt_sub]
  have hw : vecUseHint C (vecCaddq C (vecInvntt C (vecReduce C (vecSub C (matrixPointwise C mat (vecNtt C z))
      (vecPointwisePoly C (polyNtt C cp) (vecNtt C (vecShiftl C t1))))))) h = Spec.w1Of A z h cp t1 := by
    rw [key]
    funext k i
    exact useHint_eq _ _ (std_range _ _).1 (std_range _ _).2 (hh k i)
  unfold verify
  rw [if_neg (by rw [hl]; simp), hpk, hu]
  simp only
  rw [hnc]
  simp only [Bool.false_eq_true, if_false, Option.bind_eq_bind]
  rw [hcp, hmat]
  simp only [Option.bind_some]
  rw [hw]
  rfl

/-- Everything verification rejects before looking at the message. -/
theorem verify_reject {sig m pk : Bytes} (h : sig.length ≠ SIGLEN ∨ unpackSig C sig = none ∨
    ∃ c z h, unpackSig C sig = some (c, z, h) ∧ ∃ k i, 131072 - 78 ≤ |z k i|) : verify C H sig m pk = some false := by
  unfold verify
  by_cases hl : sig.length = SIGLEN
  · rw [if_neg (by simp [hl])]
    rcases h with h | h | ⟨c, z, h, hu, k, i, hb⟩
    · exact absurd hl h
    · rw [h]
    · rw [hu]
      simp only
      have hr := (packSig_unpackSig sig c z h hl hu).2.2.1
      have : vecChknorm C z (GAMMA1 - BETA) = true := by
        rw [← Bool.not_eq_false, vecChknorm_false (by decide) (fun k i => by have := hr k i; simp only [GAMMA1] at *; omega)]
        intro hall
        have := abs_lt.2 (hall k i)
        simp only [GAMMA1, BETA] at this
        omega
      rw [this]
      rfl
  · rw [if_pos hl]

end Verif.Dilithium
