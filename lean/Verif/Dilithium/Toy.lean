import Verif.Dilithium.Refine

/-!
# A concrete run

A toy `Shake` with constant-ish streams, for which key generation and signing terminate and everything can be computed.  It shows that the
hypotheses of the theorems about key generation and signing are met: the secret is non-zero, the matrix is non-zero, a signature is output.
-/

namespace Verif.Dilithium

open Spec (Rq toRq std IsNtt matMul modpm)

/-- SHAKE128 streams `1, 0, 0, 1, 0, 0, …`, SHAKE256 streams of bytes `0x12`. -/
def toyH : Shake := ⟨fun _ n => if n % 3 = 0 then 1 else 0, fun _ _ => 0x12⟩

/-- The toy secret: coefficients `0, 1, 0, 1, …`. -/
def toyS : Poly := fun i => if i.1 % 2 = 0 then 0 else 1

theorem toy_uniform (seed : Bytes) (nonce : UInt16) : polyUniform wrapSem toyH seed nonce = some (fun _ => 1) := by
  have e : rejUniform 256 (squeeze (stream128 toyH seed nonce) 0 840) = List.replicate 256 1 := by
    have := rejUniform_squeeze (stream128 toyH seed nonce) 280 256 0
    rw [show (3 * 0 : Nat) = 0 from rfl, show (3 * 280 : Nat) = 840 from rfl] at this
    rw [this]
    have hs : accUniform (stream128 toyH seed nonce) 0 280 = accUniform (fun n => if n % 3 = 0 then 1 else 0) 0 280 := rfl
    rw [hs]
    decide +kernel
  unfold polyUniform
  simp only
  rw [e, uniformLoop, if_neg (by rw [List.length_replicate]; decide), Option.map_some]
  refine congrArg some ?_
  funext i
  unfold polyOfList
  rw [List.getD_eq_getElem _ _ (by rw [List.length_replicate]; exact i.2), List.getElem_replicate]

theorem toy_eta (seed : Bytes) (nonce : UInt16) : polyUniformEta wrapSem toyH seed nonce = some toyS := by
  have e : rejEta 256 (squeeze (stream256 toyH seed nonce) 0 136) = List.ofFn toyS := by
    have := rejEta_squeeze (stream256 toyH seed nonce) 136 256 0
    rw [this]
    have hs : accEta (stream256 toyH seed nonce) (2 * 0) (2 * 136) = accEta (fun _ => 0x12) 0 272 := rfl
    rw [hs]
    decide +kernel
  unfold polyUniformEta
  simp only
  rw [e, etaLoop, if_neg (by rw [List.length_ofFn]; decide), Option.map_some]
  refine congrArg some ?_
  funext i
  unfold polyOfList
  rw [List.getD_eq_getElem _ _ (by rw [List.length_ofFn]; exact i.2), List.getElem_ofFn]

theorem forVec_const {α : Type} (f : Fin 4 → Option α) (v : Fin 4 → α) (h : ∀ i, f i = some (v i)) : forVec f = some v := by
  unfold forVec
  rw [h 0, h 1, h 2, h 3]
  simp only [Option.bind_eq_bind, Option.bind_some, Option.pure_def, Option.some.injEq]
  funext i
  match i with
  | 0 | 1 | 2 | 3 => rfl

theorem toy_mat (rho : Bytes) : matrixExpand wrapSem toyH rho = some fun _ _ _ => 1 :=
  forVec_const _ _ fun _ => forVec_const _ _ fun _ => toy_uniform _ _

theorem toy_vecEta (seed : Bytes) (n : UInt16) : vecUniformEta wrapSem toyH seed n = some fun _ => toyS :=
  forVec_const _ _ fun _ => toy_eta _ _

/-- The toy matrix: every entry the polynomial 1. -/
def toyA : Fin 4 → Fin 4 → Rq := fun _ _ i => if i.1 = 0 then 1 else 0

theorem toyA_eq (i j : Fin 4) : toyA i j = fun i : Fin 256 => if i.1 = 0 then (1 : ZMod 8380417) else 0 := rfl

theorem toyA_ntt (i j : Fin 4) : IsNtt (toyA i j) (fun _ => 1) := by
  intro n
  unfold evalAt toyA
  rw [Finset.sum_eq_single 0]
  · simp
  · intro b _ hb
    have : b.1 ≠ 0 := fun h => hb (Fin.ext h)
    simp [this]
  · intro h; exact absurd (Finset.mem_univ _) h

theorem negaMul_one' (x : Rq) : negaMul (fun i : Fin 256 => if i.1 = 0 then (1 : ZMod 8380417) else 0) x = x := by
  funext k
  unfold negaMul
  rw [Finset.sum_eq_single 0]
  · rw [Finset.sum_eq_single k]
    · simp
    · intro b _ hb
      have := fun h => hb (Fin.ext h)
      have e0 : ((0 : Fin 256) : Nat) = 0 := rfl
      rw [if_neg (by rw [e0]; omega), if_neg (by rw [e0]; omega)]
    · intro h; exact absurd (Finset.mem_univ _) h
  · intro b _ hb
    have hb' : b.1 ≠ 0 := fun h => hb (Fin.ext h)
    apply Finset.sum_eq_zero
    intro j _
    simp [hb']
  · intro h; exact absurd (Finset.mem_univ _) h

/-- The toy mask. -/
def toyY : Poly := polyzUnpack wrapSem (List.replicate 680 0x12)

theorem toyY_vals : ∀ i, toyY i = -4626 ∨ toyY i = 97148 ∨ toyY i = 57055 ∨ toyY i = 112568 := by decide +kernel

theorem toy_y (seed : Bytes) (n : UInt16) : vecUniformGamma1 wrapSem toyH seed n = fun _ => toyY := by
  funext k
  unfold vecUniformGamma1 polyUniformGamma1 toyY
  refine congrArg (polyzUnpack wrapSem) ?_
  unfold squeeze
  apply List.ext_getElem
  · simp only [List.length_map, List.length_range, List.length_replicate]
  · intro i h1 h2
    rw [List.getElem_map, List.getElem_replicate]
    rfl

theorem toy_challenge (seed : Bytes) : ∃ cp, polyChallenge wrapSem toyH seed = some cp := by
  have hb : ∀ (st : ChalSt) (i : Nat), 217 ≤ i → (∀ j < 136, at8 wrapSem st.buf j = 0x12) →
      ∃ st' : ChalSt, chalByte wrapSem (fun _ => 0x12) i st = some (0x12, st') ∧ (∀ j < 136, at8 wrapSem st'.buf j = 0x12) := by
    intro st i hi hst
    rw [chalByte]
    have hsq : ∀ j < 136, at8 wrapSem (squeeze (fun _ => 0x12) st.off 136) j = 0x12 := by
      intro j hj
      unfold at8
      rw [List.getD_eq_getElem _ _ (by rw [squeeze_length]; exact hj)]
      unfold squeeze
      rw [List.getElem_map]
      rfl
    have h1 : ∀ j < 136, at8 wrapSem (if st.pos ≥ 136 then (⟨squeeze (fun _ => 0x12) st.off 136, 0, st.off + 136⟩ : ChalSt) else st).buf j = 0x12 := by
      split
      · exact hsq
      · exact hst
    have h2 : (if st.pos ≥ 136 then (⟨squeeze (fun _ => 0x12) st.off 136, 0, st.off + 136⟩ : ChalSt) else st).pos < 136 := by
      split
      · show 0 < 136; omega
      · omega
    generalize (if st.pos ≥ 136 then (⟨squeeze (fun _ => 0x12) st.off 136, 0, st.off + 136⟩ : ChalSt) else st) = st1 at *
    rw [h1 _ h2, if_neg (by show ¬ 18 > i; omega)]
    exact ⟨_, rfl, h1⟩
  have hf : ∀ (n i : Nat) (x : Poly × Nat × ChalSt), 217 ≤ i → (∀ j < 136, at8 wrapSem x.2.2.buf j = 0x12) →
      ∃ y, (List.range' i n).foldlM (chalStep wrapSem (fun _ => 0x12)) x = some y := by
    intro n
    induction n with
    | zero => intro i x _ _; exact ⟨x, rfl⟩
    | succ n ih =>
      intro i x hi hx
      rw [List.range'_succ, List.foldlM_cons]
      obtain ⟨st', e, he⟩ := hb x.2.2 i hi hx
      have : chalStep wrapSem (fun _ => 0x12) x i = some (wr (wr x.1 i (rd wrapSem.oob x.1 0x12)) 0x12
          (toI32 ((1 - 2 * ((x.2.1 % 2 : Nat) : Int)) % 18446744073709551616)), x.2.1 / 2, st') := by
        unfold chalStep
        simp only [e, Option.bind_eq_bind, Option.bind_some, Option.pure_def]
      rw [this]
      exact ih (i + 1) _ (by omega) he
  obtain ⟨y, hy⟩ := hf 39 217 (fun _ => 0, ((List.range 8).map fun i => (at8 wrapSem (squeeze (fun _ => 0x12) 0 136) i).toNat * 256 ^ i).sum,
    ⟨squeeze (fun _ => 0x12) 0 136, 8, 136⟩) (by omega) (by
      intro j hj
      show at8 wrapSem (squeeze (fun _ => 0x12) 0 136) j = _
      unfold at8
      rw [List.getD_eq_getElem _ _ (by rw [squeeze_length]; exact hj)]
      unfold squeeze
      rw [List.getElem_map]
      rfl)
  refine ⟨y.1, ?_⟩
  unfold polyChallenge
  have e : toyH.shake256 (seed.take 32) = fun _ => 0x12 := rfl
  simp only [e, hy, Option.bind_eq_bind, Option.bind_some, Option.pure_def]

theorem toy_seed (coins : Bytes) : shake256 toyH 128 (coins.take 32) = List.replicate 32 0x12 ++ List.replicate 64 0x12 ++ List.replicate 32 0x12 := by
  rw [← List.replicate_add, ← List.replicate_add]
  unfold shake256 squeeze
  apply List.ext_getElem
  · simp only [List.length_map, List.length_range, List.length_replicate]
  · intro i h1 h2
    rw [List.getElem_map, List.getElem_replicate]
    rfl

theorem toRq_val (x : Int) (h : 0 ≤ x) (h2 : x < 8380417) : (((x : ZMod 8380417).val : Nat) : Int) = x := by
  rw [ZMod.val_intCast]
  omega

theorem toy_t : Spec.tOf toyA (fun _ => toyS) (fun _ => toyS) = fun _ i => 5 * toyS i := by
  funext k i
  unfold Spec.tOf matMul
  simp only [toyA_eq, negaMul_one', Fin.sum_univ_four]
  have : (toRq toyS + toRq toyS + toRq toyS + toRq toyS + toRq toyS) i = ((5 * toyS i : Int) : ZMod 8380417) := by
    simp only [Pi.add_apply, Spec.toRq]
    push_cast
    ring
  show (((_ : ZMod 8380417).val : Nat) : Int) = _
  rw [this]
  apply toRq_val
  · unfold toyS; split <;> omega
  · unfold toyS; split <;> omega

theorem toy_w : Spec.wOf toyA (fun _ => toyY) = fun _ i => (4 * toyY i) % 8380417 := by
  funext k i
  unfold Spec.wOf matMul
  simp only [toyA_eq, negaMul_one', Fin.sum_univ_four]
  have : (toRq toyY + toRq toyY + toRq toyY + toRq toyY) i = ((4 * toyY i : Int) : ZMod 8380417) := by
    simp only [Pi.add_apply, Spec.toRq]
    push_cast
    ring
  show (((_ : ZMod 8380417).val : Nat) : Int) = _
  rw [this, ZMod.val_intCast]
  rfl

theorem toy_accept (cp : Poly) (hc : ∀ j, cp j = 0 ∨ cp j = 1 ∨ cp j = -1) (hcc : (supp cp).card = 39) :
    Spec.Accept (fun _ i => (4 * toyY i) % 8380417) (fun _ => toyY) cp (fun _ => toyS) (fun _ => toyS) (fun _ i => 5 * toyS i) := by
  have m1 : ∀ i, -39 ≤ negaMul cp toyS i ∧ negaMul cp toyS i ≤ 39 := by
    intro i
    have := negaMul_bnd cp toyS 1 hc (fun i => by unfold toyS; split <;> omega) i
    rw [hcc] at this
    omega
  have m5 : ∀ i, -195 ≤ negaMul cp (fun i => 5 * toyS i) i ∧ negaMul cp (fun i => 5 * toyS i) i ≤ 195 := by
    intro i
    have := negaMul_bnd cp (fun i => 5 * toyS i) 5 hc (fun i => by simp only [toyS]; split <;> omega) i
    rw [hcc] at this
    omega
  -- rounding near the middle of an interval
  have mid : ∀ i (d : Int), -300 ≤ d → d ≤ 300 → Spec.highBits ((4 * toyY i + d) % 8380417) = Spec.highBits ((4 * toyY i) % 8380417) ∧
      |Spec.lowBits ((4 * toyY i + d) % 8380417)| < 95154 := by
    intro i d h1 h2
    unfold Spec.highBits Spec.lowBits Spec.decompose modpm
    rw [abs_lt]
    rcases toyY_vals i with h | h | h | h <;> rw [h] <;> (split_ifs <;> omega)
  refine ⟨?_, ?_, ?_, ?_⟩
  · intro k i
    have := m1 i
    unfold Spec.zOf Spec.cMul
    rw [abs_lt]
    dsimp only
    rcases toyY_vals i with h | h | h | h <;> rw [h] <;> omega
  · intro k i
    have := m1 i
    have := (mid i (-negaMul cp toyS i) (by omega) (by omega)).2
    unfold Spec.rOf Spec.cMul
    simp only
    rw [show (4 * toyY i % 8380417 - negaMul cp toyS i) % 8380417 = (4 * toyY i + -negaMul cp toyS i) % 8380417 by omega]
    exact this
  · intro k i
    have := m5 i
    unfold Spec.cMul
    rw [abs_lt]
    dsimp only
    omega
  · have hz : ∀ k i, Spec.hOf (Spec.rOf (fun _ i => (4 * toyY i) % 8380417) cp (fun _ => toyS)) cp (fun _ i => 5 * toyS i) k i = 0 := by
      intro k i
      unfold Spec.hOf Spec.makeHint Spec.rOf Spec.cMul
      simp only
      have b1 := m1 i
      have b5 := m5 i
      generalize negaMul cp toyS i = e at *
      generalize negaMul cp (fun i => 5 * toyS i) i = g at *
      have a := (mid i (-e + g) (by omega) (by omega)).1
      have b := (mid i (-e) (by omega) (by omega)).1
      rw [show ((4 * toyY i % 8380417 - e) % 8380417 + g) % 8380417 = (4 * toyY i + (-e + g)) % 8380417 by omega, a,
        show ((4 * toyY i + (-e + g)) % 8380417 + -g) % 8380417 = (4 * toyY i + -e) % 8380417 by omega, b]
      simp
    unfold Spec.ones
    simp [hz]

/-- The toy key pair. -/
theorem toy_keypair (coins : Bytes) : ∃ pk sk, keypairDet wrapSem toyH coins = some (pk, sk) :=
  ⟨_, _, keypair_eq (A := toyA) _ _ _ (toy_seed coins) (by rw [List.length_replicate]) (by rw [List.length_replicate]) (by rw [List.length_replicate])
    (toy_mat _) (toy_vecEta _ _) (toy_vecEta _ _) (fun i j => toyA_ntt i j)⟩

/-- The fields of the toy secret key. -/
theorem toy_fields (coins pk sk : Bytes) (h : keypairDet wrapSem toyH coins = some (pk, sk)) :
    (unpackSk wrapSem sk).s1 = (fun _ => toyS) ∧ (unpackSk wrapSem sk).s2 = (fun _ => toyS) ∧ (unpackSk wrapSem sk).t0 = fun _ i => 5 * toyS i := by
  have e := keypair_eq (A := toyA) _ _ _ (toy_seed coins) (by rw [List.length_replicate]) (by rw [List.length_replicate]) (by rw [List.length_replicate])
    (toy_mat _) (toy_vecEta _ _) (toy_vecEta _ _) (fun i j => toyA_ntt i j)
  rw [h] at e
  have e2 := (Prod.mk.inj (Option.some.inj e)).2
  have ht0 : (fun (k : Fin 4) (i : Fin 256) => (Spec.power2Round (Spec.tOf toyA (fun _ => toyS) (fun _ => toyS) k i)).2) = fun _ i => 5 * toyS i := by
    rw [toy_t]
    funext k i
    unfold Spec.power2Round modpm toyS
    simp only
    split <;> split <;> omega
  rw [e2, unpackSk_packSk]
  · dsimp only
    rw [ht0]
    simp only [and_self]
  · rw [ht0]
    refine ⟨List.length_replicate .., List.length_replicate .., shake256_len _ _, ?_, ?_, ?_⟩
    · intro k i; show -5 ≤ toyS i ∧ toyS i ≤ 2; unfold toyS; split <;> omega
    · intro k i; show -5 ≤ toyS i ∧ toyS i ≤ 2; unfold toyS; split <;> omega
    · intro k i; show -4096 < 5 * toyS i ∧ 5 * toyS i ≤ 4096; unfold toyS; split <;> omega

theorem toy_signs (coins pk sk m : Bytes) (h : keypairDet wrapSem toyH coins = some (pk, sk)) : ∃ sig, signature wrapSem toyH m sk = some sig := by
  obtain ⟨e1, e2, e0⟩ := toy_fields coins pk sk h
  unfold signature signCtx
  simp only [toy_mat, Option.bind_eq_bind, Option.bind_some, Option.pure_def]
  rw [e1, e2, e0, signLoop]
  obtain ⟨cp, hcp⟩ := toy_challenge (shake256 toyH 32 (shake256 toyH 64 ((unpackSk wrapSem sk).tr ++ m) ++
    vecPackW1 fun k i => Spec.highBits ((fun (_ : Fin 4) (i : Fin 256) => (4 * toyY i) % 8380417) k i)))
  obtain ⟨hct, hcc⟩ := polyChallenge_spec toyH _ cp hcp
  have := (signAttempt_eq (C := wrapSem) (H := toyH) (mu := shake256 toyH 64 ((unpackSk wrapSem sk).tr ++ m))
    (rhoprime := shake256 toyH 64 ((unpackSk wrapSem sk).key ++ List.replicate 32 0 ++ shake256 toyH 64 ((unpackSk wrapSem sk).tr ++ m)))
    (mat := fun _ _ _ => 1) (A := toyA) (s1 := fun _ => toyS) (s2 := fun _ => toyS) (t0 := fun _ i => 5 * toyS i) (nonce := 0) (cp := cp)
    (fun _ _ _ => by show -Q ≤ 1 ∧ (1 : Int) ≤ Q; decide) (fun i j => toyA_ntt i j)
    (fun _ i => by unfold toyS; split <;> omega) (fun _ i => by unfold toyS; split <;> omega) (fun _ i => by simp only [toyS]; split <;> omega)
    (toy_y _ _) toy_w rfl hcp).1 (toy_accept cp hct hcc)
  rw [this]
  exact ⟨_, rfl⟩

end Verif.Dilithium
