import Verif.Dilithium.Refine
import Verif.Dilithium.SampleTotal

/-!
# No undefined behaviour

Results do not depend on `CSem`, i.e. on what signed overflow or an out-of-bounds read would do.
-/

namespace Verif.Dilithium

open Spec (Rq toRq std IsNtt matMul modpm)

variable (C C' : CSem) (H : Shake)

/-- The signing loop returns the first accepted attempt. -/
theorem signLoop_iff (x : SignCtx) (nonce : UInt16) (sig : Bytes) : signLoop C H x nonce = some sig ↔
    ∃ n : Nat, (∀ j < n, signAttempt C H x (nonce + UInt16.ofNat j) = some none) ∧ signAttempt C H x (nonce + UInt16.ofNat n) = some (some sig) := by
  constructor
  · intro h
    refine signLoop.partial_correctness C H x (motive := fun nonce sig => ∃ n : Nat, (∀ j < n, signAttempt C H x (nonce + UInt16.ofNat j) = some none) ∧
      signAttempt C H x (nonce + UInt16.ofNat n) = some (some sig)) ?_ nonce sig h
    intro f ih nonce sig h
    simp only [Option.bind_eq_bind, Option.bind_eq_some_iff] at h
    obtain ⟨o, ho, h⟩ := h
    cases o with
    | some s =>
      cases h
      refine ⟨0, fun j hj => by omega, ?_⟩
      rw [show UInt16.ofNat 0 = 0 from rfl, UInt16.add_zero]
      exact ho
    | none =>
      obtain ⟨n, h1, h2⟩ := ih _ _ h
      have e : ∀ j : Nat, nonce + 1 + UInt16.ofNat j = nonce + UInt16.ofNat (j + 1) := by
        intro j
        rw [UInt16.add_assoc]
        congr 1
        rw [UInt16.ofNat_add, UInt16.add_comm]
        rfl
      refine ⟨n + 1, ?_, by rw [← e]; exact h2⟩
      intro j hj
      cases j with
      | zero =>
        rw [show UInt16.ofNat 0 = 0 from rfl, UInt16.add_zero]
        exact ho
      | succ j =>
        rw [← e]
        exact h1 j (by omega)
  · rintro ⟨n, h1, h2⟩
    induction n generalizing nonce with
    | zero =>
      rw [show UInt16.ofNat 0 = 0 from rfl, UInt16.add_zero] at h2
      rw [signLoop, h2]
      rfl
    | succ n ih =>
      have e : ∀ j : Nat, nonce + 1 + UInt16.ofNat j = nonce + UInt16.ofNat (j + 1) := by
        intro j
        rw [UInt16.add_assoc]
        congr 1
        rw [UInt16.ofNat_add, UInt16.add_comm]
        rfl
      have h0 := h1 0 (by omega)
      rw [show UInt16.ofNat 0 = 0 from rfl, UInt16.add_zero] at h0
      rw [signLoop, h0]
      show signLoop C H x (nonce + 1) = some sig
      refine ih (nonce + 1) (fun j hj => ?_) ?_
      · rw [e]; exact h1 (j + 1) (by omega)
      · rw [e]; exact h2

/-! ## Samplers -/

theorem polyUniform_indep (seed : Bytes) (n : UInt16) : polyUniform C H seed n = polyUniform C' H seed n :=
  Option.ext fun p => by rw [polyUniform_iff, polyUniform_iff]

theorem polyUniformEta_indep (seed : Bytes) (n : UInt16) : polyUniformEta C H seed n = polyUniformEta C' H seed n :=
  Option.ext fun p => by rw [polyUniformEta_iff, polyUniformEta_iff]

theorem polyChallenge_indep (seed : Bytes) : polyChallenge C H seed = polyChallenge C' H seed :=
  Option.ext fun p => by rw [polyChallenge_iff, polyChallenge_iff]

theorem matrixExpand_indep (rho : Bytes) : matrixExpand C H rho = matrixExpand C' H rho := by
  unfold matrixExpand
  simp only [polyUniform_indep C C' H]

theorem vecUniformEta_indep (seed : Bytes) (n : UInt16) : vecUniformEta C H seed n = vecUniformEta C' H seed n := by
  unfold vecUniformEta
  simp only [polyUniformEta_indep C C' H]

/-! ## Packing -/

theorem at8_indep (b : Bytes) (i : Nat) (h : i < b.length) : at8 C b i = at8 C' b i := by
  unfold at8
  rw [List.getD_eq_getElem _ _ h, List.getD_eq_getElem _ _ h]

theorem polyzUnpack_indep (b : Bytes) (h : 576 ≤ b.length) : polyzUnpack C b = polyzUnpack C' b := by
  funext i
  unfold polyzUnpack
  rw [show (fun j : Fin 9 => at8 C b (9 * (i.1 / 4) + j.1)) = fun j => at8 C' b (9 * (i.1 / 4) + j.1) from
    funext fun j => at8_indep C C' b _ (by have := i.2; have := j.2; omega)]
  have := z_un_range (fun j => at8 C' b (9 * (i.1 / 4) + j.1)) ⟨i.1 % 4, by omega⟩
  rw [C.i32_id _ (by simp only [GAMMA1]; omega) (by simp only [GAMMA1]; omega), C'.i32_id _ (by simp only [GAMMA1]; omega) (by simp only [GAMMA1]; omega)]

theorem polyt1Unpack_indep (b : Bytes) (h : 320 ≤ b.length) : polyt1Unpack C b = polyt1Unpack C' b := by
  funext i
  unfold polyt1Unpack
  rw [show (fun j : Fin 5 => at8 C b (5 * (i.1 / 4) + j.1)) = fun j => at8 C' b (5 * (i.1 / 4) + j.1) from
    funext fun j => at8_indep C C' b _ (by have := i.2; have := j.2; omega)]

theorem polyt0Unpack_indep (b : Bytes) (h : 416 ≤ b.length) : polyt0Unpack C b = polyt0Unpack C' b := by
  funext i
  unfold polyt0Unpack
  rw [show (fun j : Fin 13 => at8 C b (13 * (i.1 / 8) + j.1)) = fun j => at8 C' b (13 * (i.1 / 8) + j.1) from
    funext fun j => at8_indep C C' b _ (by have := i.2; have := j.2; omega)]
  have := t0_un_range (fun j => at8 C' b (13 * (i.1 / 8) + j.1)) ⟨i.1 % 8, by omega⟩
  rw [C.i32_id _ (by omega) (by omega), C'.i32_id _ (by omega) (by omega)]

theorem polyetaUnpack_indep (b : Bytes) (h : 96 ≤ b.length) : polyetaUnpack C b = polyetaUnpack C' b := by
  funext i
  unfold polyetaUnpack
  rw [show (fun j : Fin 3 => at8 C b (3 * (i.1 / 8) + j.1)) = fun j => at8 C' b (3 * (i.1 / 8) + j.1) from
    funext fun j => at8_indep C C' b _ (by have := i.2; have := j.2; omega)]
  have := eta_un_range (fun j => at8 C' b (3 * (i.1 / 8) + j.1)) ⟨i.1 % 8, by omega⟩
  rw [C.i32_id _ (by simp only [ETA]; omega) (by simp only [ETA]; omega), C'.i32_id _ (by simp only [ETA]; omega) (by simp only [ETA]; omega)]

theorem unpackPk_indep (pk : Bytes) (h : PKLEN ≤ pk.length) : unpackPk C pk = unpackPk C' pk := by
  unfold unpackPk
  rw [show (fun i : Fin 4 => polyt1Unpack C (pk.drop (32 + i.1 * 320))) = fun i => polyt1Unpack C' (pk.drop (32 + i.1 * 320)) from
    funext fun i => polyt1Unpack_indep C C' _ (by have h : 1312 ≤ pk.length := h; have := i.2; rw [List.length_drop]; omega)]

theorem unpackSk_indep (sk : Bytes) (h : SKLEN ≤ sk.length) : unpackSk C sk = unpackSk C' sk := by
  have h : 2560 ≤ sk.length := h
  unfold unpackSk
  rw [show (fun i : Fin 4 => polyetaUnpack C (sk.drop (128 + i.1 * 96))) = fun i => polyetaUnpack C' (sk.drop (128 + i.1 * 96)) from
    funext fun i => polyetaUnpack_indep C C' _ (by have := i.2; rw [List.length_drop]; omega),
    show (fun i : Fin 4 => polyetaUnpack C (sk.drop (512 + i.1 * 96))) = fun i => polyetaUnpack C' (sk.drop (512 + i.1 * 96)) from
    funext fun i => polyetaUnpack_indep C C' _ (by have := i.2; rw [List.length_drop]; omega),
    show (fun i : Fin 4 => polyt0Unpack C (sk.drop (896 + i.1 * 416))) = fun i => polyt0Unpack C' (sk.drop (896 + i.1 * 416)) from
    funext fun i => polyt0Unpack_indep C C' _ (by have := i.2; rw [List.length_drop]; omega)]

theorem unpackHint_indep (b : Bytes) (h : b.length = 84) : unpackHint C b = unpackHint C' b :=
  Option.ext fun v => by rw [unpackHint_some b h, unpackHint_some b h]

theorem unpackSig_indep (sig : Bytes) (h : sig.length = SIGLEN) : unpackSig C sig = unpackSig C' sig := by
  have h : sig.length = 2420 := h
  unfold unpackSig
  rw [unpackHint_indep C C' _ (by rw [List.length_drop]; omega),
    show (fun i : Fin 4 => polyzUnpack C (sig.drop (32 + i.1 * 576))) = fun i => polyzUnpack C' (sig.drop (32 + i.1 * 576)) from
    funext fun i => polyzUnpack_indep C C' _ (by have := i.2; rw [List.length_drop]; omega)]

theorem polyetaPack_indep (a : Poly) (h : Bnd 5 a) : polyetaPack C a = polyetaPack C' a := by
  unfold polyetaPack
  have e : ∀ j, C.i32 (ETA - a j) = C'.i32 (ETA - a j) := fun j => by
    have := h j
    rw [C.i32_id _ (by simp only [ETA]; omega) (by simp only [ETA]; omega), C'.i32_id _ (by simp only [ETA]; omega) (by simp only [ETA]; omega)]
  simp only [e]

theorem polyt0Pack_indep (a : Poly) (h : Bnd 4096 a) : polyt0Pack C a = polyt0Pack C' a := by
  unfold polyt0Pack
  have e : ∀ j, C.i32 (4096 - a j) = C'.i32 (4096 - a j) := fun j => by
    have := h j
    rw [C.i32_id _ (by omega) (by omega), C'.i32_id _ (by omega) (by omega)]
  simp only [e]

theorem polyzPack_indep (a : Poly) (h : Bnd 1000000 a) : polyzPack C a = polyzPack C' a := by
  unfold polyzPack
  have e : ∀ j, C.i32 (GAMMA1 - a j) = C'.i32 (GAMMA1 - a j) := fun j => by
    have := h j
    rw [C.i32_id _ (by simp only [GAMMA1]; omega) (by simp only [GAMMA1]; omega), C'.i32_id _ (by simp only [GAMMA1]; omega) (by simp only [GAMMA1]; omega)]
  simp only [e]

theorem packSig_indep (c : Bytes) (z h : Vec) (hz : ∀ k, Bnd 1000000 (z k)) : packSig C c z h = packSig C' c z h := by
  unfold packSig
  rw [show (fun i => polyzPack C (z i)) = fun i => polyzPack C' (z i) from funext fun i => polyzPack_indep C C' _ (hz i)]

theorem packSk_indep (f : SkFields) (h1 : ∀ k, Bnd 5 (f.s1 k)) (h2 : ∀ k, Bnd 5 (f.s2 k)) (h0 : ∀ k, Bnd 4096 (f.t0 k)) : packSk C f = packSk C' f := by
  unfold packSk
  rw [show (fun i => polyetaPack C (f.s1 i)) = fun i => polyetaPack C' (f.s1 i) from funext fun i => polyetaPack_indep C C' _ (h1 i),
    show (fun i => polyetaPack C (f.s2 i)) = fun i => polyetaPack C' (f.s2 i) from funext fun i => polyetaPack_indep C C' _ (h2 i),
    show (fun i => polyt0Pack C (f.t0 i)) = fun i => polyt0Pack C' (f.t0 i) from funext fun i => polyt0Pack_indep C C' _ (h0 i)]

/-! ## Arithmetic -/

theorem vecChknorm_indep (v : Vec) (B : Int) (hB : B ≤ 1047552) (hv : ∀ k, Bnd 1073741823 (v k)) : vecChknorm C v B = vecChknorm C' v B := by
  have := (vecChknorm_false (C := C) hB hv).trans (vecChknorm_false (C := C') hB hv).symm
  cases h : vecChknorm C v B <;> cases h' : vecChknorm C' v B <;> simp_all

theorem vecAdd_indep (u v : Vec) (hu : ∀ k, Bnd 1000000 (u k)) (hv : ∀ k, Bnd 1000000 (v k)) : vecAdd C u v = vecAdd C' u v := by
  funext k i
  have a := polyAdd_eq (C := C) (hu k) (hv k) (by decide) i
  have b := polyAdd_eq (C := C') (hu k) (hv k) (by decide) i
  show polyAdd C (u k) (v k) i = polyAdd C' (u k) (v k) i
  rw [a, b]

theorem vecUniformGamma1_indep (seed : Bytes) (n : UInt16) : vecUniformGamma1 C H seed n = vecUniformGamma1 C' H seed n := by
  funext k
  exact polyzUnpack_indep C C' _ (by rw [squeeze_length]; omega)

/-- One attempt does not depend on `C`. -/
theorem signAttempt_indep {mu rhoprime : Bytes} {mat : Mat} {s1 s2 t0 : Vec} (nonce : UInt16) (hm : ∀ i j, Bnd Q (mat i j))
    (h1 : ∀ k, Bnd 5 (s1 k)) (h2 : ∀ k, Bnd 5 (s2 k)) (h0 : ∀ k, Bnd 4096 (t0 k)) :
    signAttempt C H ⟨mu, rhoprime, mat, vecNtt C s1, vecNtt C s2, vecNtt C t0⟩ nonce =
    signAttempt C' H ⟨mu, rhoprime, mat, vecNtt C' s1, vecNtt C' s2, vecNtt C' t0⟩ nonce := by
  choose A hA using fun i j => exists_isNtt (mat i j)
  generalize hyd : vecUniformGamma1 C H rhoprime nonce = y
  have hyd' : vecUniformGamma1 C' H rhoprime nonce = y := by rw [vecUniformGamma1_indep C' C]; exact hyd
  generalize hwd : Spec.wOf A y = w
  generalize hcd : shake256 H 32 (mu ++ vecPackW1 fun k i => Spec.highBits (w k i)) = c
  cases hcp : polyChallenge C H c with
  | none =>
    have hcp' : polyChallenge C' H c = none := by rw [polyChallenge_indep C' C]; exact hcp
    rw [signAttempt_none hm hA hyd hwd hcd hcp, signAttempt_none hm hA hyd' hwd hcd hcp']
  | some cp =>
    have hcp' : polyChallenge C' H c = some cp := by rw [polyChallenge_indep C' C]; exact hcp
    rw [signAttempt_run hm hA h1 h2 h0 hyd hwd hcd hcp, signAttempt_run hm hA h1 h2 h0 hyd' hwd hcd hcp']
    obtain ⟨hct, hcc⟩ := polyChallenge_spec H _ cp hcp
    have mulB : ∀ (s : Vec) (B : Int), (∀ k, Bnd B (s k)) → ∀ k i, -(39 * B) ≤ Spec.cMul cp s k i ∧ Spec.cMul cp s k i ≤ 39 * B := by
      intro s B hs k i
      have := negaMul_bnd cp (s k) B hct (hs k) i
      rw [hcc] at this
      exact this
    have m1 := mulB s1 5 h1
    have m2 := mulB s2 5 h2
    have m0 := mulB t0 4096 h0
    have hy : ∀ k i, -GAMMA1 < y k i ∧ y k i ≤ GAMMA1 := by rw [← hyd]; exact fun k i => vecUniformGamma1_range (C := C) (H := H) rhoprime nonce k i
    have hwr : ∀ k i, 0 ≤ w k i ∧ w k i < Q := by rw [← hwd]; exact fun k i => std_range _ _
    have hlow : ∀ k i, -GAMMA2 ≤ Spec.lowBits (w k i) ∧ Spec.lowBits (w k i) ≤ GAMMA2 := by
      intro k i
      exact spec_lowBits_range _ (hwr k i).1 (hwr k i).2
    have bz : ∀ k, Bnd 1000000 (Spec.zOf y cp s1 k) := fun k i => by
      have := hy k i; have := m1 k i
      simp only [Spec.zOf, GAMMA1] at *; omega
    have br : ∀ k, Bnd 1000000 (fun i => Spec.lowBits (w k i) - Spec.cMul cp s2 k i) := fun k i => by
      have := hlow k i; have := m2 k i
      simp only [GAMMA2] at *; omega
    have bt : ∀ k, Bnd 1000000 (Spec.cMul cp t0 k) := fun k i => by have := m0 k i; omega
    rw [vecChknorm_indep C C' (Spec.zOf y cp s1) _ (by decide) (fun k => (bz k).mono (by decide)),
      vecChknorm_indep C C' (fun k i => Spec.lowBits (w k i) - Spec.cMul cp s2 k i) _ (by decide) (fun k => (br k).mono (by decide)),
      vecChknorm_indep C C' (Spec.cMul cp t0) _ (by decide) (fun k => (bt k).mono (by decide)),
      vecAdd_indep C C' _ _ br bt, packSig_indep C C' _ _ _ bz]

theorem power2Round_bnd (t : Poly) (ht : ∀ i, 0 ≤ t i ∧ t i < Q) : Bnd 4096 fun i => (Spec.power2Round (t i)).2 := by
  intro i
  have := power2round_spec (C := wrapSem) _ (ht i).1 (ht i).2
  rw [power2round_eq _ (ht i).1 (ht i).2] at this
  exact ⟨le_of_lt this.2.1, this.2.2.1⟩

theorem tOf_range (A : Fin 4 → Fin 4 → Rq) (s1 s2 : Vec) (k : Fin 4) (i : Fin 256) : 0 ≤ Spec.tOf A s1 s2 k i ∧ Spec.tOf A s1 s2 k i < Q := by
  unfold Spec.tOf
  exact std_range _ i

/-- Key generation does not depend on `C`. -/
theorem keypairDet_indep (coins : Bytes) : keypairDet C H coins = keypairDet C' H coins := by
  have hlen : (shake256 H 128 (coins.take 32)).length = 128 := shake256_len _ _
  generalize hr : (shake256 H 128 (coins.take 32)).take 32 = rho
  generalize hp : ((shake256 H 128 (coins.take 32)).drop 32).take 64 = rhoprime
  generalize hk : ((shake256 H 128 (coins.take 32)).drop 96).take 32 = key
  have hseed : shake256 H 128 (coins.take 32) = rho ++ rhoprime ++ key := by
    rw [← hr, ← hp, ← hk, List.append_assoc]
    have e : ((shake256 H 128 (coins.take 32)).drop 96).take 32 = ((shake256 H 128 (coins.take 32)).drop 32).drop 64 := by
      rw [List.drop_drop, List.take_of_length_le (by rw [List.length_drop]; omega)]
    rw [e, List.take_append_drop, List.take_append_drop]
  have lr : rho.length = 32 := by rw [← hr, List.length_take]; omega
  have lp : rhoprime.length = 64 := by rw [← hp, List.length_take, List.length_drop]; omega
  have lk : key.length = 32 := by rw [← hk, List.length_take, List.length_drop]; omega
  cases hmat : matrixExpand C H rho with
  | none =>
    have hmat' : matrixExpand C' H rho = none := by rw [matrixExpand_indep C' C]; exact hmat
    unfold keypairDet
    simp only [hr, hmat, hmat', Option.bind_eq_bind, Option.bind_none]
  | some mat =>
    have hmat' : matrixExpand C' H rho = some mat := by rw [matrixExpand_indep C' C]; exact hmat
    cases hs1 : vecUniformEta C H rhoprime 0 with
    | none =>
      have hs1' : vecUniformEta C' H rhoprime 0 = none := by rw [vecUniformEta_indep C' C]; exact hs1
      unfold keypairDet
      simp only [hr, hp, hmat, hmat', hs1, hs1', Option.bind_eq_bind, Option.bind_none, Option.bind_some]
    | some s1 =>
      have hs1' : vecUniformEta C' H rhoprime 0 = some s1 := by rw [vecUniformEta_indep C' C]; exact hs1
      cases hs2 : vecUniformEta C H rhoprime 4 with
      | none =>
        have hs2' : vecUniformEta C' H rhoprime 4 = none := by rw [vecUniformEta_indep C' C]; exact hs2
        unfold keypairDet
        simp only [hr, hp, hmat, hmat', hs1, hs1', hs2, hs2', Option.bind_eq_bind, Option.bind_none, Option.bind_some]
      | some s2 =>
        have hs2' : vecUniformEta C' H rhoprime 4 = some s2 := by rw [vecUniformEta_indep C' C]; exact hs2
        choose A hA using fun i j => exists_isNtt (mat i j)
        rw [keypair_eq rho rhoprime key hseed lr lp lk hmat hs1 hs2 hA, keypair_eq rho rhoprime key hseed lr lp lk hmat' hs1' hs2' hA]
        refine congrArg (fun x => some (_, x)) (packSk_indep C C' _ ?_ ?_ ?_)
        · exact fun k i => by have := vecUniformEta_range hs1 k i; show -5 ≤ s1 k i ∧ s1 k i ≤ 5; omega
        · exact fun k i => by have := vecUniformEta_range hs2 k i; show -5 ≤ s2 k i ∧ s2 k i ≤ 5; omega
        · dsimp only
          intro k
          exact power2Round_bnd (Spec.tOf A s1 s2 k) (tOf_range A s1 s2 k)

/-- Signing does not depend on `C`, for every string of the length of a secret key. -/
theorem signature_indep (m sk : Bytes) (h : SKLEN ≤ sk.length) : signature C H m sk = signature C' H m sk := by
  unfold signature signCtx
  rw [← unpackSk_indep C C' sk h]
  have b1 : ∀ k, Bnd 5 ((unpackSk C sk).s1 k) := fun k i => by
    have := polyetaUnpack_range (C := C) (sk.drop (128 + k.1 * 96)) i
    show -5 ≤ polyetaUnpack C (sk.drop (128 + k.1 * 96)) i ∧ polyetaUnpack C (sk.drop (128 + k.1 * 96)) i ≤ 5
    omega
  have b2 : ∀ k, Bnd 5 ((unpackSk C sk).s2 k) := fun k i => by
    have := polyetaUnpack_range (C := C) (sk.drop (512 + k.1 * 96)) i
    show -5 ≤ polyetaUnpack C (sk.drop (512 + k.1 * 96)) i ∧ polyetaUnpack C (sk.drop (512 + k.1 * 96)) i ≤ 5
    omega
  have b0 : ∀ k, Bnd 4096 ((unpackSk C sk).t0 k) := fun k i => by
    have := polyt0Unpack_range (C := C) (sk.drop (896 + k.1 * 416)) i
    show -4096 ≤ polyt0Unpack C (sk.drop (896 + k.1 * 416)) i ∧ polyt0Unpack C (sk.drop (896 + k.1 * 416)) i ≤ 4096
    omega
  generalize unpackSk C sk = f at *
  cases hmat : matrixExpand C H f.rho with
  | none =>
    have hmat' : matrixExpand C' H f.rho = none := by rw [matrixExpand_indep C' C]; exact hmat
    simp only [hmat, hmat', Option.bind_eq_bind, Option.bind_none]
  | some mat =>
    have hmat' : matrixExpand C' H f.rho = some mat := by rw [matrixExpand_indep C' C]; exact hmat
    simp only [hmat, hmat', Option.bind_eq_bind, Option.bind_some, Option.pure_def]
    have hm := fun i j => matrixExpand_bnd hmat i j
    apply Option.ext
    intro sig
    rw [signLoop_iff, signLoop_iff]
    simp only [signAttempt_indep C C' H _ hm b1 b2 b0]

/-- Verification does not depend on `C`, for every signature string and every string of the length of a public key. -/
theorem verify_indep (sig m pk : Bytes) (h : PKLEN ≤ pk.length) : verify C H sig m pk = verify C' H sig m pk := by
  by_cases hl : sig.length = SIGLEN
  · cases hu : unpackSig C sig with
    | none =>
      have hu' : unpackSig C' sig = none := by rw [unpackSig_indep C' C _ hl]; exact hu
      rw [verify_reject (Or.inr (Or.inl hu)), verify_reject (Or.inr (Or.inl hu'))]
    | some x =>
      obtain ⟨c, z, hh⟩ := x
      have hu' : unpackSig C' sig = some (c, z, hh) := by rw [unpackSig_indep C' C _ hl]; exact hu
      by_cases hn : Spec.NormLt z (131072 - 78)
      · have hzb : ∀ k, Bnd 1073741823 (z k) := fun k i => by have := abs_lt.1 (hn k i); omega
        have hnc : vecChknorm C z (GAMMA1 - BETA) = false := (vecChknorm_false (by decide) hzb).2 fun k i => abs_lt.1 (hn k i)
        have hnc' : vecChknorm C' z (GAMMA1 - BETA) = false := (vecChknorm_false (by decide) hzb).2 fun k i => abs_lt.1 (hn k i)
        cases hcp : polyChallenge C H c with
        | none =>
          have hcp' : polyChallenge C' H c = none := by rw [polyChallenge_indep C' C]; exact hcp
          unfold verify
          simp only [hl, hu, hu', hnc, hnc', hcp, hcp', Option.bind_eq_bind, Option.bind_none, ne_eq, not_true_eq_false, if_false, Bool.false_eq_true]
        | some cp =>
          have hcp' : polyChallenge C' H c = some cp := by rw [polyChallenge_indep C' C]; exact hcp
          cases hmat : matrixExpand C H (pk.take 32) with
          | none =>
            have hmat' : matrixExpand C' H (pk.take 32) = none := by rw [matrixExpand_indep C' C]; exact hmat
            unfold verify
            have e : ∀ C, (unpackPk C pk).1 = pk.take 32 := fun _ => rfl
            simp only [hl, hu, hu', hnc, hnc', hcp, hcp', e, hmat, hmat', Option.bind_eq_bind, Option.bind_none, Option.bind_some, ne_eq, not_true_eq_false,
              if_false, Bool.false_eq_true]
          | some mat =>
            have hmat' : matrixExpand C' H (pk.take 32) = some mat := by rw [matrixExpand_indep C' C]; exact hmat
            choose A hA using fun i j => exists_isNtt (mat i j)
            rw [verify_eq hl hu hn hcp hmat hA, verify_eq hl hu' hn hcp' hmat' hA, unpackPk_indep C C' pk h]
      · have : ∃ k i, 131072 - 78 ≤ |z k i| := by
          unfold Spec.NormLt at hn
          push Not at hn
          exact hn
        rw [verify_reject (Or.inr (Or.inr ⟨c, z, hh, hu, this⟩)), verify_reject (Or.inr (Or.inr ⟨c, z, hh, hu', this⟩))]
  · rw [verify_reject (Or.inl hl), verify_reject (Or.inl hl)]

/-- Opening a signed message does not depend on `C`. -/
theorem cryptoOpen_indep (sm pk : Bytes) (h : PKLEN ≤ pk.length) : cryptoOpen C H sm pk = cryptoOpen C' H sm pk := by
  unfold cryptoOpen
  rw [verify_indep C C' H _ _ _ h]

end Verif.Dilithium
