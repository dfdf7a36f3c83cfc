import Verif.Dilithium35.Refine
import Verif.Dilithium35.Total
import Verif.Dilithium.NoUb

/-!
# No undefined behaviour in dilithium3 and dilithium5

Results do not depend on `CSem`, i.e. on what signed overflow or an out-of-bounds read would do.
-/

namespace Verif.Dilithium35

open Spec (matMul)
open Verif.Dilithium.Spec (Rq toRq std IsNtt modpm)
open Verif.Dilithium (CSem Shake wrapSem Poly Q Bnd polyAdd polyAdd_eq std_range negaMul_bnd shake256 shake256_len exists_isNtt polyUniform_indep at8 at8_indep polyt1Unpack polyt1Unpack_indep
  polyt0Unpack polyt0Unpack_indep polyt0Unpack_range polyt0Pack polyt0Pack_indep power2Round_bnd squeeze_length)

variable (C C' : CSem) (H : Shake) {md : Mode}

/-- The signing loop returns the first accepted attempt. -/
theorem signLoop_iff (x : SignCtx md) (nonce : UInt16) (sig : Bytes) : signLoop md C H x nonce = some sig ↔
    ∃ n : Nat, (∀ j < n, signAttempt md C H x (nonce + UInt16.ofNat j) = some none) ∧ signAttempt md C H x (nonce + UInt16.ofNat n) = some (some sig) := by
  have e : ∀ (nonce : UInt16) (j : Nat), nonce + 1 + UInt16.ofNat j = nonce + UInt16.ofNat (j + 1) := by
    intro nonce j
    rw [UInt16.add_assoc]
    congr 1
    rw [UInt16.ofNat_add, UInt16.add_comm]
    rfl
  constructor
  · intro h
    refine signLoop.partial_correctness md C H x (motive := fun nonce sig => ∃ n : Nat, (∀ j < n, signAttempt md C H x (nonce + UInt16.ofNat j) = some none) ∧
      signAttempt md C H x (nonce + UInt16.ofNat n) = some (some sig)) ?_ nonce sig h
    intro f ih nonce sig h
    simp only [Option.bind_eq_bind, Option.bind_eq_some_iff] at h
    obtain ⟨o, ho, h⟩ := h
    cases o with
    | some s =>
      cases h
      refine ⟨0, fun j hj => by omega, ?_⟩
      rw [show UInt16.ofNat 0 = 0 from rfl, UInt16.add_zero]
      exact ho
    | none =>
      obtain ⟨n, h1, h2⟩ := ih _ _ h
      refine ⟨n + 1, ?_, by rw [← e]; exact h2⟩
      intro j hj
      cases j with
      | zero =>
        rw [show UInt16.ofNat 0 = 0 from rfl, UInt16.add_zero]
        exact ho
      | succ j =>
        rw [← e]
        exact h1 j (by omega)
  · rintro ⟨n, h1, h2⟩
    induction n generalizing nonce with
    | zero =>
      rw [show UInt16.ofNat 0 = 0 from rfl, UInt16.add_zero] at h2
      rw [signLoop, h2]
      rfl
    | succ n ih =>
      have h0 := h1 0 (by omega)
      rw [show UInt16.ofNat 0 = 0 from rfl, UInt16.add_zero] at h0
      rw [signLoop, h0]
      show signLoop md C H x (nonce + 1) = some sig
      refine ih (nonce + 1) (fun j hj => ?_) ?_
      · rw [e]; exact h1 (j + 1) (by omega)
      · rw [e]; exact h2

/-! ## Samplers -/

theorem polyUniformEta_indep (seed : Bytes) (n : UInt16) : polyUniformEta md C H seed n = polyUniformEta md C' H seed n :=
  Option.ext fun p => by rw [polyUniformEta_iff, polyUniformEta_iff]

theorem polyChallenge_indep (seed : Bytes) : polyChallenge md C H seed = polyChallenge md C' H seed :=
  Option.ext fun p => by rw [polyChallenge_iff, polyChallenge_iff]

theorem matrixExpand_indep (rho : Bytes) : matrixExpand md C H rho = matrixExpand md C' H rho := by
  unfold matrixExpand
  simp only [polyUniform_indep C C' H]

theorem vecUniformEta_indep (n : Nat) (seed : Bytes) (k : UInt16) : vecUniformEta md C H n seed k = vecUniformEta md C' H n seed k := by
  unfold vecUniformEta
  simp only [polyUniformEta_indep C C' H]

/-! ## Packing -/

theorem polyzUnpack_indep (b : Bytes) (h : 640 ≤ b.length) : polyzUnpack C b = polyzUnpack C' b := by
  funext i
  unfold polyzUnpack
  rw [show (fun j : Fin 5 => at8 C b (5 * (i.1 / 2) + j.1)) = fun j => at8 C' b (5 * (i.1 / 2) + j.1) from
    funext fun j => at8_indep C C' b _ (by have := i.2; have := j.2; omega)]
  have := z_un_range (fun j => at8 C' b (5 * (i.1 / 2) + j.1)) ⟨i.1 % 2, by omega⟩
  rw [C.i32_id _ (by simp only [GAMMA1]; omega) (by simp only [GAMMA1]; omega), C'.i32_id _ (by simp only [GAMMA1]; omega) (by simp only [GAMMA1]; omega)]

theorem polyeta4Unpack_indep (b : Bytes) (h : 128 ≤ b.length) : polyeta4Unpack C b = polyeta4Unpack C' b := by
  funext i
  unfold polyeta4Unpack
  rw [show (fun j : Fin 1 => at8 C b (1 * (i.1 / 2) + j.1)) = fun j => at8 C' b (1 * (i.1 / 2) + j.1) from
    funext fun j => at8_indep C C' b _ (by have := i.2; have := j.2; omega)]
  have := eta4_un_range (fun j => at8 C' b (1 * (i.1 / 2) + j.1)) ⟨i.1 % 2, by omega⟩
  rw [C.i32_id _ (by omega) (by omega), C'.i32_id _ (by omega) (by omega)]

theorem polyetaUnpack_indep (b : Bytes) (h : md.ETABYTES ≤ b.length) : polyetaUnpack md C b = polyetaUnpack md C' b := by
  cases md with
  | three => exact polyeta4Unpack_indep C C' b h
  | five => exact Dilithium.polyetaUnpack_indep C C' b h

theorem unpackPk_indep (pk : Bytes) (h : md.PKLEN ≤ pk.length) : unpackPk md C pk = unpackPk md C' pk := by
  unfold unpackPk
  rw [show (fun i : Fin md.K => polyt1Unpack C (pk.drop (32 + i.1 * 320))) = fun i => polyt1Unpack C' (pk.drop (32 + i.1 * 320)) from
    funext fun i => polyt1Unpack_indep C C' _ (by
      have h : 32 + md.K * 320 ≤ pk.length := h
      have := idx_le (k := 320) i
      rw [List.length_drop]; omega)]

theorem unpackSk_indep (sk : Bytes) (h : md.SKLEN ≤ sk.length) : unpackSk md C sk = unpackSk md C' sk := by
  have h : 2 * 32 + 64 + md.L * md.ETABYTES + md.K * md.ETABYTES + md.K * 416 ≤ sk.length := h
  unfold unpackSk
  rw [show (fun i : Fin md.L => polyetaUnpack md C (sk.drop (128 + i.1 * md.ETABYTES))) = fun i => polyetaUnpack md C' (sk.drop (128 + i.1 * md.ETABYTES)) from
    funext fun i => polyetaUnpack_indep C C' _ (by have := idx_le (k := md.ETABYTES) i; rw [List.length_drop]; omega),
    show (fun i : Fin md.K => polyetaUnpack md C (sk.drop (128 + md.L * md.ETABYTES + i.1 * md.ETABYTES))) =
      fun i => polyetaUnpack md C' (sk.drop (128 + md.L * md.ETABYTES + i.1 * md.ETABYTES)) from
    funext fun i => polyetaUnpack_indep C C' _ (by have := idx_le (k := md.ETABYTES) i; rw [List.length_drop]; omega),
    show (fun i : Fin md.K => polyt0Unpack C (sk.drop (128 + md.L * md.ETABYTES + md.K * md.ETABYTES + i.1 * 416))) =
      fun i => polyt0Unpack C' (sk.drop (128 + md.L * md.ETABYTES + md.K * md.ETABYTES + i.1 * 416)) from
    funext fun i => polyt0Unpack_indep C C' _ (by have := idx_le (k := 416) i; rw [List.length_drop]; omega)]

theorem unpackHint_indep (n ω : Nat) (b : Bytes) (h : b.length = ω + n) : unpackHint C n ω b = unpackHint C' n ω b :=
  Option.ext fun v => by rw [unpackHint_some b h, unpackHint_some b h]

theorem unpackSig_indep (sig : Bytes) (h : sig.length = md.SIGLEN) : unpackSig md C sig = unpackSig md C' sig := by
  have h : sig.length = md.CTILDE + md.L * 640 + (md.OMEGA + md.K) := h
  unfold unpackSig
  rw [unpackHint_indep C C' _ _ _ (by rw [List.length_drop]; omega),
    show (fun i : Fin md.L => polyzUnpack C (sig.drop (md.CTILDE + i.1 * 640))) = fun i => polyzUnpack C' (sig.drop (md.CTILDE + i.1 * 640)) from
    funext fun i => polyzUnpack_indep C C' _ (by have := idx_le (k := 640) i; rw [List.length_drop]; omega)]

theorem polyeta4Pack_indep (a : Poly) (h : Bnd 11 a) : polyeta4Pack C a = polyeta4Pack C' a := by
  unfold polyeta4Pack
  have e : ∀ j, C.i32 (4 - a j) = C'.i32 (4 - a j) := fun j => by
    have := h j
    rw [C.i32_id _ (by omega) (by omega), C'.i32_id _ (by omega) (by omega)]
  simp only [e]

theorem polyetaPack_indep (a : Poly) (h : Bnd md.ETA a) : polyetaPack md C a = polyetaPack md C' a := by
  cases md with
  | three => exact polyeta4Pack_indep C C' a (h.mono (by decide))
  | five => exact Dilithium.polyetaPack_indep C C' a (h.mono (by decide))

theorem polyzPack_indep (a : Poly) (h : Bnd 2000000 a) : polyzPack C a = polyzPack C' a := by
  unfold polyzPack
  have e : ∀ j, C.i32 (GAMMA1 - a j) = C'.i32 (GAMMA1 - a j) := fun j => by
    have := h j
    rw [C.i32_id _ (by simp only [GAMMA1]; omega) (by simp only [GAMMA1]; omega), C'.i32_id _ (by simp only [GAMMA1]; omega) (by simp only [GAMMA1]; omega)]
  simp only [e]

theorem packSig_indep (c : Bytes) (z : Vec md.L) (h : Vec md.K) (hz : ∀ k, Bnd 2000000 (z k)) : packSig md C c z h = packSig md C' c z h := by
  unfold packSig
  rw [show (fun i => polyzPack C (z i)) = fun i => polyzPack C' (z i) from funext fun i => polyzPack_indep C C' _ (hz i)]

theorem packSk_indep (f : SkFields md) (h1 : ∀ k, Bnd md.ETA (f.s1 k)) (h2 : ∀ k, Bnd md.ETA (f.s2 k)) (h0 : ∀ k, Bnd 4096 (f.t0 k)) : packSk md C f = packSk md C' f := by
  unfold packSk
  rw [show (fun i => polyetaPack md C (f.s1 i)) = fun i => polyetaPack md C' (f.s1 i) from funext fun i => polyetaPack_indep C C' _ (h1 i),
    show (fun i => polyetaPack md C (f.s2 i)) = fun i => polyetaPack md C' (f.s2 i) from funext fun i => polyetaPack_indep C C' _ (h2 i),
    show (fun i => polyt0Pack C (f.t0 i)) = fun i => polyt0Pack C' (f.t0 i) from funext fun i => polyt0Pack_indep C C' _ (h0 i)]

/-! ## Arithmetic -/

theorem vecChknorm_indep {n : Nat} (v : Vec n) (B : Int) (hB : B ≤ 1047552) (hv : ∀ k, Bnd 1073741823 (v k)) : vecChknorm C v B = vecChknorm C' v B := by
  have := (vecChknorm_false (C := C) hB hv).trans (vecChknorm_false (C := C') hB hv).symm
  cases h : vecChknorm C v B <;> cases h' : vecChknorm C' v B <;> simp_all

theorem vecAdd_indep {n : Nat} (u v : Vec n) (hu : ∀ k, Bnd 2000000 (u k)) (hv : ∀ k, Bnd 2000000 (v k)) : vecAdd C u v = vecAdd C' u v := by
  funext k i
  have a := polyAdd_eq (C := C) (hu k) (hv k) (by decide) i
  have b := polyAdd_eq (C := C') (hu k) (hv k) (by decide) i
  show polyAdd C (u k) (v k) i = polyAdd C' (u k) (v k) i
  rw [a, b]

theorem vecUniformGamma1_indep (seed : Bytes) (n : UInt16) : vecUniformGamma1 md C H seed n = vecUniformGamma1 md C' H seed n := by
  funext k
  exact polyzUnpack_indep C C' _ (by rw [squeeze_length]; omega)

/-- One attempt does not depend on `C`. -/
theorem signAttempt_indep {mu rhoprime : Bytes} {mat : Mat md} {s1 : Vec md.L} {s2 t0 : Vec md.K} (nonce : UInt16) (hm : ∀ i j, Bnd Q (mat i j))
    (h1 : ∀ k, Bnd 11 (s1 k)) (h2 : ∀ k, Bnd 11 (s2 k)) (h0 : ∀ k, Bnd 4096 (t0 k)) :
    signAttempt md C H ⟨mu, rhoprime, mat, vecNtt C s1, vecNtt C s2, vecNtt C t0⟩ nonce =
    signAttempt md C' H ⟨mu, rhoprime, mat, vecNtt C' s1, vecNtt C' s2, vecNtt C' t0⟩ nonce := by
  choose A hA using fun i j => exists_isNtt (mat i j)
  generalize hyd : vecUniformGamma1 md C H rhoprime nonce = y
  have hyd' : vecUniformGamma1 md C' H rhoprime nonce = y := by rw [vecUniformGamma1_indep C' C]; exact hyd
  generalize hwd : Spec.wOf A y = w
  generalize hcd : shake256 H md.CTILDE (mu ++ vecPackW1 fun k i => Spec.highBits (w k i)) = c
  cases hcp : polyChallenge md C H c with
  | none =>
    have hcp' : polyChallenge md C' H c = none := by rw [polyChallenge_indep C' C]; exact hcp
    rw [signAttempt_none hm hA hyd hwd hcd hcp, signAttempt_none hm hA hyd' hwd hcd hcp']
  | some cp =>
    have hcp' : polyChallenge md C' H c = some cp := by rw [polyChallenge_indep C' C]; exact hcp
    rw [signAttempt_run hm hA h1 h2 h0 hyd hwd hcd hcp, signAttempt_run hm hA h1 h2 h0 hyd' hwd hcd hcp']
    obtain ⟨hct, hcc⟩ := polyChallenge_spec md H _ cp hcp
    have ht := tau_le60 md
    have hb := beta_le md
    have mulB : ∀ (n : Nat) (s : Vec n) (B : Int), 0 ≤ B → (∀ k, Bnd B (s k)) → ∀ k i, -(60 * B) ≤ Spec.cMul cp s k i ∧ Spec.cMul cp s k i ≤ 60 * B := by
      intro n s B hB hs k i
      have := negaMul_bnd cp (s k) B hct (hs k) i
      rw [hcc] at this
      have hle : (md.TAU : Int) * B ≤ 60 * B := mul_le_mul_of_nonneg_right (by exact_mod_cast ht) hB
      show -(60 * B) ≤ negaMul cp (s k) i ∧ negaMul cp (s k) i ≤ 60 * B
      constructor
      · exact le_trans (neg_le_neg hle) this.1
      · exact le_trans this.2 hle
    have m1 := mulB _ s1 11 (by decide) h1
    have m2 := mulB _ s2 11 (by decide) h2
    have m0 := mulB _ t0 4096 (by decide) h0
    have hy : ∀ k i, -GAMMA1 < y k i ∧ y k i ≤ GAMMA1 := by rw [← hyd]; exact fun k i => vecUniformGamma1_range (C := C) (H := H) rhoprime nonce k i
    have hwr : ∀ k i, 0 ≤ w k i ∧ w k i < Q := by rw [← hwd]; exact fun k i => std_range _ _
    have hlow : ∀ k i, -GAMMA2 ≤ Spec.lowBits (w k i) ∧ Spec.lowBits (w k i) ≤ GAMMA2 := by
      intro k i
      exact spec_lowBits_range _ (hwr k i).1 (hwr k i).2
    have bz : ∀ k, Bnd 2000000 (Spec.zOf y cp s1 k) := fun k i => by
      have := hy k i; have := m1 k i
      simp only [Spec.zOf, GAMMA1] at *; omega
    have br : ∀ k, Bnd 2000000 (fun i => Spec.lowBits (w k i) - Spec.cMul cp s2 k i) := fun k i => by
      have := hlow k i; have := m2 k i
      simp only [GAMMA2] at *; omega
    have bt : ∀ k, Bnd 2000000 (Spec.cMul cp t0 k) := fun k i => by have := m0 k i; omega
    rw [vecChknorm_indep C C' (Spec.zOf y cp s1) _ (by simp only [GAMMA1]; omega) (fun k => (bz k).mono (by decide)),
      vecChknorm_indep C C' (fun k i => Spec.lowBits (w k i) - Spec.cMul cp s2 k i) _ (by simp only [GAMMA2]; omega) (fun k => (br k).mono (by decide)),
      vecChknorm_indep C C' (Spec.cMul cp t0) _ (by decide) (fun k => (bt k).mono (by decide)),
      vecAdd_indep C C' _ _ br bt, packSig_indep C C' _ _ _ bz]

theorem tOf_range (A : Fin md.K → Fin md.L → Rq) (s1 : Vec md.L) (s2 : Vec md.K) (k : Fin md.K) (i : Fin 256) : 0 ≤ Spec.tOf A s1 s2 k i ∧ Spec.tOf A s1 s2 k i < Q := by
  unfold Spec.tOf
  exact std_range _ i

/-- Key generation does not depend on `C`. -/
theorem keypairDet_indep (coins : Bytes) : keypairDet md C H coins = keypairDet md C' H coins := by
  have hlen : (shake256 H 128 (coins.take 32)).length = 128 := shake256_len _ _
  generalize hr : (shake256 H 128 (coins.take 32)).take 32 = rho
  generalize hp : ((shake256 H 128 (coins.take 32)).drop 32).take 64 = rhoprime
  generalize hk : ((shake256 H 128 (coins.take 32)).drop 96).take 32 = key
  have hseed : shake256 H 128 (coins.take 32) = rho ++ rhoprime ++ key := by
    rw [← hr, ← hp, ← hk, List.append_assoc]
    have e : ((shake256 H 128 (coins.take 32)).drop 96).take 32 = ((shake256 H 128 (coins.take 32)).drop 32).drop 64 := by
      rw [List.drop_drop, List.take_of_length_le (by rw [List.length_drop]; omega)]
    rw [e, List.take_append_drop, List.take_append_drop]
  have lr : rho.length = 32 := by rw [← hr, List.length_take]; omega
  have lp : rhoprime.length = 64 := by rw [← hp, List.length_take, List.length_drop]; omega
  have lk : key.length = 32 := by rw [← hk, List.length_take, List.length_drop]; omega
  cases hmat : matrixExpand md C H rho with
  | none =>
    have hmat' : matrixExpand md C' H rho = none := by rw [matrixExpand_indep C' C]; exact hmat
    unfold keypairDet
    simp only [hr, hmat, hmat', Option.bind_eq_bind, Option.bind_none]
  | some mat =>
    have hmat' : matrixExpand md C' H rho = some mat := by rw [matrixExpand_indep C' C]; exact hmat
    cases hs1 : vecUniformEta md C H md.L rhoprime 0 with
    | none =>
      have hs1' : vecUniformEta md C' H md.L rhoprime 0 = none := by rw [vecUniformEta_indep C' C]; exact hs1
      unfold keypairDet
      simp only [hr, hp, hmat, hmat', hs1, hs1', Option.bind_eq_bind, Option.bind_none, Option.bind_some]
    | some s1 =>
      have hs1' : vecUniformEta md C' H md.L rhoprime 0 = some s1 := by rw [vecUniformEta_indep C' C]; exact hs1
      cases hs2 : vecUniformEta md C H md.K rhoprime (UInt16.ofNat md.L) with
      | none =>
        have hs2' : vecUniformEta md C' H md.K rhoprime (UInt16.ofNat md.L) = none := by rw [vecUniformEta_indep C' C]; exact hs2
        unfold keypairDet
        simp only [hr, hp, hmat, hmat', hs1, hs1', hs2, hs2', Option.bind_eq_bind, Option.bind_none, Option.bind_some]
      | some s2 =>
        have hs2' : vecUniformEta md C' H md.K rhoprime (UInt16.ofNat md.L) = some s2 := by rw [vecUniformEta_indep C' C]; exact hs2
        choose A hA using fun i j => exists_isNtt (mat i j)
        rw [keypair_eq rho rhoprime key hseed lr lp lk hmat hs1 hs2 hA, keypair_eq rho rhoprime key hseed lr lp lk hmat' hs1' hs2' hA]
        refine congrArg (fun x => some (_, x)) (packSk_indep C C' _ ?_ ?_ ?_)
        · exact fun k i => vecUniformEta_range hs1 k i
        · exact fun k i => vecUniformEta_range hs2 k i
        · dsimp only
          intro k
          exact power2Round_bnd (Spec.tOf A s1 s2 k) (tOf_range A s1 s2 k)

theorem etaMin_bnd (md : Mode) : -11 ≤ md.etaMin ∧ md.ETA ≤ 11 := by cases md <;> decide

/-- Signing does not depend on `C`, for every string of the length of a secret key. -/
theorem signature_indep (m sk : Bytes) (h : md.SKLEN ≤ sk.length) : signature md C H m sk = signature md C' H m sk := by
  unfold signature signCtx
  rw [← unpackSk_indep C C' sk h]
  have hb := etaMin_bnd md
  have b1 : ∀ k, Bnd 11 ((unpackSk md C sk).s1 k) := fun k i => by
    have := polyetaUnpack_range (C := C) md (sk.drop (128 + k.1 * md.ETABYTES)) i
    exact ⟨le_trans hb.1 this.1, le_trans this.2 hb.2⟩
  have b2 : ∀ k, Bnd 11 ((unpackSk md C sk).s2 k) := fun k i => by
    have := polyetaUnpack_range (C := C) md (sk.drop (128 + md.L * md.ETABYTES + k.1 * md.ETABYTES)) i
    exact ⟨le_trans hb.1 this.1, le_trans this.2 hb.2⟩
  have b0 : ∀ k, Bnd 4096 ((unpackSk md C sk).t0 k) := fun k i => by
    have := polyt0Unpack_range (C := C) (sk.drop (128 + md.L * md.ETABYTES + md.K * md.ETABYTES + k.1 * 416)) i
    exact ⟨le_of_lt this.1, this.2⟩
  generalize unpackSk md C sk = f at *
  cases hmat : matrixExpand md C H f.rho with
  | none =>
    have hmat' : matrixExpand md C' H f.rho = none := by rw [matrixExpand_indep C' C]; exact hmat
    simp only [hmat, hmat', Option.bind_eq_bind, Option.bind_none]
  | some mat =>
    have hmat' : matrixExpand md C' H f.rho = some mat := by rw [matrixExpand_indep C' C]; exact hmat
    simp only [hmat, hmat', Option.bind_eq_bind, Option.bind_some, Option.pure_def]
    have hm := fun i j => matrixExpand_bnd hmat i j
    apply Option.ext
    intro sig
    rw [signLoop_iff, signLoop_iff]
    simp only [signAttempt_indep C C' H _ hm b1 b2 b0]

/-- Verification does not depend on `C`, for every signature string and every string of the length of a public key. -/
theorem verify_indep (sig m pk : Bytes) (h : md.PKLEN ≤ pk.length) : verify md C H sig m pk = verify md C' H sig m pk := by
  have hβ := beta_le md
  by_cases hl : sig.length = md.SIGLEN
  · cases hu : unpackSig md C sig with
    | none =>
      have hu' : unpackSig md C' sig = none := by rw [unpackSig_indep C' C _ hl]; exact hu
      rw [verify_reject (Or.inr (Or.inl hu)), verify_reject (Or.inr (Or.inl hu'))]
    | some x =>
      obtain ⟨c, z, hh⟩ := x
      have hu' : unpackSig md C' sig = some (c, z, hh) := by rw [unpackSig_indep C' C _ hl]; exact hu
      by_cases hn : Spec.NormLt z (524288 - md.BETA)
      · have hzb : ∀ k, Bnd 1073741823 (z k) := fun k i => by have := abs_lt.1 (hn k i); omega
        have hnc : vecChknorm C z (GAMMA1 - md.BETA) = false := (vecChknorm_false (by simp only [GAMMA1]; omega) hzb).2 fun k i => abs_lt.1 (hn k i)
        have hnc' : vecChknorm C' z (GAMMA1 - md.BETA) = false := (vecChknorm_false (by simp only [GAMMA1]; omega) hzb).2 fun k i => abs_lt.1 (hn k i)
        cases hcp : polyChallenge md C H c with
        | none =>
          have hcp' : polyChallenge md C' H c = none := by rw [polyChallenge_indep C' C]; exact hcp
          unfold verify
          simp only [hl, hu, hu', hnc, hnc', hcp, hcp', Option.bind_eq_bind, Option.bind_none, ne_eq, not_true_eq_false, if_false, Bool.false_eq_true]
        | some cp =>
          have hcp' : polyChallenge md C' H c = some cp := by rw [polyChallenge_indep C' C]; exact hcp
          cases hmat : matrixExpand md C H (pk.take 32) with
          | none =>
            have hmat' : matrixExpand md C' H (pk.take 32) = none := by rw [matrixExpand_indep C' C]; exact hmat
            unfold verify
            have e : ∀ C, (unpackPk md C pk).1 = pk.take 32 := fun _ => rfl
            simp only [hl, hu, hu', hnc, hnc', hcp, hcp', e, hmat, hmat', Option.bind_eq_bind, Option.bind_none, Option.bind_some, ne_eq, not_true_eq_false,
              if_false, Bool.false_eq_true]
          | some mat =>
            have hmat' : matrixExpand md C' H (pk.take 32) = some mat := by rw [matrixExpand_indep C' C]; exact hmat
            choose A hA using fun i j => exists_isNtt (mat i j)
            rw [verify_eq hl hu hn hcp hmat hA, verify_eq hl hu' hn hcp' hmat' hA, unpackPk_indep C C' pk h]
      · have : ∃ k i, 524288 - md.BETA ≤ |z k i| := by
          unfold Spec.NormLt at hn
          push Not at hn
          exact hn
        rw [verify_reject (Or.inr (Or.inr ⟨c, z, hh, hu, this⟩)), verify_reject (Or.inr (Or.inr ⟨c, z, hh, hu', this⟩))]
  · rw [verify_reject (Or.inl hl), verify_reject (Or.inl hl)]

/-- Opening a signed message does not depend on `C`. -/
theorem cryptoOpen_indep (sm pk : Bytes) (h : md.PKLEN ≤ pk.length) : cryptoOpen md C H sm pk = cryptoOpen md C' H sm pk := by
  unfold cryptoOpen
  rw [verify_indep C C' H _ _ _ h]

end Verif.Dilithium35
