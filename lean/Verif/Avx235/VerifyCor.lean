import Verif.Avx235.VerifyEq

/-! # Consequences: what the AVX2 verification of dilithium3 and dilithium5 accepts, compared with the portable one -/

namespace Verif.Avx235

open Verif.Dilithium (Shake Poly CSem Q F res fNtt fNtt_inj fNtt_mul fNtt_sub fNtt_add fNtt_smul std_range shake256 shake256_len wrapSem exists_isNtt idx)
open Verif.Dilithium.Spec (Rq toRq std IsNtt)
open Verif.Dilithium35 (Mode Vec Mat SkFields unpackPk unpackSig unpackSk matrixExpand matrixExpand_bnd polyChallenge vecPackW1 fNtt_matMul KeyOk AttemptOk packPk packSig signature signCtx
  verify verify_eq keypairDet keypairDet_ok verify_signature unpackSk_packSk signLoop_attempt signAttempt_ok makeHint_01 unpackPk_packPk packPk_len packSk_len packSig_len unpackSig_packSig wt
  decompose_eq decompose_mod GAMMA1 GAMMA2)
open Verif.Dilithium35.Spec (matMul)

variable {C : CSem} {H : Shake} {md : Mode}

/-- `A·z - c·t1·2^13`, coefficients in `[0, q)`. -/
def rawOf (A : Fin md.K → Fin md.L → Rq) (z : Vec md.L) (c : Poly) (t1 : Vec md.K) : Vec md.K := fun k =>
  std (matMul A (fun j => toRq (z j)) k - negaMul (toRq c) (toRq fun n => t1 k n * 8192))

theorem verifyA_len (J : VerifyJunk md) {sig m pk : Bytes} (h : sig.length ≠ md.SIGLEN) : verifyA md C H J sig m pk = some false := by
  unfold verifyA
  rw [if_pos h]

/-- If the samplers do not terminate, the AVX2 verification does not accept. -/
theorem verifyA_not (J : VerifyJunk md) {sig m pk : Bytes} (hpk : 32 ≤ pk.length)
    (h : polyChallenge md C H (sig.take md.CTILDE) = none ∨ ¬ Extra C md H (pk.take 32)) : verifyA md C H J sig m pk ≠ some true := by
  have hrho : (pk.take 32).length = 32 := by rw [List.length_take]; omega
  unfold verifyA
  split
  · simp
  rw [← polyChallenge_take]
  cases hc : polyChallenge md C H (sig.take md.CTILDE) with
  | none => simp
  | some c =>
  rcases h with h | h
  · rw [hc] at h; exact absurd h (by simp)
  obtain ⟨i, hi⟩ := rowAlt_none' (C := C) J.row hrho h
  rw [Option.bind_eq_bind, Option.bind_some]
  dsimp only
  rcases verifyRows_none (C := C) J.row J.mul sig pk (Avx2.nttC J.chal.mach (Avx2.ofP c))
    (fun i => Avx2.nttC (J.z i).mach (polyzUnpackV fun k => sig.getD (md.CTILDE + i.1 * 640 + k) 0)) (J.buf, 0) (List.finRange md.K) ⟨i, List.mem_finRange i, hi⟩ with e | e
  · rw [e]; simp
  · rw [e]; simp

theorem unpackSig_fst {sig c : Bytes} {z : Vec md.L} {h : Vec md.K} (hu : unpackSig md C sig = some (c, z, h)) : sig.take md.CTILDE = c := by
  unfold unpackSig at hu
  simp only [Option.map_eq_some_iff, Prod.mk.injEq] at hu
  obtain ⟨h', hh, rfl, rfl, rfl⟩ := hu
  rfl

theorem isNtt_mat (mat : Mat md) : ∃ A : Fin md.K → Fin md.L → Rq, ∀ i j, IsNtt (A i j) (mat i j) :=
  ⟨fun i j => (exists_isNtt (mat i j)).choose, fun i j => (exists_isNtt (mat i j)).choose_spec⟩

/-- Acceptance by the AVX2 verification. -/
theorem verifyA_iff (J : VerifyJunk md) {sig m pk : Bytes} (hpk : pk.length = md.PKLEN) :
    verifyA md C H J sig m pk = some true ↔
    sig.length = md.SIGLEN ∧ Extra C md H (pk.take 32) ∧ ∃ c z h cp mat A, unpackSig md C sig = some (c, z, h) ∧ polyChallenge md C H c = some cp ∧
      matrixExpand md C H (pk.take 32) = some mat ∧ (∀ i j, IsNtt (A i j) (mat i j)) ∧
      c = shake256 H md.CTILDE (shake256 H 64 (shake256 H 64 pk ++ m) ++ vecPackW1 (w1OfA A z h cp (unpackPk md C pk).2)) := by
  have ht : pk.take md.PKLEN = pk := List.take_of_length_le (by omega)
  have hP : 32 ≤ pk.length := by rw [hpk]; exact Nat.le_add_right _ _
  constructor
  · intro hv
    by_cases hl : sig.length = md.SIGLEN
    case neg => rw [verifyA_len J hl] at hv; exact absurd hv (by simp)
    cases hcp : polyChallenge md C H (sig.take md.CTILDE) with
    | none => exact absurd hv (verifyA_not J hP (Or.inl hcp))
    | some cp =>
    by_cases hx : Extra C md H (pk.take 32)
    case neg => exact absurd hv (verifyA_not J hP (Or.inr hx))
    obtain ⟨mat, hmat⟩ := mat_of_extra hx
    obtain ⟨A, hA⟩ := isNtt_mat mat
    rw [verifyA_eq J hl hP hcp hx hmat hA, ht] at hv
    cases hu : unpackSig md C sig with
    | none => rw [hu] at hv; exact absurd hv (by simp)
    | some u =>
    obtain ⟨c, z, h⟩ := u
    rw [hu, Option.elim_some, Option.some.injEq, decide_eq_true_eq] at hv
    exact ⟨hl, hx, c, z, h, cp, mat, A, rfl, by rw [← unpackSig_fst hu]; exact hcp, hmat, hA, hv⟩
  · rintro ⟨hl, hx, c, z, h, cp, mat, A, hu, hcp, hmat, hA, he⟩
    rw [verifyA_eq J hl hP (by rw [unpackSig_fst hu]; exact hcp) hx hmat hA, ht, hu, Option.elim_some]
    exact congrArg some (decide_eq_true he)

theorem useHintA_eq (h r : Int) (h1 : 0 ≤ r) (h2 : r < Q) (hn : ¬ (h = 1 ∧ Dilithium35.Spec.lowBits r = 0)) : useHintA h r = Dilithium35.Spec.useHint h r := by
  unfold useHintA Dilithium35.Spec.useHint
  split
  · rename_i h1
    have : Dilithium35.Spec.lowBits r ≠ 0 := fun e => hn ⟨h1, e⟩
    split <;> split <;> first | rfl | omega
  · rfl

theorem w1OfA_eq {A : Fin md.K → Fin md.L → Rq} {z : Vec md.L} {h : Vec md.K} {c : Poly} {t1 : Vec md.K}
    (hn : ∀ k i, ¬ (h k i = 1 ∧ Dilithium35.Spec.lowBits (rawOf A z c t1 k i) = 0)) : w1OfA A z h c t1 = Dilithium35.Spec.w1Of A z h c t1 := by
  funext k i
  exact useHintA_eq _ _ (std_range _ _).1 (std_range _ _).2 (hn k i)

/-- Agreement on signatures with a short response and no hint at a coefficient of low part 0. -/
theorem verifyA_agree (J : VerifyJunk md) {sig m pk c : Bytes} {z : Vec md.L} {h : Vec md.K} {cp : Poly} {mat : Mat md} {A : Fin md.K → Fin md.L → Rq} (hl : sig.length = md.SIGLEN)
    (hpk : pk.length = md.PKLEN) (hu : unpackSig md C sig = some (c, z, h)) (hz : Dilithium35.Spec.NormLt z (524288 - md.BETA)) (hcp : polyChallenge md C H c = some cp)
    (hx : Extra C md H (pk.take 32)) (hmat : matrixExpand md C H (pk.take 32) = some mat) (hA : ∀ i j, IsNtt (A i j) (mat i j))
    (hn : ∀ k i, ¬ (h k i = 1 ∧ Dilithium35.Spec.lowBits (rawOf A z cp (unpackPk md C pk).2 k i) = 0)) :
    verifyA md C H J sig m pk = verify md C H sig m pk := by
  have hP : 32 ≤ pk.length := by rw [hpk]; exact Nat.le_add_right _ _
  rw [verifyA_eq J hl hP (by rw [unpackSig_fst hu]; exact hcp) hx hmat hA, verify_eq hl hu hz hcp hmat hA, hu, Option.elim_some, w1OfA_eq hn]

/-! ## Honest signatures -/

theorem lowBits_hint (a w1 v : Int) (h1 : 0 ≤ a) (h2 : a < Q) (hw1 : 0 ≤ w1) (hw2 : w1 ≤ 15) (hv1 : -523776 < v) (hv2 : v < 523776)
    (h : Q ∣ a - (w1 * 523776 + v)) : ¬ (Dilithium35.makeHint v w1 = 1 ∧ Dilithium35.Spec.lowBits a = 0) := by
  rintro ⟨hm, hl⟩
  obtain ⟨t, ht⟩ := h
  have hd := Dilithium35.decompose_spec (C := wrapSem) a h1 h2
  have e := decompose_eq (C := wrapSem) a h1 h2
  unfold Dilithium35.Spec.lowBits at hl
  rw [← e] at hl
  generalize Dilithium35.decompose wrapSem a = d at *
  obtain ⟨a1, a0⟩ := d
  unfold Dilithium35.makeHint at hm
  simp only [Q, GAMMA2] at *
  have ht' : t = -1 ∨ t = 0 ∨ t = 1 := by omega
  split at hm
  · rename_i hc
    subst hl
    rcases ht' with rfl | rfl | rfl <;> omega
  · omega

theorem raw_of_attempt {pk sk m sig c : Bytes} {f : SkFields md} {mat : Mat md} {t1 : Vec md.K} {z : Vec md.L} {h w1 v : Vec md.K} {y : Vec md.L} {cp : Poly} {A : Fin md.K → Fin md.L → Rq}
    (ok : KeyOk md C H pk sk f mat t1)
    (att : AttemptOk md C H (shake256 H 64 (f.tr ++ m)) mat f.s1 f.s2 f.t0 sig c z h w1 v y cp) (hA : ∀ i j, IsNtt (A i j) (mat i j)) (k : Fin md.K) (i : Fin 256) :
    Q ∣ rawOf A z cp t1 k i - (w1 k i * 523776 + v k i) := by
  have e : matMul A (fun j => toRq (z j)) k - negaMul (toRq cp) (toRq fun n => t1 k n * 8192) = (523776 : F) • res (w1 k) + res (v k) := by
    apply fNtt_inj
    have es : (toRq fun n => t1 k n * 8192) = (8192 : F) • res (t1 k) := by
      funext i
      simp only [Dilithium.Spec.toRq, res, Pi.smul_apply, smul_eq_mul]
      push_cast
      ring
    have em : fNtt (negaMul (toRq cp) ((8192 : F) • res (t1 k))) = fNtt (res cp) * fNtt ((8192 : F) • res (t1 k)) := by
      rw [fNtt_mul]; rfl
    rw [fNtt_sub, fNtt_matMul hA, es, em, fNtt_smul, fNtt_add, fNtt_smul, att.w_eqn k]
    have hz : ∑ j, res (mat k j) * fNtt (res (z j)) = fNtt (res cp) * (∑ j, res (mat k j) * fNtt (res (f.s1 j))) + ∑ j, res (mat k j) * fNtt (res (y j)) := by
      rw [Finset.mul_sum, ← Finset.sum_add_distrib]
      refine Finset.sum_congr rfl fun j _ => ?_
      rw [att.z_eqn j]
      ring
    have ek : (8192 : F) • fNtt (res (t1 k)) = (∑ j, res (mat k j) * fNtt (res (f.s1 j))) + fNtt (res (f.s2 k)) - fNtt (res (f.t0 k)) := by
      rw [← ok.eqn k]; ring
    rw [hz, ek]
    ring
  have ei := congrFun e i
  unfold rawOf Dilithium.Spec.std
  rw [e]
  simp only [res, Pi.add_apply, Pi.smul_apply, smul_eq_mul]
  have hq := (ZMod.intCast_eq_intCast_iff_dvd_sub (w1 k i * 523776 + v k i) ((((523776 : F) * (w1 k i : F) + (v k i : F)).val : Nat) : Int) 8380417).1 (by
    push_cast
    rw [ZMod.natCast_zmod_val]
    ring)
  exact_mod_cast hq

/-- A generated key pair meets the extra condition of the AVX2 matrix expansion. -/
theorem keypair_rho {coins pk sk : Bytes} (hk : keypairDet md C H coins = some (pk, sk)) : pk.length = md.PKLEN ∧ sk.length = md.SKLEN := by
  obtain ⟨f, mat, t1, ok⟩ := keypairDet_ok hk
  refine ⟨by rw [ok.pk_eq]; exact packPk_len _ _ ok.rho_len, ?_⟩
  rw [ok.sk_eq]
  refine packSk_len _ ⟨ok.rho_len, ok.key_len, by rw [ok.tr_eq]; exact shake256_len _ _, ?_, ?_, ok.t0_range⟩
  · intro k i; have := ok.s1_range k i; have := Dilithium35.etaMin_le md; omega
  · intro k i; have := ok.s2_range k i; have := Dilithium35.etaMin_le md; omega

/-- Every signature made with a generated key is accepted by the AVX2 verification, if all streams of its matrix expansion end. -/
theorem verifyA_signature (J : VerifyJunk md) {coins pk sk m sig : Bytes} (hk : keypairDet md C H coins = some (pk, sk)) (hs : signature md C H m sk = some sig)
    (hx : Extra C md H (pk.take 32)) : verifyA md C H J sig m pk = some true := by
  obtain ⟨hv, hl⟩ := verify_signature hk hs
  obtain ⟨f, mat, t1, ok⟩ := keypairDet_ok hk
  have hm := Dilithium35.etaMin_le md
  have hη := Dilithium35.eta_le md
  have hf : unpackSk md C sk = f := by
    rw [ok.sk_eq]
    refine unpackSk_packSk f ⟨ok.rho_len, ok.key_len, by rw [ok.tr_eq]; exact shake256_len _ _, ?_, ?_, ok.t0_range⟩
    · intro k i; have := ok.s1_range k i; omega
    · intro k i; have := ok.s2_range k i; omega
  unfold signature signCtx at hs
  simp only [hf, ok.mat_eq, Option.bind_eq_bind, Option.bind_some, Option.pure_def] at hs
  obtain ⟨n, hn⟩ := signLoop_attempt hs
  obtain ⟨c, z, h, w1, v, y, cp, att⟩ := signAttempt_ok (s1 := f.s1) (s2 := f.s2) (t0 := f.t0) (fun i j => matrixExpand_bnd ok.mat_eq i j) rfl rfl rfl
    (fun k i => by have := ok.s1_range k i; omega) (fun k i => by have := ok.s2_range k i; omega) (fun k i => by have := ok.t0_range k i; omega) hn
  obtain ⟨A, hA⟩ := isNtt_mat mat
  have hc : c.length = md.CTILDE := by rw [att.c_eq]; exact shake256_len _ _
  have hh : ∀ k i, h k i = 0 ∨ h k i = 1 := by intro k i; rw [att.h_eq]; exact makeHint_01 _ _
  have hpk : unpackPk md C pk = (f.rho, t1) := by rw [ok.pk_eq]; exact unpackPk_packPk _ _ ok.rho_len ok.t1_range
  have hpkl : pk.length = md.PKLEN := (keypair_rho hk).1
  have hrho : pk.take 32 = f.rho := congrArg Prod.fst hpk
  have hβ := Dilithium35.beta_le md
  have hsig : unpackSig md C sig = some (c, z, h) := by
    rw [att.sig_eq]
    exact unpackSig_packSig c z h hc (fun k i => by have := att.z_norm k i; simp only [GAMMA1] at *; omega) hh att.h_wt
  rw [← hv]
  refine verifyA_agree J hl hpkl hsig (fun k i => abs_lt.2 (att.z_norm k i)) att.cp_eq hx (by rw [hrho]; exact ok.mat_eq) hA fun k i => ?_
  have hr := raw_of_attempt ok att hA k i
  rw [hpk, att.h_eq]
  exact lowBits_hint _ _ _ (std_range _ _).1 (std_range _ _).2 (att.w1_range k i).1 (att.w1_range k i).2 (att.v_norm k i).1 (att.v_norm k i).2 hr

/-! ## The public key with `t1 = 0` -/

theorem rawOf_zero (A : Fin md.K → Fin md.L → Rq) (z : Vec md.L) (c : Poly) : rawOf A z c (fun _ _ => 0) = Dilithium35.Spec.wOf A z := by
  funext k
  unfold rawOf Dilithium35.Spec.wOf
  have e : (toRq fun n : Fin 256 => ((fun _ _ => 0 : Vec md.K) k n) * 8192) = 0 := by
    funext n
    simp [Dilithium.Spec.toRq]
  have e2 : negaMul (toRq c) (0 : Rq) = 0 := by
    apply fNtt_inj
    rw [fNtt_mul]
    have : fNtt (0 : Rq) = 0 := by
      have := fNtt_smul 0 (0 : Rq)
      rwa [zero_smul, zero_smul] at this
    funext i
    rw [this]
    exact mul_zero _
  rw [e, e2, sub_zero]

theorem verifyA_zero (J : VerifyJunk md) {m rho c : Bytes} {z : Vec md.L} {h : Vec md.K} {cp : Poly} {mat : Mat md} {A : Fin md.K → Fin md.L → Rq} (hr : rho.length = 32)
    (hc : c.length = md.CTILDE) (hz : ∀ k i, -524288 < z k i ∧ z k i ≤ 524288) (hh : ∀ k i, h k i = 0 ∨ h k i = 1) (hw : wt h ≤ md.OMEGA)
    (hx : Extra C md H rho) (hmat : matrixExpand md C H rho = some mat) (hA : ∀ i j, IsNtt (A i j) (mat i j)) (hcp : polyChallenge md C H c = some cp) :
    verifyA md C H J (packSig md C c z h) m (packPk md rho fun _ _ => 0) = some (decide (c = shake256 H md.CTILDE (shake256 H 64 (shake256 H 64 (packPk md rho fun _ _ => 0) ++ m) ++
      vecPackW1 fun k i => useHintA (h k i) (Dilithium35.Spec.wOf A z k i)))) := by
  have hpl : (packPk md rho fun _ _ => 0).length = md.PKLEN := packPk_len _ _ hr
  have hP : 32 ≤ (packPk md rho fun _ _ => 0).length := by rw [hpl]; exact Nat.le_add_right _ _
  have hu : unpackSig md C (packSig md C c z h) = some (c, z, h) := unpackSig_packSig c z h hc hz hh hw
  have hpk : unpackPk md C (packPk md rho fun _ _ => 0) = (rho, fun _ _ => 0) := unpackPk_packPk _ _ hr fun _ _ => ⟨le_refl _, by decide⟩
  have hrho : (packPk md rho fun _ _ => 0).take 32 = rho := congrArg Prod.fst hpk
  have hraw := rawOf_zero A z cp
  rw [verifyA_eq (A := A) J (packSig_len _ _ _ hc) hP (by rw [unpackSig_fst hu]; exact hcp) (by rw [hrho]; exact hx) (by rw [hrho]; exact hmat) hA, hu, Option.elim_some, hpk,
    List.take_of_length_le (by omega), ← hraw]
  rfl

theorem verify_zero {m rho c : Bytes} {z : Vec md.L} {h : Vec md.K} {cp : Poly} {mat : Mat md} {A : Fin md.K → Fin md.L → Rq} (hr : rho.length = 32) (hc : c.length = md.CTILDE)
    (hz : Dilithium35.Spec.NormLt z (524288 - md.BETA)) (hh : ∀ k i, h k i = 0 ∨ h k i = 1) (hw : wt h ≤ md.OMEGA)
    (hmat : matrixExpand md C H rho = some mat) (hA : ∀ i j, IsNtt (A i j) (mat i j)) (hcp : polyChallenge md C H c = some cp) :
    verify md C H (packSig md C c z h) m (packPk md rho fun _ _ => 0) = some (decide (c = shake256 H md.CTILDE (shake256 H 64 (shake256 H 64 (packPk md rho fun _ _ => 0) ++ m) ++
      vecPackW1 fun k i => Dilithium35.Spec.useHint (h k i) (Dilithium35.Spec.wOf A z k i)))) := by
  have hpl : (packPk md rho fun _ _ => 0).length = md.PKLEN := packPk_len _ _ hr
  have hβ := Dilithium35.beta_le md
  have hz' : ∀ k i, -GAMMA1 < z k i ∧ z k i ≤ GAMMA1 := fun k i => by have := abs_lt.1 (hz k i); simp only [GAMMA1]; omega
  have hu : unpackSig md C (packSig md C c z h) = some (c, z, h) := unpackSig_packSig c z h hc hz' hh hw
  have hpk : unpackPk md C (packPk md rho fun _ _ => 0) = (rho, fun _ _ => 0) := unpackPk_packPk _ _ hr fun _ _ => ⟨le_refl _, by decide⟩
  have hrho : (packPk md rho fun _ _ => 0).take 32 = rho := congrArg Prod.fst hpk
  have hraw := rawOf_zero A z cp
  rw [verify_eq (A := A) (packSig_len _ _ _ hc) hu hz hcp (by rw [hrho]; exact hmat) hA, hpk,
    List.take_of_length_le (by omega), ← hraw]
  rfl

end Verif.Avx235
