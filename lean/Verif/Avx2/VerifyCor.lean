import Verif.Avx2.VerifyEq
import Verif.Avx2.SignKey

/-! # Consequences: what the AVX2 verification accepts, compared with the portable one -/

namespace Verif.Avx2

open Verif.Dilithium
open Verif.Dilithium.Spec (Rq toRq std IsNtt matMul)

variable {C : CSem} {H : Shake}

/-- `A·z - c·t1·2^13`, coefficients in `[0, q)`. -/
def rawOf (A : Fin 4 → Fin 4 → Rq) (z : Vec) (c : Poly) (t1 : Vec) : Vec := fun k =>
  std (matMul A (fun j => toRq (z j)) k - negaMul (toRq c) (toRq fun n => t1 k n * 8192))

theorem verifyA_len (J : VerifyJunk) {sig m pk : Bytes} (h : sig.length ≠ 2420) : verifyA C H J sig m pk = some false := by
  unfold verifyA
  rw [if_pos h]

/-- If the samplers do not terminate, the AVX2 verification does not accept. -/
theorem verifyA_not (J : VerifyJunk) {sig m pk : Bytes} (hpk : 32 ≤ pk.length)
    (h : polyChallenge C H (sig.take 32) = none ∨ matrixExpand C H (pk.take 32) = none) : verifyA C H J sig m pk ≠ some true := by
  have hrho : (pk.take 32).length = 32 := by rw [List.length_take]; omega
  unfold verifyA
  split
  · simp
  rw [← polyChallenge_take]
  cases hc : polyChallenge C H (sig.take 32) with
  | none => simp
  | some c =>
  rcases h with h | h
  · rw [hc] at h; exact absurd h (by simp)
  obtain ⟨i, hi⟩ := expandRow_none (C := C) J.row hrho h
  rw [Option.bind_eq_bind, Option.bind_some]
  dsimp only
  rcases verifyRows_none (C := C) J.row J.mul sig pk (nttC J.chal.mach (ofP c))
    (fun i => nttC (J.z i).mach (polyzUnpackV fun k => sig.getD (32 + i.1 * 576 + k) 0)) (J.buf, 0) (List.finRange 4) ⟨i, List.mem_finRange i, hi⟩ with e | e
  · rw [e]; simp
  · rw [e]; simp

theorem unpackSig_fst {sig c : Bytes} {z h : Vec} (hu : unpackSig C sig = some (c, z, h)) : sig.take 32 = c := by
  unfold unpackSig at hu
  simp only [Option.map_eq_some_iff, Prod.mk.injEq] at hu
  obtain ⟨h', hh, rfl, rfl, rfl⟩ := hu
  rfl

/-- Acceptance by the AVX2 verification. -/
theorem verifyA_iff (J : VerifyJunk) {sig m pk : Bytes} (hpk : pk.length = 1312) :
    verifyA C H J sig m pk = some true ↔
    sig.length = 2420 ∧ ∃ c z h cp mat A, unpackSig C sig = some (c, z, h) ∧ polyChallenge C H c = some cp ∧ matrixExpand C H (pk.take 32) = some mat ∧
      (∀ i j, IsNtt (A i j) (mat i j)) ∧
      c = shake256 H 32 (shake256 H 64 (shake256 H 64 pk ++ m) ++ vecPackW1 (w1OfA A z h cp (unpackPk C pk).2)) := by
  have ht : pk.take 1312 = pk := List.take_of_length_le (by omega)
  constructor
  · intro hv
    by_cases hl : sig.length = 2420
    case neg => rw [verifyA_len J hl] at hv; exact absurd hv (by simp)
    cases hcp : polyChallenge C H (sig.take 32) with
    | none => exact absurd hv (verifyA_not J (by omega) (Or.inl hcp))
    | some cp =>
    cases hmat : matrixExpand C H (pk.take 32) with
    | none => exact absurd hv (verifyA_not J (by omega) (Or.inr hmat))
    | some mat =>
    have hA : ∃ A : Fin 4 → Fin 4 → Rq, ∀ i j, IsNtt (A i j) (mat i j) :=
      ⟨fun i j => (exists_isNtt (mat i j)).choose, fun i j => (exists_isNtt (mat i j)).choose_spec⟩
    obtain ⟨A, hA⟩ := hA
    rw [verifyA_eq J hl (by omega) hcp hmat hA, ht] at hv
    cases hu : unpackSig C sig with
    | none => rw [hu] at hv; exact absurd hv (by simp)
    | some u =>
    obtain ⟨c, z, h⟩ := u
    rw [hu, Option.elim_some, Option.some.injEq, decide_eq_true_eq] at hv
    exact ⟨hl, c, z, h, cp, mat, A, rfl, by rw [← unpackSig_fst hu]; exact hcp, rfl, hA, hv⟩
  · rintro ⟨hl, c, z, h, cp, mat, A, hu, hcp, hmat, hA, he⟩
    rw [verifyA_eq J hl (by omega) (by rw [unpackSig_fst hu]; exact hcp) hmat hA, ht, hu, Option.elim_some]
    exact congrArg some (decide_eq_true he)

theorem useHintA_eq (h r : Int) (hn : ¬ (h = 1 ∧ Spec.lowBits r = 0)) : useHintA h r = Spec.useHint h r := by
  unfold useHintA Spec.useHint
  split
  · rename_i h1
    have : Spec.lowBits r ≠ 0 := fun e => hn ⟨h1, e⟩
    split <;> split <;> first | rfl | omega
  · rfl

theorem w1OfA_eq {A : Fin 4 → Fin 4 → Rq} {z h : Vec} {c : Poly} {t1 : Vec} (hn : ∀ k i, ¬ (h k i = 1 ∧ Spec.lowBits (rawOf A z c t1 k i) = 0)) :
    w1OfA A z h c t1 = Spec.w1Of A z h c t1 := by
  funext k i
  exact useHintA_eq _ _ (hn k i)

/-- Agreement on signatures with a short response and no hint at a coefficient of low part 0. -/
theorem verifyA_agree (J : VerifyJunk) {sig m pk c : Bytes} {z h : Vec} {cp : Poly} {mat : Mat} {A : Fin 4 → Fin 4 → Rq} (hl : sig.length = 2420) (hpk : pk.length = 1312)
    (hu : unpackSig C sig = some (c, z, h)) (hz : Spec.NormLt z (131072 - 78)) (hcp : polyChallenge C H c = some cp)
    (hmat : matrixExpand C H (pk.take 32) = some mat) (hA : ∀ i j, IsNtt (A i j) (mat i j))
    (hn : ∀ k i, ¬ (h k i = 1 ∧ Spec.lowBits (rawOf A z cp (unpackPk C pk).2 k i) = 0)) :
    verifyA C H J sig m pk = verify C H sig m pk := by
  rw [verifyA_eq J hl (by omega) (by rw [unpackSig_fst hu]; exact hcp) hmat hA, verify_eq hl hu hz hcp hmat hA, hu, Option.elim_some, w1OfA_eq hn]

/-! ## Honest signatures -/

theorem lowBits_hint (a w1 v : Int) (h1 : 0 ≤ a) (h2 : a < Q) (hw1 : 0 ≤ w1) (hw2 : w1 ≤ 43) (hv1 : -190464 < v) (hv2 : v < 190464)
    (h : Q ∣ a - (w1 * 190464 + v)) : ¬ (Dilithium.makeHint v w1 = 1 ∧ Spec.lowBits a = 0) := by
  rintro ⟨hm, hl⟩
  obtain ⟨t, ht⟩ := h
  have hd := decompose_spec (C := wrapSem) a h1 h2
  have e := decompose_eq (C := wrapSem) a h1 h2
  unfold Spec.lowBits at hl
  rw [← e] at hl
  generalize Dilithium.decompose wrapSem a = d at *
  obtain ⟨a1, a0⟩ := d
  unfold Dilithium.makeHint at hm
  simp only [Q, GAMMA2] at *
  have ht' : t = -1 ∨ t = 0 ∨ t = 1 := by omega
  split at hm
  · rename_i hc
    subst hl
    rcases ht' with rfl | rfl | rfl <;> omega
  · omega

theorem raw_of_attempt {pk sk m sig c : Bytes} {f : SkFields} {mat : Mat} {t1 z h w1 v y : Vec} {cp : Poly} {A : Fin 4 → Fin 4 → Rq} (ok : KeyOk C H pk sk f mat t1)
    (att : AttemptOk C H (shake256 H 64 (f.tr ++ m)) mat f.s1 f.s2 f.t0 sig c z h w1 v y cp) (hA : ∀ i j, IsNtt (A i j) (mat i j)) (k : Fin 4) (i : Fin 256) :
    Q ∣ rawOf A z cp t1 k i - (w1 k i * 190464 + v k i) := by
  have e : matMul A (fun j => toRq (z j)) k - negaMul (toRq cp) (toRq fun n => t1 k n * 8192) = (190464 : F) • res (w1 k) + res (v k) := by
    apply fNtt_inj
    have es : (toRq fun n => t1 k n * 8192) = (8192 : F) • res (t1 k) := by
      funext i
      simp only [Spec.toRq, res, Pi.smul_apply, smul_eq_mul]
      push_cast
      ring
    have em : fNtt (negaMul (toRq cp) ((8192 : F) • res (t1 k))) = fNtt (res cp) * fNtt ((8192 : F) • res (t1 k)) := by
      rw [fNtt_mul]; rfl
    rw [fNtt_sub, fNtt_matMul hA, es, em, fNtt_smul, fNtt_add, fNtt_smul, att.w_eqn k]
    have hz : ∑ j, res (mat k j) * fNtt (res (z j)) = fNtt (res cp) * (∑ j, res (mat k j) * fNtt (res (f.s1 j))) + ∑ j, res (mat k j) * fNtt (res (y j)) := by
      rw [Finset.mul_sum, ← Finset.sum_add_distrib]
      refine Finset.sum_congr rfl fun j _ => ?_
      rw [att.z_eqn j]
      ring
    have ek : (8192 : F) • fNtt (res (t1 k)) = (∑ j, res (mat k j) * fNtt (res (f.s1 j))) + fNtt (res (f.s2 k)) - fNtt (res (f.t0 k)) := by
      rw [← ok.eqn k]; ring
    rw [hz, ek]
    ring
  have ei := congrFun e i
  unfold rawOf Spec.std
  rw [e]
  simp only [res, Pi.add_apply, Pi.smul_apply, smul_eq_mul]
  have hq := (ZMod.intCast_eq_intCast_iff_dvd_sub (w1 k i * 190464 + v k i) ((((190464 : F) * (w1 k i : F) + (v k i : F)).val : Nat) : Int) 8380417).1 (by
    push_cast
    rw [ZMod.natCast_zmod_val]
    ring)
  exact_mod_cast hq

/-- Every signature made with a generated key, by either implementation, is accepted by the AVX2 verification. -/
theorem verifyA_signature (J : VerifyJunk) {coins pk sk m sig : Bytes} (hk : keypairDet C H coins = some (pk, sk)) (hs : signature C H m sk = some sig) :
    verifyA C H J sig m pk = some true := by
  obtain ⟨hv, hl⟩ := verify_signature hk hs
  obtain ⟨f, mat, t1, ok⟩ := keypairDet_ok hk
  have hf : unpackSk C sk = f := by
    rw [ok.sk_eq]
    refine unpackSk_packSk f ⟨ok.rho_len, ok.key_len, by rw [ok.tr_eq]; exact shake256_len _ _, ?_, ?_, ok.t0_range⟩
    · intro k i; have := ok.s1_range k i; omega
    · intro k i; have := ok.s2_range k i; omega
  unfold signature signCtx at hs
  simp only [hf, ok.mat_eq, Option.bind_eq_bind, Option.bind_some, Option.pure_def] at hs
  obtain ⟨n, hn⟩ := signLoop_attempt hs
  obtain ⟨c, z, h, w1, v, y, cp, att⟩ := signAttempt_ok (s1 := f.s1) (s2 := f.s2) (t0 := f.t0) (fun i j => matrixExpand_bnd ok.mat_eq i j) rfl rfl rfl
    (fun k i => ok.s1_range k i) (fun k i => ok.s2_range k i) (fun k i => by have := ok.t0_range k i; omega) hn
  have hA : ∃ A : Fin 4 → Fin 4 → Rq, ∀ i j, IsNtt (A i j) (mat i j) :=
    ⟨fun i j => (exists_isNtt (mat i j)).choose, fun i j => (exists_isNtt (mat i j)).choose_spec⟩
  obtain ⟨A, hA⟩ := hA
  have hc : c.length = 32 := by rw [att.c_eq]; exact shake256_len _ _
  have hh : ∀ k i, h k i = 0 ∨ h k i = 1 := by intro k i; rw [att.h_eq]; exact makeHint_01 _ _
  have hpk : unpackPk C pk = (f.rho, t1) := by rw [ok.pk_eq]; exact unpackPk_packPk _ _ ok.rho_len ok.t1_range
  have hpkl : pk.length = 1312 := by rw [ok.pk_eq]; exact packPk_len _ _ ok.rho_len
  have hrho : pk.take 32 = f.rho := congrArg Prod.fst hpk
  have hsig : unpackSig C sig = some (c, z, h) := by
    rw [att.sig_eq]
    exact unpackSig_packSig c z h hc (fun k i => by have := att.z_norm k i; simp only [GAMMA1, BETA] at *; omega) hh att.h_wt
  rw [← hv]
  refine verifyA_agree J hl hpkl hsig (fun k i => abs_lt.2 (att.z_norm k i)) att.cp_eq (by rw [hrho]; exact ok.mat_eq) hA fun k i => ?_
  have hr := raw_of_attempt ok att hA k i
  rw [hpk, att.h_eq]
  exact lowBits_hint _ _ _ (std_range _ _).1 (std_range _ _).2 (att.w1_range k i).1 (att.w1_range k i).2 (att.v_norm k i).1 (att.v_norm k i).2 hr

theorem keypairDet_len {coins pk sk : Bytes} (hk : keypairDet C H coins = some (pk, sk)) : pk.length = 1312 ∧ sk.length = 2560 := by
  obtain ⟨f, mat, t1, ok⟩ := keypairDet_ok hk
  exact ⟨by rw [ok.pk_eq]; exact packPk_len _ _ ok.rho_len,
    by rw [ok.sk_eq]; exact packSk_len _ ⟨ok.rho_len, ok.key_len, by rw [ok.tr_eq]; exact shake256_len _ _, fun k i => by have := ok.s1_range k i; omega,
      fun k i => by have := ok.s2_range k i; omega, ok.t0_range⟩⟩

/-! ## The public key with `t1 = 0` -/

theorem rawOf_zero (A : Fin 4 → Fin 4 → Rq) (z : Vec) (c : Poly) : rawOf A z c (fun _ _ => 0) = Spec.wOf A z := by
  funext k
  unfold rawOf Spec.wOf
  have e : (toRq fun n : Fin 256 => ((fun _ _ => 0 : Vec) k n) * 8192) = 0 := by
    funext n
    simp [Spec.toRq]
  have e2 : negaMul (toRq c) (0 : Rq) = 0 := by
    apply fNtt_inj
    rw [fNtt_mul]
    have : fNtt (0 : Rq) = 0 := by
      have := fNtt_smul 0 (0 : Rq)
      rwa [zero_smul, zero_smul] at this
    funext i
    rw [this]
    exact mul_zero _
  rw [e, e2, sub_zero]

theorem verifyA_zero (J : VerifyJunk) {m rho c : Bytes} {z h : Vec} {cp : Poly} {mat : Mat} {A : Fin 4 → Fin 4 → Rq} (hr : rho.length = 32) (hc : c.length = 32)
    (hz : ∀ k i, -131072 < z k i ∧ z k i ≤ 131072) (hh : ∀ k i, h k i = 0 ∨ h k i = 1) (hw : wt h ≤ 80)
    (hmat : matrixExpand C H rho = some mat) (hA : ∀ i j, IsNtt (A i j) (mat i j)) (hcp : polyChallenge C H c = some cp) :
    verifyA C H J (packSig C c z h) m (packPk rho fun _ _ => 0) = some (decide (c = shake256 H 32 (shake256 H 64 (shake256 H 64 (packPk rho fun _ _ => 0) ++ m) ++
      vecPackW1 fun k i => useHintA (h k i) (Spec.wOf A z k i)))) := by
  have hpl : (packPk rho fun _ _ => 0).length = 1312 := packPk_len _ _ hr
  have hu : unpackSig C (packSig C c z h) = some (c, z, h) := unpackSig_packSig c z h hc hz hh hw
  have hpk : unpackPk C (packPk rho fun _ _ => 0) = (rho, fun _ _ => 0) := unpackPk_packPk _ _ hr fun _ _ => ⟨le_refl _, by decide⟩
  have hrho : (packPk rho fun _ _ => 0).take 32 = rho := congrArg Prod.fst hpk
  have hraw := rawOf_zero A z cp
  rw [verifyA_eq (A := A) J (packSig_len _ _ _ hc) (by omega) (by rw [unpackSig_fst hu]; exact hcp) (by rw [hrho]; exact hmat) hA, hu, Option.elim_some, hpk,
    List.take_of_length_le (by omega), ← hraw]
  rfl

theorem verify_zero {m rho c : Bytes} {z h : Vec} {cp : Poly} {mat : Mat} {A : Fin 4 → Fin 4 → Rq} (hr : rho.length = 32) (hc : c.length = 32)
    (hz : Spec.NormLt z (131072 - 78)) (hh : ∀ k i, h k i = 0 ∨ h k i = 1) (hw : wt h ≤ 80)
    (hmat : matrixExpand C H rho = some mat) (hA : ∀ i j, IsNtt (A i j) (mat i j)) (hcp : polyChallenge C H c = some cp) :
    verify C H (packSig C c z h) m (packPk rho fun _ _ => 0) = some (decide (c = shake256 H 32 (shake256 H 64 (shake256 H 64 (packPk rho fun _ _ => 0) ++ m) ++
      vecPackW1 fun k i => Spec.useHint (h k i) (Spec.wOf A z k i)))) := by
  have hpl : (packPk rho fun _ _ => 0).length = 1312 := packPk_len _ _ hr
  have hz' : ∀ k i, -GAMMA1 < z k i ∧ z k i ≤ GAMMA1 := fun k i => by have := abs_lt.1 (hz k i); simp only [GAMMA1]; omega
  have hu : unpackSig C (packSig C c z h) = some (c, z, h) := unpackSig_packSig c z h hc hz' hh hw
  have hpk : unpackPk C (packPk rho fun _ _ => 0) = (rho, fun _ _ => 0) := unpackPk_packPk _ _ hr fun _ _ => ⟨le_refl _, by decide⟩
  have hrho : (packPk rho fun _ _ => 0).take 32 = rho := congrArg Prod.fst hpk
  have hraw := rawOf_zero A z cp
  rw [verify_eq (A := A) (packSig_len _ _ _ hc) hu hz hcp (by rw [hrho]; exact hmat) hA, hpk,
    List.take_of_length_le (by show _ ≤ 1312; omega), ← hraw]
  rfl

end Verif.Avx2
