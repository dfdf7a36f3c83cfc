import Verif.Dilithium35.Refine
import Verif.Dilithium35.Total
import Verif.Dilithium.Toy

/-!
# A concrete run of dilithium3 and dilithium5

With the toy hash of `Verif/Dilithium/Toy.lean` key generation and signing terminate: the secret and the matrix are non-zero, a signature is output.
-/

namespace Verif.Dilithium35

open Spec (matMul)
open Verif.Dilithium.Spec (Rq toRq std IsNtt modpm)
open Verif.Dilithium (CSem Shake wrapSem Poly Q Bnd toyH toy_uniform negaMul_one' toy_seed toRq_val squeeze stream256 polyOfList shake256 shake256_len supp negaMul_bnd rejEta etaLoop accEta)

/-- The toy secret: coefficients `2, 3, 2, 3, …` in dilithium3 and `0, 1, 0, 1, …` in dilithium5. -/
def toyS (md : Mode) : Poly := fun i => match md with
  | .three => if i.1 % 2 = 0 then 2 else 3
  | .five => if i.1 % 2 = 0 then 0 else 1

theorem toyS_le (md : Mode) (i : Fin 256) : 0 ≤ toyS md i ∧ toyS md i ≤ 3 := by
  cases md <;> (unfold toyS; dsimp only; split <;> omega)

theorem toyS_eta (md : Mode) (i : Fin 256) : 0 ≤ toyS md i ∧ toyS md i ≤ md.ETA := by
  cases md <;> (unfold toyS; dsimp only [Mode.ETA]; split <;> omega)

theorem toy_eta (md : Mode) (seed : Bytes) (nonce : UInt16) : polyUniformEta md wrapSem toyH seed nonce = some (toyS md) := by
  cases md with
  | five => exact Dilithium.toy_eta seed nonce
  | three =>
    have e : rejEta4 256 (squeeze (stream256 toyH seed nonce) 0 272) = List.ofFn (toyS .three) := by
      have := rejEta4_squeeze (stream256 toyH seed nonce) 272 256 0
      rw [this]
      have hs : accEta4 (stream256 toyH seed nonce) (2 * 0) (2 * 272) = accEta4 (fun _ => 0x12) 0 544 := rfl
      rw [hs]
      decide +kernel
    unfold polyUniformEta
    simp only
    rw [e, etaLoop4, if_neg (by rw [List.length_ofFn]; decide), Option.map_some]
    refine congrArg some ?_
    funext i
    unfold polyOfList
    rw [List.getD_eq_getElem _ _ (by rw [List.length_ofFn]; exact i.2), List.getElem_ofFn]

theorem forVec_const {α : Type} (n : Nat) (f : Fin n → Option α) (v : Fin n → α) (h : ∀ i, f i = some (v i)) : forVec n f = some v := by
  induction n with
  | zero => unfold forVec; exact congrArg some (funext fun i => i.elim0)
  | succ n ih =>
    unfold forVec
    rw [ih (fun i => f i.castSucc) (fun i => v i.castSucc) fun i => h i.castSucc, h (Fin.last n)]
    simp only [Option.bind_eq_bind, Option.bind_some, Option.pure_def, Option.some.injEq]
    funext i
    by_cases hi : i.1 < n
    · rw [dif_pos hi]; rfl
    · rw [dif_neg hi]
      congr 1
      exact Fin.ext (by have := i.2; simp only [Fin.val_last]; omega)

variable {md : Mode}

theorem toy_mat (rho : Bytes) : matrixExpand md wrapSem toyH rho = some fun _ _ _ => 1 :=
  forVec_const _ _ _ fun _ => forVec_const _ _ _ fun _ => toy_uniform _ _

theorem toy_vecEta (n : Nat) (seed : Bytes) (k : UInt16) : vecUniformEta md wrapSem toyH n seed k = some fun _ => toyS md :=
  forVec_const _ _ _ fun _ => toy_eta _ _ _

/-- The toy matrix: every entry the polynomial 1. -/
def toyA (md : Mode) : Fin md.K → Fin md.L → Rq := fun _ _ i => if i.1 = 0 then 1 else 0

theorem toyA_eq (i : Fin md.K) (j : Fin md.L) : toyA md i j = fun i : Fin 256 => if i.1 = 0 then (1 : ZMod 8380417) else 0 := rfl

theorem toyA_ntt (i : Fin md.K) (j : Fin md.L) : IsNtt (toyA md i j) (fun _ => 1) := Dilithium.toyA_ntt 0 0

/-- The toy mask. -/
def toyY : Poly := polyzUnpack wrapSem (List.replicate 680 0x12)

theorem toyY_vals : ∀ i, toyY i = 388590 ∨ toyY i = 450271 := by decide +kernel

theorem toy_y (seed : Bytes) (n : UInt16) : vecUniformGamma1 md wrapSem toyH seed n = fun _ => toyY := by
  funext k
  unfold vecUniformGamma1 polyUniformGamma1 toyY
  refine congrArg (polyzUnpack wrapSem) ?_
  unfold squeeze
  apply List.ext_getElem
  · simp only [List.length_map, List.length_range, List.length_replicate]
  · intro i h1 h2
    rw [List.getElem_map, List.getElem_replicate]
    rfl

theorem toy_ball (i₀ n i p : Nat) (c : Poly) (hi : 18 ≤ i) : ∃ c', Spec.BallSteps i₀ (fun _ => 0x12) n i p c c' := by
  induction n generalizing i p c with
  | zero => exact ⟨c, rfl⟩
  | succ n ih =>
    obtain ⟨c', h⟩ := ih (i + 1) (p + 1) (fun k =>
      if k.1 = (0x12 : UInt8).toNat then (if (0x12 : UInt8).toNat.testBit ((i - i₀) % 8) then -1 else 1)
      else if k.1 = i then c ⟨(0x12 : UInt8).toNat, (0x12 : UInt8).toNat_lt⟩ else c k) (by omega)
    exact ⟨c', p, le_refl _, fun k h1 h2 => by omega, hi, h⟩

theorem toy_challenge (seed : Bytes) : ∃ cp, polyChallenge md wrapSem toyH seed = some cp := by
  obtain ⟨c, h⟩ := toy_ball (256 - md.TAU) md.TAU (256 - md.TAU) 8 (fun _ => 0) (by have := tau_le60 md; omega)
  exact ⟨c, (polyChallenge_iff md toyH seed c).2 h⟩

theorem matMul_toyA (v : Poly) (k : Fin md.K) (i : Fin 256) : matMul (toyA md) (fun _ => toRq v) k i = ((md.L * v i : Int) : ZMod 8380417) := by
  unfold matMul
  simp only [toyA_eq, negaMul_one', Finset.sum_const, Finset.card_univ, Fintype.card_fin]
  simp only [Pi.smul_apply, nsmul_eq_mul, Dilithium.Spec.toRq]
  push_cast
  ring

theorem toy_t : Spec.tOf (toyA md) (fun _ => toyS md) (fun _ => toyS md) = fun _ i => (md.L + 1) * toyS md i := by
  funext k i
  unfold Spec.tOf
  have : (matMul (toyA md) (fun _ => toRq (toyS md)) k + toRq (toyS md)) i = (((md.L + 1) * toyS md i : Int) : ZMod 8380417) := by
    rw [Pi.add_apply, matMul_toyA]
    simp only [Dilithium.Spec.toRq]
    push_cast
    ring
  show (((_ : ZMod 8380417).val : Nat) : Int) = _
  rw [this]
  have := toyS_le md i
  cases md
  all_goals
    refine toRq_val _ ?_ ?_ <;> (simp only [Mode.L] at *; push_cast; omega)

theorem toy_w : Spec.wOf (toyA md) (fun _ => toyY) = fun _ i => (md.L * toyY i) % 8380417 := by
  funext k i
  unfold Spec.wOf
  show (((_ : ZMod 8380417).val : Nat) : Int) = _
  rw [matMul_toyA, ZMod.val_intCast]
  rfl

theorem toy_mod1 (x e g : Int) : ((x % 8380417 - e) % 8380417 + g) % 8380417 = (x + (-e + g)) % 8380417 := by omega
theorem toy_mod2 (x e g : Int) : ((x + (-e + g)) % 8380417 + -g) % 8380417 = (x + -e) % 8380417 := by omega

theorem toy_accept (cp : Poly) (hc : ∀ j, cp j = 0 ∨ cp j = 1 ∨ cp j = -1) (hcc : (supp cp).card = md.TAU) :
    Spec.Accept (Spec.params md) (fun (_ : Fin md.K) i => (md.L * toyY i) % 8380417) (fun (_ : Fin md.L) => toyY) cp (fun _ => toyS md) (fun _ => toyS md)
      (fun _ i => (md.L + 1) * toyS md i) := by
  have ht : (md.TAU : Int) ≤ 60 := by exact_mod_cast tau_le60 md
  have hL : (md.L : Int) = 5 ∨ (md.L : Int) = 7 := by cases md <;> simp
  have hβ := beta_le md
  have m1 : ∀ i, -180 ≤ negaMul cp (toyS md) i ∧ negaMul cp (toyS md) i ≤ 180 := by
    intro i
    have := negaMul_bnd cp (toyS md) 3 hc (fun i => by have := toyS_le md i; omega) i
    rw [hcc] at this
    omega
  have m5 : ∀ i, -1440 ≤ negaMul cp (fun i => (md.L + 1) * toyS md i) i ∧ negaMul cp (fun i => (md.L + 1) * toyS md i) i ≤ 1440 := by
    intro i
    have := negaMul_bnd cp (fun i => (md.L + 1) * toyS md i) 24 hc (fun i => by
      have := toyS_le md i
      dsimp only
      rcases hL with h | h <;> rw [h] <;> omega) i
    rw [hcc] at this
    omega
  -- rounding near the middle of an interval
  have mid : ∀ i (d : Int), -2000 ≤ d → d ≤ 2000 → Spec.highBits ((md.L * toyY i + d) % 8380417) = Spec.highBits ((md.L * toyY i) % 8380417) ∧
      |Spec.lowBits ((md.L * toyY i + d) % 8380417)| < 261888 - 196 := by
    intro i d h1 h2
    unfold Spec.highBits Spec.lowBits Spec.decompose modpm
    rw [abs_lt]
    rcases hL with hL | hL <;> rcases toyY_vals i with h | h <;> rw [h, hL] <;> (split_ifs <;> omega)
  obtain ⟨pb, po, -, -⟩ := params_eq md
  refine ⟨?_, ?_, ?_, ?_⟩
  · intro k i
    have := m1 i
    rw [pb]
    unfold Spec.zOf Spec.cMul
    rw [abs_lt]
    dsimp only
    rcases toyY_vals i with h | h <;> rw [h] <;> omega
  · intro k i
    have := m1 i
    have := (mid i (-negaMul cp (toyS md) i) (by omega) (by omega)).2
    rw [pb]
    unfold Spec.rOf Spec.cMul
    simp only
    rw [show (md.L * toyY i % 8380417 - negaMul cp (toyS md) i) % 8380417 = (md.L * toyY i + -negaMul cp (toyS md) i) % 8380417 by
      rw [Int.emod_sub_emod]; rfl]
    omega
  · intro k i
    have := m5 i
    unfold Spec.cMul
    rw [abs_lt]
    dsimp only
    omega
  · have hz : ∀ (k : Fin md.K) i, Spec.hOf (Spec.rOf (fun (_ : Fin md.K) i => (md.L * toyY i) % 8380417) cp (fun _ => toyS md)) cp (fun _ i => (md.L + 1) * toyS md i) k i = 0 := by
      intro k i
      unfold Spec.hOf Spec.makeHint Spec.rOf Spec.cMul
      simp only
      have b1 := m1 i
      have b5 := m5 i
      generalize negaMul cp (toyS md) i = e at *
      generalize negaMul cp (fun i => (md.L + 1) * toyS md i) i = g at *
      have a := (mid i (-e + g) (by omega) (by omega)).1
      have b := (mid i (-e) (by omega) (by omega)).1
      rw [toy_mod1, a, toy_mod2, b]
      simp
    unfold Spec.ones
    simp [hz]

/-- The toy key pair. -/
theorem toy_keypair (coins : Bytes) : ∃ pk sk, keypairDet md wrapSem toyH coins = some (pk, sk) :=
  ⟨_, _, keypair_eq (A := toyA md) _ _ _ (toy_seed coins) (by rw [List.length_replicate]) (by rw [List.length_replicate]) (by rw [List.length_replicate])
    (toy_mat _) (toy_vecEta _ _ _) (toy_vecEta _ _ _) (fun i j => toyA_ntt i j)⟩

/-- The fields of the toy secret key. -/
theorem toy_fields (coins pk sk : Bytes) (h : keypairDet md wrapSem toyH coins = some (pk, sk)) :
    (unpackSk md wrapSem sk).s1 = (fun _ => toyS md) ∧ (unpackSk md wrapSem sk).s2 = (fun _ => toyS md) ∧
    (unpackSk md wrapSem sk).t0 = fun _ i => (md.L + 1) * toyS md i := by
  have e := keypair_eq (A := toyA md) _ _ _ (toy_seed coins) (by rw [List.length_replicate]) (by rw [List.length_replicate]) (by rw [List.length_replicate])
    (toy_mat _) (toy_vecEta _ _ _) (toy_vecEta _ _ _) (fun i j => toyA_ntt i j)
  rw [h] at e
  have e2 := (Prod.mk.inj (Option.some.inj e)).2
  have hT : ∀ i, 0 ≤ (md.L + 1) * toyS md i ∧ (md.L + 1) * toyS md i ≤ 100 := by
    intro i
    have := toyS_le md i
    cases md <;> (simp only [Mode.L] at *; push_cast; omega)
  have ht0 : (fun (k : Fin md.K) (i : Fin 256) => (Dilithium.Spec.power2Round (Spec.tOf (toyA md) (fun _ => toyS md) (fun _ => toyS md) k i)).2) =
      fun _ i => (md.L + 1) * toyS md i := by
    rw [toy_t]
    funext k i
    have := hT i
    show (Dilithium.Spec.power2Round ((md.L + 1) * toyS md i)).2 = (md.L + 1) * toyS md i
    generalize (md.L + 1) * toyS md i = x at *
    unfold Dilithium.Spec.power2Round modpm
    simp only
    split <;> omega
  have hmin := etaMin_le md
  have he := eta_le md
  rw [e2, unpackSk_packSk]
  · dsimp only
    rw [ht0]
    simp only [and_self]
  · rw [ht0]
    refine ⟨List.length_replicate .., List.length_replicate .., shake256_len _ _, ?_, ?_, ?_⟩
    · intro k i; have := toyS_eta md i; show md.etaMin ≤ toyS md i ∧ toyS md i ≤ md.ETA; omega
    · intro k i; have := toyS_eta md i; show md.etaMin ≤ toyS md i ∧ toyS md i ≤ md.ETA; omega
    · intro k i; have := hT i; show -4096 < (md.L + 1) * toyS md i ∧ (md.L + 1) * toyS md i ≤ 4096; omega

theorem toy_signs (coins pk sk m : Bytes) (h : keypairDet md wrapSem toyH coins = some (pk, sk)) : ∃ sig, signature md wrapSem toyH m sk = some sig := by
  obtain ⟨e1, e2, e0⟩ := toy_fields coins pk sk h
  unfold signature signCtx
  simp only [toy_mat, Option.bind_eq_bind, Option.bind_some, Option.pure_def]
  rw [e1, e2, e0, signLoop]
  obtain ⟨cp, hcp⟩ := toy_challenge (md := md) (shake256 toyH md.CTILDE (shake256 toyH 64 ((unpackSk md wrapSem sk).tr ++ m) ++
    vecPackW1 fun k i => Spec.highBits ((fun (_ : Fin md.K) (i : Fin 256) => (md.L * toyY i) % 8380417) k i)))
  obtain ⟨hct, hcc⟩ := polyChallenge_spec md toyH _ cp hcp
  have hb := toyS_eta md
  have := (signAttempt_eq (md := md) (C := wrapSem) (H := toyH) (mu := shake256 toyH 64 ((unpackSk md wrapSem sk).tr ++ m))
    (rhoprime := shake256 toyH 64 ((unpackSk md wrapSem sk).key ++ List.replicate 32 0 ++ shake256 toyH 64 ((unpackSk md wrapSem sk).tr ++ m)))
    (mat := fun _ _ _ => 1) (A := toyA md) (s1 := fun _ => toyS md) (s2 := fun _ => toyS md) (t0 := fun _ i => (md.L + 1) * toyS md i) (nonce := 0) (cp := cp)
    (fun _ _ _ => by show -Q ≤ 1 ∧ (1 : Int) ≤ Q; decide) (fun i j => toyA_ntt i j)
    (fun _ i => by have := hb i; exact ⟨by omega, this.2⟩) (fun _ i => by have := hb i; exact ⟨by omega, this.2⟩)
    (fun _ i => by
      have := toyS_le md i
      cases md <;> (simp only [Mode.L] at *; push_cast; omega))
    (toy_y _ _) toy_w rfl hcp).1 (toy_accept cp hct hcc)
  rw [this]
  exact ⟨_, rfl⟩

end Verif.Dilithium35
