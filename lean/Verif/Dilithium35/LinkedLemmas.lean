import Verif.Dilithium.LinkedLemmas
import Verif.Dilithium35.Linked
import Verif.Dilithium35.Keys

/-! # The functions of `Linked.lean` compute what the stream model computes with `fipsShake` -/

namespace Verif.Dilithium35.Linked
open Verif Verif.Keccak Verif.Props Verif.Dilithium
open Verif.Dilithium35
open Verif.Dilithium.Linked (bytesAt stream256Init chalStep hash2 rejLoop Reads reads256 bytesAt_eq bytesAt_take stream256Init_eq hash2_eq opt_ext
  chalFold_eq shake256_len)

variable {md : Mode} (C : CSem) (O : Oob)

theorem etaLoop4_eq (st : Nat → UInt8) (acc : List Int) (pos : Nat) (c : Keccak.Inc) (h : Reads (shake256IncSqueeze O) st pos c) :
    etaLoop4 O acc c = Dilithium35.etaLoop4 st acc pos := by
  apply opt_ext
  · intro r hr
    refine etaLoop4.partial_correctness O (motive := fun acc c r => ∀ pos, Reads (shake256IncSqueeze O) st pos c →
      Dilithium35.etaLoop4 st acc pos = some r) ?_ acc c r hr pos h
    intro loop ih acc c r hr pos h
    obtain ⟨c', h1, h2⟩ := h.step 136
    rw [Dilithium35.etaLoop4]
    split at hr
    · rename_i hl
      rw [if_pos hl]
      rw [h1] at hr
      exact ih _ _ _ hr _ h2
    · rename_i hl
      rw [if_neg hl]; exact hr
  · intro r hr
    refine Dilithium35.etaLoop4.partial_correctness st (motive := fun acc pos r => ∀ c, Reads (shake256IncSqueeze O) st pos c →
      etaLoop4 O acc c = some r) ?_ acc pos r hr c h
    intro loop ih acc pos r hr c h
    obtain ⟨c', h1, h2⟩ := h.step 136
    rw [etaLoop4]
    split at hr
    · rename_i hl
      rw [if_pos hl]
      rw [show 1 * 136 = 136 from rfl, h1]
      exact ih _ _ _ hr _ h2
    · rename_i hl
      rw [if_neg hl]; exact hr

theorem polyUniformEta_eq (seed : Bytes) (hs : seed.length = 64) (nonce : UInt16) :
    polyUniformEta md C O seed nonce = Dilithium35.polyUniformEta md C fipsShake seed nonce := by
  cases md with
  | five => exact Dilithium.Linked.polyUniformEta_eq C O seed hs nonce
  | three =>
    obtain ⟨c, h1, h2⟩ := stream256Init_eq C O seed hs nonce
    obtain ⟨c', h3, h4⟩ := h2.step 272
    unfold polyUniformEta Dilithium35.polyUniformEta
    dsimp only
    rw [h1]
    simp only [Option.bind_eq_bind, Option.bind_some, Nat.reduceMul, h3]
    rw [etaLoop4_eq O _ _ _ _ h4]
    cases Dilithium35.etaLoop4 (stream256 fipsShake seed nonce) (rejEta4 256 (squeeze (stream256 fipsShake seed nonce) 0 272)) 272 <;> rfl

theorem polyUniformGamma1_eq (seed : Bytes) (hs : seed.length = 64) (nonce : UInt16) :
    polyUniformGamma1 C O seed nonce = some (Dilithium35.polyUniformGamma1 C fipsShake seed nonce) := by
  obtain ⟨c, h1, h2⟩ := stream256Init_eq C O seed hs nonce
  obtain ⟨c', h3, h4⟩ := h2.step 680
  unfold polyUniformGamma1 Dilithium35.polyUniformGamma1
  rw [h1]
  simp only [Option.bind_eq_bind, Option.bind_some, Nat.reduceMul, h3]
  rfl

theorem polyChallenge_eq (seed : Bytes) (hs : 32 ≤ seed.length) : polyChallenge md C O seed = Dilithium35.polyChallenge md C fipsShake seed := by
  obtain ⟨c, h1, h2⟩ := reads256 O [seed.take 32]
  obtain ⟨c', h3, h4⟩ := h2.step 136
  simp only [List.foldlM_cons, List.foldlM_nil, Option.bind_eq_bind] at h1
  have h1 : shake256IncAbsorb O shake256IncInit (seed.take 32) = some c := by
    cases h5 : shake256IncAbsorb O shake256IncInit (seed.take 32) with
    | none => simp [h5] at h1
    | some c2 => simpa [h5] using h1
  simp only [List.flatten_cons, List.flatten_nil, List.append_nil] at h3 h4
  unfold polyChallenge Dilithium35.polyChallenge
  rw [bytesAt_take C _ _ hs, h1]
  simp only [Option.bind_eq_bind, Option.bind_some, h3]
  have := chalFold_eq C O (fipsShake.shake256 (seed.take 32)) (List.range' (256 - md.TAU) md.TAU) (fun _ => 0)
    (((List.range 8).map fun i => (at8 C (squeeze (fipsShake.shake256 (seed.take 32)) 0 136) i).toNat * 256 ^ i).sum)
    ⟨squeeze (fipsShake.shake256 (seed.take 32)) 0 136, 8, c'⟩ ⟨squeeze (fipsShake.shake256 (seed.take 32)) 0 136, 8, 136⟩ ⟨rfl, rfl, by simpa using h4⟩
  revert this
  cases List.foldlM (chalStep C O) _ _ <;> cases List.foldlM (Dilithium.chalStep C _) _ _ <;> simp

theorem matrixExpand_eq (rho : Bytes) (h : rho.length = 32) : matrixExpand md C O rho = Dilithium35.matrixExpand md C fipsShake rho := by
  unfold matrixExpand Dilithium35.matrixExpand
  simp only [Dilithium.Linked.polyUniform_eq C O rho h]

theorem vecUniformEta_eq (n : Nat) (seed : Bytes) (h : seed.length = 64) (nonce : UInt16) :
    vecUniformEta md C O n seed nonce = Dilithium35.vecUniformEta md C fipsShake n seed nonce := by
  unfold vecUniformEta Dilithium35.vecUniformEta
  simp only [polyUniformEta_eq C O seed h]

theorem forVec_some {α : Type} (n : Nat) (f : Fin n → α) : forVec n (fun i => some (f i)) = some f := by
  induction n with
  | zero => unfold forVec; congr 1; funext i; exact i.elim0
  | succ n ih =>
    unfold forVec
    rw [ih fun i => f i.castSucc]
    simp only [Option.bind_eq_bind, Option.bind_some, Option.pure_def, Option.some.injEq]
    funext i
    split
    · rfl
    · exact congrArg f (Fin.ext (by simp only [Fin.val_last]; omega))

theorem vecUniformGamma1_eq (seed : Bytes) (h : seed.length = 64) (nonce : UInt16) :
    vecUniformGamma1 md C O seed nonce = some (Dilithium35.vecUniformGamma1 md C fipsShake seed nonce) := by
  unfold vecUniformGamma1 Dilithium35.vecUniformGamma1
  simp only [polyUniformGamma1_eq C O seed h, forVec_some]

theorem keypairDet_eq (coins : Bytes) (h : coins.length = 32) : keypairDet md C O coins = Dilithium35.keypairDet md C fipsShake coins := by
  unfold keypairDet Dilithium35.keypairDet
  rw [bytesAt_eq C _ _ h, List.take_of_length_le (Nat.le_of_eq h)]
  simp only [C84_shake256_is_model, Option.bind_eq_bind, Option.bind_some]
  have hl := shake256_len fipsShake 128 coins
  generalize Dilithium.shake256 fipsShake 128 coins = sb at hl ⊢
  have h1 : (sb.take 32).length = 32 := by rw [List.length_take, hl]; rfl
  have h2 : ((sb.drop 32).take 64).length = 64 := by rw [List.length_take, List.length_drop, hl]; rfl
  have h3 : ∀ t1, bytesAt C md.PKLEN (packPk md (sb.take 32) t1) = packPk md (sb.take 32) t1 := fun t1 => bytesAt_eq C _ _ (packPk_len _ _ h1)
  simp only [matrixExpand_eq C O _ h1, vecUniformEta_eq C O _ _ h2, h3]

theorem signCtx_eq (m sk : Bytes) (h : sk.length = md.SKLEN) : signCtx md C O m sk = Dilithium35.signCtx md C fipsShake m sk := by
  unfold signCtx Dilithium35.signCtx
  have hk : 128 ≤ sk.length := by rw [h]; unfold Mode.SKLEN; omega
  have h1 : (unpackSk md C sk).tr.length = 64 := by
    simp only [unpackSk, List.length_take, List.length_drop]; omega
  have h2 : (unpackSk md C sk).key.length = 32 := by
    simp only [unpackSk, List.length_take, List.length_drop]; omega
  have h3 : (unpackSk md C sk).rho.length = 32 := by
    simp only [unpackSk, List.length_take]; omega
  simp only [bytesAt_eq C _ _ h1, bytesAt_eq C _ _ h2, hash2_eq, C84_shake256_is_model, Option.bind_eq_bind, Option.bind_some, matrixExpand_eq C O _ h3]

theorem vecPackW1_len {n : Nat} (w : Vec n) : (vecPackW1 w).length = n * 128 := by
  unfold vecPackW1
  rw [flat_len n _ 128 (fun i => by unfold polyw1Pack; exact List.length_ofFn)]

theorem ctilde_le (md : Mode) : 32 ≤ md.CTILDE := by cases md <;> decide

theorem signAttempt_eq (x : SignCtx md) (h1 : x.mu.length = 64) (h2 : x.rhoprime.length = 64) (nonce : UInt16) :
    signAttempt md C O x nonce = Dilithium35.signAttempt md C fipsShake x nonce := by
  unfold signAttempt Dilithium35.signAttempt
  simp only [vecUniformGamma1_eq C O _ h2, Option.bind_eq_bind, Option.bind_some, bytesAt_eq C _ _ h1, bytesAt_eq C _ _ (vecPackW1_len _), hash2_eq,
    polyChallenge_eq C O _ (le_trans (ctilde_le md) (Nat.le_of_eq (shake256_len _ _ _).symm))]

theorem rejLoop_eq (H : Shake) (x : SignCtx md) (nonce : UInt16) : rejLoop (Dilithium35.signAttempt md C H x) nonce = Dilithium35.signLoop md C H x nonce := by
  apply opt_ext
  · intro r hr
    refine rejLoop.partial_correctness (Dilithium35.signAttempt md C H x) (motive := fun nonce r => Dilithium35.signLoop md C H x nonce = some r) ?_ nonce r hr
    intro loop ih nonce r hr
    rw [Dilithium35.signLoop]
    cases ha : Dilithium35.signAttempt md C H x nonce with
    | none => simp [ha] at hr
    | some o =>
      rw [ha] at hr
      simp only [Option.bind_eq_bind, Option.bind_some] at hr ⊢
      cases o with
      | none => exact ih _ _ hr
      | some sig => exact hr
  · intro r hr
    refine Dilithium35.signLoop.partial_correctness md C H x (motive := fun nonce r => rejLoop (Dilithium35.signAttempt md C H x) nonce = some r) ?_ nonce r hr
    intro loop ih nonce r hr
    rw [rejLoop]
    cases ha : Dilithium35.signAttempt md C H x nonce with
    | none => simp [ha] at hr
    | some o =>
      rw [ha] at hr
      simp only [Option.bind_eq_bind, Option.bind_some] at hr ⊢
      cases o with
      | none => exact ih _ _ hr
      | some sig => exact hr

theorem signCtx_lens (H : Shake) (m sk : Bytes) (x : SignCtx md) (hx : Dilithium35.signCtx md C H m sk = some x) : x.mu.length = 64 ∧ x.rhoprime.length = 64 := by
  unfold Dilithium35.signCtx at hx
  dsimp only at hx
  cases hm : Dilithium35.matrixExpand md C H (unpackSk md C sk).rho with
  | none => simp [hm] at hx
  | some mat =>
    simp only [hm, Option.bind_eq_bind, Option.bind_some, Option.pure_def, Option.some.injEq] at hx
    rw [← hx]
    exact ⟨shake256_len _ _ _, shake256_len _ _ _⟩

theorem signature_congr (H : Shake) (m sk : Bytes) (h : signCtx md C O m sk = Dilithium35.signCtx md C H m sk)
    (hl : ∀ x, Dilithium35.signCtx md C H m sk = some x → signAttempt md C O x = Dilithium35.signAttempt md C H x) :
    signature md C O m sk = Dilithium35.signature md C H m sk := by
  unfold signature Dilithium35.signature
  rw [h, Option.bind_eq_bind]
  cases hx : Dilithium35.signCtx md C H m sk with
  | none => rw [Option.bind_none, Option.bind_none]
  | some x => rw [Option.bind_some, Option.bind_some, hl x hx, rejLoop_eq]

theorem signature_eq (m sk : Bytes) (h : sk.length = md.SKLEN) : signature md C O m sk = Dilithium35.signature md C fipsShake m sk :=
  signature_congr C O fipsShake m sk (signCtx_eq C O m sk h) fun x hx =>
    funext fun n => signAttempt_eq C O x (signCtx_lens C fipsShake m sk x hx).1 (signCtx_lens C fipsShake m sk x hx).2 n

theorem cryptoSign_eq (m sk : Bytes) (h : sk.length = md.SKLEN) : cryptoSign md C O m sk = Dilithium35.cryptoSign md C fipsShake m sk := by
  unfold cryptoSign Dilithium35.cryptoSign
  rw [signature_eq C O m sk h]

theorem verify_eq (sig m pk : Bytes) (h : pk.length = md.PKLEN) : verify md C O sig m pk = Dilithium35.verify md C fipsShake sig m pk := by
  unfold verify Dilithium35.verify
  split
  · rfl
  rename_i hs
  have hs : sig.length = md.SIGLEN := by simpa using hs
  have h1 : (unpackPk md C pk).1.length = 32 := by
    simp only [unpackPk, List.length_take, h]; unfold Mode.PKLEN; omega
  dsimp only
  cases hu : unpackSig md C sig with
  | none => rfl
  | some p =>
    obtain ⟨c, z, hh⟩ := p
    have hc : 32 ≤ c.length := by
      unfold unpackSig at hu
      cases hx : unpackHint C md.K md.OMEGA (sig.drop (md.CTILDE + md.L * 640)) with
      | none => simp [hx] at hu
      | some y =>
        simp [hx] at hu
        have := ctilde_le md
        rw [← hu.1, List.length_take, hs]; unfold Mode.SIGLEN; omega
    dsimp only
    split
    · rfl
    · rw [bytesAt_eq C _ _ h, List.take_of_length_le (Nat.le_of_eq h)]
      simp only [C84_shake256_is_model, Option.bind_eq_bind, Option.bind_some, hash2_eq, polyChallenge_eq C O _ hc, matrixExpand_eq C O _ h1,
        bytesAt_eq C _ _ (vecPackW1_len _)]

theorem cryptoOpen_eq (sm pk : Bytes) (h : pk.length = md.PKLEN) : cryptoOpen md C O sm pk = Dilithium35.cryptoOpen md C fipsShake sm pk := by
  unfold cryptoOpen Dilithium35.cryptoOpen
  simp only [verify_eq C O _ _ pk h]

end Verif.Dilithium35.Linked
