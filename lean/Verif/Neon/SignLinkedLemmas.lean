import Verif.Neon.SignLinked
import Verif.Neon.SampleLinkedLemmas

/-! # The functions of `SignLinked.lean` compute what those of `Sign.lean` compute with `fipsShake` -/

namespace Verif.Neon.Linked

open Verif.Dilithium hiding W32 toI32_id
open Verif.Dilithium.Linked (bytesAt hash2 polyChallenge vecUniformEta hash2_eq polyChallenge_eq bytesAt_eq shake256_len vecUniformEta_eq vecPackW1_len opt_ext)
open Verif.Keccak (Oob)
open Verif.Neon.X2 (KJ)
open Verif.Props (fipsShake C84_shake256_is_model)

variable (C : CSem) (O : Oob) (M : Mach)

theorem matrixExpand_eq (E : Fin 4 → Fin 2 → KJ) (rho : Bytes) (h : rho.length = 32) : matrixExpand C E rho = matrixExpandN C fipsShake rho := by
  unfold matrixExpand matrixExpandN
  simp only [X2.polyUniformX2_model C _ rho h]

theorem vecUniformGamma1_eq (E : Fin 2 → KJ) (seed : Bytes) (h : seed.length = 64) (nonce : UInt16) :
    vecUniformGamma1 C E seed nonce = some (vecUniformGamma1N C fipsShake seed nonce) := by
  unfold vecUniformGamma1 vecUniformGamma1N
  rw [X2.polyUniformGamma1X2_model C _ seed h, X2.polyUniformGamma1X2_model C _ seed h, Option.bind_eq_bind, Option.bind_some, Option.bind_some]
  rfl

theorem keypair_eq (E : Fin 4 → Fin 2 → KJ) (coins : Bytes) (h : coins.length = 32) : keypair C O M E coins = keypairN C fipsShake M coins := by
  unfold keypair keypairN
  rw [bytesAt_eq C _ _ h, List.take_of_length_le (Nat.le_of_eq h), C84_shake256_is_model, Option.bind_eq_bind, Option.bind_some]
  have hl := shake256_len fipsShake 128 coins
  generalize Dilithium.shake256 fipsShake 128 coins = sb at hl ⊢
  have h1 : (sb.take 32).length = 32 := by rw [List.length_take, hl]; rfl
  have h2 : ((sb.drop 32).take 64).length = 64 := by rw [List.length_take, List.length_drop, hl]; rfl
  have h3 : ∀ t1, bytesAt C PKLEN (packPk (sb.take 32) t1) = packPk (sb.take 32) t1 := fun t1 => bytesAt_eq C _ _ (packPk_len _ _ h1)
  dsimp only
  simp only [matrixExpand_eq C E _ h1, vecUniformEta_eq C O _ h2, h3, C84_shake256_is_model, Option.bind_eq_bind, Option.bind_some]

theorem signCtx_eq (E : Fin 4 → Fin 2 → KJ) (m sk : Bytes) (h : sk.length = SKLEN) : signCtx C O M E m sk = signCtxN C fipsShake M m sk := by
  unfold signCtx signCtxN
  have h1 : (unpackSk C sk).tr.length = 64 := by
    simp only [unpackSk, List.length_take, List.length_drop, h]; rfl
  have h2 : (unpackSk C sk).key.length = 32 := by
    simp only [unpackSk, List.length_take, List.length_drop, h]; rfl
  have h3 : (unpackSk C sk).rho.length = 32 := by
    simp only [unpackSk, List.length_take, List.length_drop, h]; rfl
  simp only [bytesAt_eq C _ _ h1, bytesAt_eq C _ _ h2, hash2_eq, C84_shake256_is_model, Option.bind_eq_bind, Option.bind_some, matrixExpand_eq C E _ h3]

theorem signAttempt_eq (E : Fin 2 → KJ) (x : SignCtx) (h1 : x.mu.length = 64) (h2 : x.rhoprime.length = 64) (nonce : UInt16) :
    signAttempt C O M E x nonce = signAttemptN C fipsShake M x nonce := by
  unfold signAttempt signAttemptN
  simp only [vecUniformGamma1_eq C E _ h2, Option.bind_eq_bind, Option.bind_some, bytesAt_eq C _ _ h1, bytesAt_eq C _ _ (vecPackW1_len _), hash2_eq,
    polyChallenge_eq C O _ (shake256_len _ _ _)]

theorem signLoop_eq (E : Nat → Fin 2 → KJ) (x : SignCtx) (h1 : x.mu.length = 64) (h2 : x.rhoprime.length = 64) (nonce : UInt16) (t : Nat) :
    signLoop C O M E x nonce t = signLoopN C fipsShake M x nonce := by
  apply opt_ext
  · intro r hr
    refine signLoop.partial_correctness C O M E x (motive := fun nonce _ r => signLoopN C fipsShake M x nonce = some r) ?_ nonce t r hr
    intro loop ih nonce t r hr
    rw [signLoopN]
    rw [signAttempt_eq C O M _ x h1 h2] at hr
    generalize signAttemptN C fipsShake M x nonce = o at hr ⊢
    cases o with
    | none => exact absurd hr (by simp)
    | some o =>
      cases o with
      | none => exact ih _ _ _ hr
      | some sig => exact hr
  · intro r hr
    refine signLoopN.partial_correctness C fipsShake M x (motive := fun nonce r => ∀ t, signLoop C O M E x nonce t = some r) ?_ nonce r hr t
    intro loop ih nonce r hr t
    rw [signLoop, signAttempt_eq C O M _ x h1 h2]
    generalize signAttemptN C fipsShake M x nonce = o at hr ⊢
    cases o with
    | none => exact absurd hr (by simp)
    | some o =>
      cases o with
      | none => exact ih _ _ hr _
      | some sig => exact hr

theorem signCtxN_lens (H : Shake) (m sk : Bytes) (x : SignCtx) (hx : signCtxN C H M m sk = some x) : x.mu.length = 64 ∧ x.rhoprime.length = 64 := by
  unfold signCtxN at hx
  dsimp only at hx
  rw [Option.bind_eq_bind] at hx
  generalize matrixExpandN C H (unpackSk C sk).rho = o at hx
  cases o with
  | none => exact absurd hx (by simp)
  | some mat =>
    rw [Option.bind_some] at hx
    obtain rfl := Option.some.inj hx
    exact ⟨shake256_len _ _ _, shake256_len _ _ _⟩

theorem signature_eq (E : Fin 4 → Fin 2 → KJ) (E' : Nat → Fin 2 → KJ) (m sk : Bytes) (h : sk.length = SKLEN) :
    signature C O M E E' m sk = signatureN C fipsShake M m sk := by
  unfold signature signatureN
  rw [signCtx_eq C O M E m sk h]
  cases hx : signCtxN C fipsShake M m sk with
  | none => rfl
  | some x =>
    obtain ⟨h1, h2⟩ := signCtxN_lens C M fipsShake m sk x hx
    rw [Option.bind_eq_bind, Option.bind_some, Option.bind_some, signLoop_eq C O M E' x h1 h2]

theorem cryptoSign_eq (E : Fin 4 → Fin 2 → KJ) (E' : Nat → Fin 2 → KJ) (m sk : Bytes) (h : sk.length = SKLEN) :
    cryptoSign C O M E E' m sk = cryptoSignN C fipsShake M m sk := by
  unfold cryptoSign cryptoSignN
  rw [signature_eq C O M E E' m sk h]

theorem verify_eq (E : Fin 4 → Fin 2 → KJ) (sig m pk : Bytes) (h : pk.length = PKLEN) : verify C O M E sig m pk = verifyN C fipsShake M sig m pk := by
  unfold verify verifyN
  split
  · rfl
  rename_i hs
  have hs : sig.length = SIGLEN := by simpa using hs
  have h1 : (unpackPkP C M pk).1.length = 32 := by simp only [unpackPkP, List.length_take, h]; rfl
  dsimp only
  cases hu : unpackSig C sig with
  | none => rfl
  | some p =>
    obtain ⟨c, z, hh⟩ := p
    have hc : c.length = 32 := by
      unfold unpackSig at hu
      cases hx : unpackHint C (sig.drop 2336) with
      | none => simp [hx] at hu
      | some y => simp [hx] at hu; rw [← hu.1, List.length_take, hs]; rfl
    dsimp only
    split
    · rfl
    · rw [bytesAt_eq C _ _ h, List.take_of_length_le (Nat.le_of_eq h)]
      simp only [C84_shake256_is_model, Option.bind_eq_bind, Option.bind_some, hash2_eq, polyChallenge_eq C O _ hc, matrixExpand_eq C E _ h1,
        bytesAt_eq C _ _ (vecPackW1_len _)]

theorem cryptoOpen_eq (E : Fin 4 → Fin 2 → KJ) (sm pk : Bytes) (h : pk.length = PKLEN) :
    cryptoOpen C O M E sm pk = cryptoOpenN C fipsShake M sm pk := by
  unfold cryptoOpen cryptoOpenN
  simp only [verify_eq C O M E _ _ pk h]

end Verif.Neon.Linked
