import Verif.Neon35.SignEq
import Verif.Neon.Own

/-!
# The aarch64 code of dilithium3 and dilithium5 with itself

As `Neon/Own.lean`: the matrix of the aarch64 code is that of the portable code for another hash function with the same SHAKE256.
-/

namespace Verif.Neon35

open Verif.Neon (Mach polyUniformX2 Residues polyUniformX2_residues encStream encStream_six encStream_first polyUniform_six)
open Verif.Dilithium (CSem Shake Poly stream128 nonceBytes polyUniform shake256)
open Verif.Dilithium35

variable {md : Mode} {C : CSem}

theorem matrixExpandN_residues {H : Shake} {rho : Bytes} {mat : Mat md} (h : matrixExpandN md C H rho = some mat) : ∀ i j, Residues (mat i j) := by
  unfold matrixExpandN at h
  rw [Option.bind_eq_bind, Option.bind_eq_some_iff] at h
  obtain ⟨cols, hc, e⟩ := h
  obtain rfl := Option.some.inj e
  intro i j
  have hj := forVec_some _ _ _ (forVec_some _ _ _ hc j) ⟨i.1 / 2, K_half md i⟩
  have r := polyUniformX2_residues (p := (cols j ⟨i.1 / 2, K_half md i⟩).1) (q := (cols j ⟨i.1 / 2, K_half md i⟩).2) hj
  dsimp only
  split
  · exact r.1
  · exact r.2

/-- SHAKE256 as before; SHAKE128 of a seed of 32 bytes and a nonce `256 i + j` is a stream for entry `(i, j)`. -/
def otherH (H : Shake) (mat : Mat md) : Shake :=
  ⟨fun b => encStream (mat ⟨(b.getD 33 0).toNat % md.K, Nat.mod_lt _ (by cases md <;> decide)⟩ ⟨(b.getD 32 0).toNat % md.L, Nat.mod_lt _ (by cases md <;> decide)⟩), H.shake256⟩

theorem other_stream (H : Shake) (mat : Mat md) (rho : Bytes) (hr : rho.length = 32) (i : Fin md.K) (j : Fin md.L) :
    stream128 (otherH H mat) rho (UInt16.ofNat (i.1 * 256 + j.1)) = encStream (mat i j) := by
  have key : ∀ i j : Fin 8, nonceBytes (UInt16.ofNat (i.1 * 256 + j.1)) = [UInt8.ofNat j.1, UInt8.ofNat i.1] ∧ (UInt8.ofNat j.1).toNat = j.1 ∧
      (UInt8.ofNat i.1).toNat = i.1 := by decide
  have hi := i.2
  have hj := j.2
  have hK := K_even md
  have hL := L_odd md
  obtain ⟨k1, k2, k3⟩ := key ⟨i.1, by omega⟩ ⟨j.1, by omega⟩
  dsimp only at k1 k2 k3
  unfold stream128 otherH
  dsimp only
  have a : (rho ++ nonceBytes (UInt16.ofNat (i.1 * 256 + j.1))).getD 33 0 = UInt8.ofNat i.1 := by
    rw [k1, List.getD_append_right _ _ _ _ (by omega), hr]; rfl
  have b : (rho ++ nonceBytes (UInt16.ofNat (i.1 * 256 + j.1))).getD 32 0 = UInt8.ofNat j.1 := by
    rw [k1, List.getD_append_right _ _ _ _ (by omega), hr]; rfl
  simp only [a, b, k2, k3, Nat.mod_eq_of_lt hi, Nat.mod_eq_of_lt hj]

theorem other_six (H : Shake) (mat : Mat md) (hm : ∀ i j, Residues (mat i j)) (rho : Bytes) (hr : rho.length = 32) : SixBlocksMat md (otherH H mat) rho := by
  intro i j
  rw [other_stream H mat rho hr]
  exact encStream_six _ (hm i j)

theorem other_expand (H : Shake) (mat : Mat md) (hm : ∀ i j, Residues (mat i j)) (rho : Bytes) (hr : rho.length = 32) :
    matrixExpandN md C (otherH H mat) rho = some mat := by
  rw [matrixExpandN_eq (other_six H mat hm rho hr)]
  unfold matrixExpand
  have e : ∀ (i : Fin md.K) (j : Fin md.L), polyUniform C (otherH H mat) rho (UInt16.ofNat (i.1 * 256 + j.1)) = some (mat i j) := fun i j => by
    have h := polyUniform_six (C := C) (other_six H mat hm rho hr i j)
    rw [h, other_stream H mat rho hr, encStream_first _ (hm i j)]
  simp only [e, forVec_pure]

/-! ## The functions for two hash functions that agree on SHAKE256 and the matrix -/

variable {a a' b : Bytes → Nat → UInt8} {M : Mach}

theorem keypairN_congr (coins : Bytes)
    (h : matrixExpandN md C ⟨a', b⟩ ((shake256 ⟨a, b⟩ 128 (coins.take 32)).take 32) = matrixExpandN md C ⟨a, b⟩ ((shake256 ⟨a, b⟩ 128 (coins.take 32)).take 32)) :
    keypairN md C ⟨a', b⟩ M coins = keypairN md C ⟨a, b⟩ M coins := by
  have e1 : shake256 ⟨a', b⟩ = shake256 ⟨a, b⟩ := rfl
  have e2 : vecUniformEta md C ⟨a', b⟩ = vecUniformEta md C ⟨a, b⟩ := rfl
  unfold keypairN
  rw [e1, e2]
  generalize shake256 ⟨a, b⟩ 128 (coins.take 32) = sb at h ⊢
  dsimp only
  rw [h]

theorem signAttemptN_congr : signAttemptN md C ⟨a', b⟩ M = signAttemptN md C ⟨a, b⟩ M := by
  have e1 : shake256 ⟨a', b⟩ = shake256 ⟨a, b⟩ := rfl
  have e2 : vecUniformGamma1N md C ⟨a', b⟩ = vecUniformGamma1N md C ⟨a, b⟩ := rfl
  have e3 : polyChallenge md C ⟨a', b⟩ = polyChallenge md C ⟨a, b⟩ := rfl
  funext x n
  unfold signAttemptN
  rw [e1, e2, e3]

theorem signLoopN_congr (x : SignCtx md) (nonce : UInt16) : signLoopN md C ⟨a', b⟩ M x nonce = signLoopN md C ⟨a, b⟩ M x nonce := by
  apply Dilithium.Linked.opt_ext
  · intro r hr
    refine signLoopN.partial_correctness md C ⟨a', b⟩ M x (motive := fun nonce r => signLoopN md C ⟨a, b⟩ M x nonce = some r) ?_ nonce r hr
    intro loop ih nonce r hr
    rw [signLoopN]
    rw [signAttemptN_congr (a' := a') (a := a)] at hr
    generalize signAttemptN md C ⟨a, b⟩ M x nonce = o at hr ⊢
    cases o with
    | none => exact absurd hr (by simp)
    | some o =>
      cases o with
      | none => exact ih _ _ hr
      | some sig => exact hr
  · intro r hr
    refine signLoopN.partial_correctness md C ⟨a, b⟩ M x (motive := fun nonce r => signLoopN md C ⟨a', b⟩ M x nonce = some r) ?_ nonce r hr
    intro loop ih nonce r hr
    rw [signLoopN, signAttemptN_congr (a' := a') (a := a)]
    generalize signAttemptN md C ⟨a, b⟩ M x nonce = o at hr ⊢
    cases o with
    | none => exact absurd hr (by simp)
    | some o =>
      cases o with
      | none => exact ih _ _ hr
      | some sig => exact hr

theorem signatureN_congr (m sk : Bytes) (h : matrixExpandN md C ⟨a', b⟩ (sk.take 32) = matrixExpandN md C ⟨a, b⟩ (sk.take 32)) :
    signatureN md C ⟨a', b⟩ M m sk = signatureN md C ⟨a, b⟩ M m sk := by
  have e1 : shake256 ⟨a', b⟩ = shake256 ⟨a, b⟩ := rfl
  have hr : (unpackSk md C sk).rho = sk.take 32 := rfl
  unfold signatureN
  have ec : signCtxN md C ⟨a', b⟩ M m sk = signCtxN md C ⟨a, b⟩ M m sk := by
    unfold signCtxN
    rw [e1]
    dsimp only
    rw [hr, h]
  rw [ec]
  refine congrArg _ (funext fun x => signLoopN_congr x 0)

theorem cryptoSignN_congr (m sk : Bytes) (h : matrixExpandN md C ⟨a', b⟩ (sk.take 32) = matrixExpandN md C ⟨a, b⟩ (sk.take 32)) :
    cryptoSignN md C ⟨a', b⟩ M m sk = cryptoSignN md C ⟨a, b⟩ M m sk := by
  unfold cryptoSignN
  rw [signatureN_congr m sk h]

theorem verifyN_congr (sig m pk : Bytes) (h : matrixExpandN md C ⟨a', b⟩ (pk.take 32) = matrixExpandN md C ⟨a, b⟩ (pk.take 32)) :
    verifyN md C ⟨a', b⟩ M sig m pk = verifyN md C ⟨a, b⟩ M sig m pk := by
  have e1 : shake256 ⟨a', b⟩ = shake256 ⟨a, b⟩ := rfl
  have e3 : polyChallenge md C ⟨a', b⟩ = polyChallenge md C ⟨a, b⟩ := rfl
  have hr : (unpackPkP md C M pk).1 = pk.take 32 := by unfold unpackPkP; rfl
  unfold verifyN
  dsimp only
  rw [e1, e3, hr, h]

theorem cryptoOpenN_congr (sm pk : Bytes) (h : matrixExpandN md C ⟨a', b⟩ (pk.take 32) = matrixExpandN md C ⟨a, b⟩ (pk.take 32)) :
    cryptoOpenN md C ⟨a', b⟩ M sm pk = cryptoOpenN md C ⟨a, b⟩ M sm pk := by
  unfold cryptoOpenN
  rw [verifyN_congr _ _ pk h]

end Verif.Neon35
