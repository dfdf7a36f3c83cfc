import Verif.Neon35.Own
import Verif.Neon.Indep

/-! # The aarch64 functions of dilithium3 and dilithium5 do not depend on undefined behaviour nor on the machine state -/

namespace Verif.Neon35

open Verif.Neon (Mach polyUniformX2_indep)
open Verif.Dilithium (CSem Shake shake256 shake256_len)
open Verif.Dilithium35

variable {md : Mode}

theorem matrixExpandN_indep (C C' : CSem) (H : Shake) (rho : Bytes) : matrixExpandN md C H rho = matrixExpandN md C' H rho := by
  unfold matrixExpandN
  simp only [polyUniformX2_indep C C' H]

/-- The hash function for which the portable matrix is the given one. -/
theorem other_exists {a b : Bytes → Nat → UInt8} {C : CSem} {rho : Bytes} (hr : rho.length = 32) {mat : Mat md} (h : matrixExpandN md C ⟨a, b⟩ rho = some mat) :
    ∃ a', SixBlocksMat md ⟨a', b⟩ rho ∧ ∀ C, matrixExpandN md C ⟨a', b⟩ rho = matrixExpandN md C ⟨a, b⟩ rho := by
  have hres := matrixExpandN_residues h
  refine ⟨(otherH ⟨a, b⟩ mat).shake128, other_six ⟨a, b⟩ mat hres _ hr, fun C' => ?_⟩
  rw [matrixExpandN_indep C' C ⟨a, b⟩, h]
  exact other_expand ⟨a, b⟩ mat hres _ hr

variable (C C' : CSem) (H : Shake) (M M' : Mach)

theorem keypairN_indep (coins : Bytes) : keypairN md C H M coins = keypairN md C' H M' coins := by
  obtain ⟨a, b⟩ := H
  have hl : ((shake256 ⟨a, b⟩ 128 (coins.take 32)).take 32).length = 32 := by
    rw [List.length_take, shake256_len]; rfl
  cases hm : matrixExpandN md C ⟨a, b⟩ ((shake256 ⟨a, b⟩ 128 (coins.take 32)).take 32) with
  | none =>
    have hm' := hm
    rw [matrixExpandN_indep C C'] at hm'
    unfold keypairN
    generalize shake256 ⟨a, b⟩ 128 (coins.take 32) = sb at hm hm' ⊢
    dsimp only
    rw [hm, hm', Option.bind_eq_bind, Option.bind_none]
    rfl
  | some mat =>
    obtain ⟨a', h6, h⟩ := other_exists hl hm
    rw [← keypairN_congr coins (h C), ← keypairN_congr coins (h C'), keypairN_eq coins h6, keypairN_eq coins h6, keypairDet_indep C C']

theorem signatureN_indep (m sk : Bytes) (hs : md.SKLEN ≤ sk.length) : signatureN md C H M m sk = signatureN md C' H M' m sk := by
  obtain ⟨a, b⟩ := H
  have hl : (sk.take 32).length = 32 := by
    rw [List.length_take]; unfold Mode.SKLEN at hs; omega
  cases hm : matrixExpandN md C ⟨a, b⟩ (sk.take 32) with
  | none =>
    have hm' := hm
    rw [matrixExpandN_indep C C'] at hm'
    have e : ∀ C, (unpackSk md C sk).rho = sk.take 32 := fun _ => rfl
    have n : ∀ C M, matrixExpandN md C ⟨a, b⟩ (sk.take 32) = none → signatureN md C ⟨a, b⟩ M m sk = none := fun C M h => by
      have : signCtxN md C ⟨a, b⟩ M m sk = none := by
        unfold signCtxN
        dsimp only
        rw [e, h, Option.bind_eq_bind, Option.bind_none]
      unfold signatureN
      rw [this, Option.bind_eq_bind, Option.bind_none]
    rw [n C M hm, n C' M' hm']
  | some mat =>
    obtain ⟨a', h6, h⟩ := other_exists hl hm
    rw [← signatureN_congr m sk (h C), ← signatureN_congr m sk (h C'), signatureN_eq m sk h6, signatureN_eq m sk h6, signature_indep C C' _ _ _ hs]

theorem cryptoSignN_indep (m sk : Bytes) (hs : md.SKLEN ≤ sk.length) : cryptoSignN md C H M m sk = cryptoSignN md C' H M' m sk := by
  unfold cryptoSignN
  rw [signatureN_indep C C' H M M' m sk hs]

theorem verifyN_indep (sig m pk : Bytes) (hp : md.PKLEN ≤ pk.length) : verifyN md C H M sig m pk = verifyN md C' H M' sig m pk := by
  obtain ⟨a, b⟩ := H
  have hl : (pk.take 32).length = 32 := by
    rw [List.length_take]; unfold Mode.PKLEN at hp; omega
  cases hm : matrixExpandN md C ⟨a, b⟩ (pk.take 32) with
  | none =>
    have hm' := hm
    rw [matrixExpandN_indep C C'] at hm'
    unfold verifyN
    have e : ∀ C M, (unpackPkP md C M pk).1 = pk.take 32 := fun _ _ => rfl
    dsimp only
    rw [e, e, hm, hm']
    by_cases hs : sig.length = md.SIGLEN
    · rw [if_neg (by simp [hs]), if_neg (by simp [hs]), unpackSig_indep C C' sig hs]
      cases hu : unpackSig md C' sig with
      | none => rfl
      | some x =>
        obtain ⟨c, z, h⟩ := x
        dsimp only
        have hr := (packSig_unpackSig sig c z h hs hu).2.2.1
        rw [vecChknorm_indep C C' z _ (by cases md <;> decide) (fun k i => by have := hr k i; simp only [GAMMA1] at *; omega)]
        simp only [Option.bind_eq_bind, Option.bind_none, Option.bind_fun_none]
    · rw [if_pos hs, if_pos hs]
  | some mat =>
    obtain ⟨a', h6, h⟩ := other_exists hl hm
    rw [← verifyN_congr sig m pk (h C), ← verifyN_congr sig m pk (h C'), verifyN_eq sig m pk hp h6, verifyN_eq sig m pk hp h6, verify_indep C C' _ _ _ _ hp]

theorem cryptoOpenN_indep (sm pk : Bytes) (hp : md.PKLEN ≤ pk.length) : cryptoOpenN md C H M sm pk = cryptoOpenN md C' H M' sm pk := by
  unfold cryptoOpenN
  rw [verifyN_indep C C' H M M' _ _ pk hp]

end Verif.Neon35
