import Verif.Neon.Own
import Verif.Dilithium.NoUb

/-!
# The aarch64 functions do not depend on undefined behaviour nor on the machine state

No condition on the matrix: where it is not that of the portable code, it is the portable matrix of another hash function (`Own.lean`).
-/

namespace Verif.Neon

open Verif.Dilithium hiding W32 toI32_id

theorem polyUniformX2_indep (C C' : CSem) (H : Shake) (seed : Bytes) (n0 n1 : UInt16) : polyUniformX2 C H seed n0 n1 = polyUniformX2 C' H seed n0 n1 := by
  unfold polyUniformX2
  dsimp only
  generalize hb : (fun k => squeeze ((![stream128 H seed n0, stream128 H seed n1] : Fin 2 → Nat → UInt8) k) 0 840) = buf
  generalize he : uniformLoop2 _ _ _ _ = r
  cases r with
  | none => rfl
  | some r =>
    have := uniformLoop2_spec _ _ _ _ r he fun k => rejUniform_range _ _
    have e : ∀ k, polyOfList C (r k) = polyOfList C' (r k) := fun k => by
      funext i
      have h1 := (this k).1
      have h2 := i.2
      unfold polyOfList
      rw [List.getD_eq_getElem _ _ (by omega), List.getD_eq_getElem _ _ (by omega)]
    rw [Option.map_some, Option.map_some, e, e]

theorem matrixExpandN_indep (C C' : CSem) (H : Shake) (rho : Bytes) : matrixExpandN C H rho = matrixExpandN C' H rho := by
  unfold matrixExpandN
  simp only [polyUniformX2_indep C C' H]

/-- The hash function for which the portable matrix is the given one. -/
theorem other_exists {a b : Bytes → Nat → UInt8} {C : CSem} {rho : Bytes} (hr : rho.length = 32) {mat : Mat} (h : matrixExpandN C ⟨a, b⟩ rho = some mat) :
    ∃ a', SixBlocksMat ⟨a', b⟩ rho ∧ ∀ C, matrixExpandN C ⟨a', b⟩ rho = matrixExpandN C ⟨a, b⟩ rho := by
  have hres := matrixExpandN_residues h
  refine ⟨(otherH ⟨a, b⟩ mat).shake128, other_six ⟨a, b⟩ mat hres _ hr, fun C' => ?_⟩
  rw [matrixExpandN_indep C' C ⟨a, b⟩, h]
  exact other_expand ⟨a, b⟩ mat hres _ hr

variable (C C' : CSem) (H : Shake) (M M' : Mach)

theorem keypairN_indep (coins : Bytes) : keypairN C H M coins = keypairN C' H M' coins := by
  obtain ⟨a, b⟩ := H
  have hl : ((shake256 ⟨a, b⟩ 128 (coins.take 32)).take 32).length = 32 := by
    rw [List.length_take, shake256_len]; rfl
  cases hm : matrixExpandN C ⟨a, b⟩ ((shake256 ⟨a, b⟩ 128 (coins.take 32)).take 32) with
  | none =>
    have hm' := hm
    rw [matrixExpandN_indep C C'] at hm'
    unfold keypairN
    generalize shake256 ⟨a, b⟩ 128 (coins.take 32) = sb at hm hm' ⊢
    dsimp only
    rw [hm, hm', Option.bind_eq_bind, Option.bind_none]
    rfl
  | some mat =>
    obtain ⟨a', h6, h⟩ := other_exists hl hm
    rw [← keypairN_congr coins (h C), ← keypairN_congr coins (h C'), keypairN_eq coins h6, keypairN_eq coins h6, keypairDet_indep C C']

theorem signatureN_indep (m sk : Bytes) (hs : SKLEN ≤ sk.length) : signatureN C H M m sk = signatureN C' H M' m sk := by
  obtain ⟨a, b⟩ := H
  have hl : (sk.take 32).length = 32 := by
    rw [List.length_take]; simp only [SKLEN] at hs; omega
  cases hm : matrixExpandN C ⟨a, b⟩ (sk.take 32) with
  | none =>
    have hm' := hm
    rw [matrixExpandN_indep C C'] at hm'
    have e : ∀ C, (unpackSk C sk).rho = sk.take 32 := fun _ => rfl
    have n : ∀ C M, matrixExpandN C ⟨a, b⟩ (sk.take 32) = none → signatureN C ⟨a, b⟩ M m sk = none := fun C M h => by
      have : signCtxN C ⟨a, b⟩ M m sk = none := by
        unfold signCtxN
        dsimp only
        rw [e, h, Option.bind_eq_bind, Option.bind_none]
      unfold signatureN
      rw [this, Option.bind_eq_bind, Option.bind_none]
    rw [n C M hm, n C' M' hm']
  | some mat =>
    obtain ⟨a', h6, h⟩ := other_exists hl hm
    rw [← signatureN_congr m sk (h C), ← signatureN_congr m sk (h C'), signatureN_eq m sk h6, signatureN_eq m sk h6, signature_indep C C' _ _ _ hs]

theorem cryptoSignN_indep (m sk : Bytes) (hs : SKLEN ≤ sk.length) : cryptoSignN C H M m sk = cryptoSignN C' H M' m sk := by
  unfold cryptoSignN
  rw [signatureN_indep C C' H M M' m sk hs]

theorem verifyN_indep (sig m pk : Bytes) (hp : PKLEN ≤ pk.length) : verifyN C H M sig m pk = verifyN C' H M' sig m pk := by
  obtain ⟨a, b⟩ := H
  have hl : (pk.take 32).length = 32 := by
    rw [List.length_take]; simp only [PKLEN] at hp; omega
  cases hm : matrixExpandN C ⟨a, b⟩ (pk.take 32) with
  | none =>
    have hm' := hm
    rw [matrixExpandN_indep C C'] at hm'
    unfold verifyN
    have e : ∀ C M, (unpackPkP C M pk).1 = pk.take 32 := fun _ _ => rfl
    dsimp only
    rw [e, e, hm, hm']
    by_cases hs : sig.length = SIGLEN
    · rw [if_neg (by simp [hs]), if_neg (by simp [hs]), unpackSig_indep C C' sig hs]
      cases hu : unpackSig C' sig with
      | none => rfl
      | some x =>
        obtain ⟨c, z, h⟩ := x
        dsimp only
        have hr := (packSig_unpackSig sig c z h hs hu).2.2.1
        rw [vecChknorm_indep C C' z _ (by decide) (fun k i => by have := hr k i; simp only [GAMMA1] at *; omega)]
        simp only [Option.bind_eq_bind, Option.bind_none, Option.bind_fun_none]
    · rw [if_pos hs, if_pos hs]
  | some mat =>
    obtain ⟨a', h6, h⟩ := other_exists hl hm
    rw [← verifyN_congr sig m pk (h C), ← verifyN_congr sig m pk (h C'), verifyN_eq sig m pk hp h6, verifyN_eq sig m pk hp h6, verify_indep C C' _ _ _ _ hp]

theorem cryptoOpenN_indep (sm pk : Bytes) (hp : PKLEN ≤ pk.length) : cryptoOpenN C H M sm pk = cryptoOpenN C' H M' sm pk := by
  unfold cryptoOpenN
  rw [verifyN_indep C C' H M M' _ _ pk hp]

end Verif.Neon
