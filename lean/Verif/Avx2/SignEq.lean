import Verif.Avx2.SignLoop

/-! # AVX2 signing returns the portable signature -/

namespace Verif.Avx2

open Verif.Dilithium

variable {C : CSem} {H : Shake}

theorem nonce_step {n' : UInt64} {n : UInt16} (h : n'.toUInt16 = 4 * n) : (n' + 4).toUInt16 = 4 * (n + 1) := by
  rw [UInt64.toUInt16_add, h, UInt16.mul_add, UInt16.mul_one]
  rfl

theorem loop_fwd (J : LoopJunk) (x' : CtxA) (x : SignCtx)
    (hr : ∀ t sig n n', UInt64.toUInt16 n' = 4 * n → AttemptRel (signAttemptA C H (J.y t) (J.chal t) (J.a t) (J.b t) (J.c t) x' sig n') (signAttempt C H x n))
    (sig : Nat → UInt8) (n' : UInt64) (t : Nat) (r : Nat → UInt8) (h : signLoopA C H J x' sig n' t = some r) :
    ∀ n : UInt16, n'.toUInt16 = 4 * n → signLoop C H x n = some (readB r 0 2420) := by
  refine signLoopA.partial_correctness C H J x' (motive := fun _ n' _ r => ∀ n : UInt16, n'.toUInt16 = 4 * n → signLoop C H x n = some (readB r 0 2420))
    ?_ sig n' t r h
  intro f ih sig n' t r h n hn
  have a := hr t sig n n' hn
  rw [signLoop.eq_def]
  cases hc : signAttempt C H x n with
  | none => rw [hc] at a; rw [show signAttemptA _ _ _ _ _ _ _ _ _ _ = none from a] at h; cases h
  | some o =>
    rw [hc] at a
    cases o with
    | none =>
      obtain ⟨m, hm⟩ := a
      rw [hm] at h
      exact ih m (n' + 4) (t + 1) r h (n + 1) (nonce_step hn)
    | some s =>
      obtain ⟨m, hm, hs⟩ := a
      rw [hm] at h
      have : m = r := Option.some.inj h
      subst this
      rw [hs]; rfl

theorem loop_bwd (J : LoopJunk) (x' : CtxA) (x : SignCtx)
    (hr : ∀ t sig n n', UInt64.toUInt16 n' = 4 * n → AttemptRel (signAttemptA C H (J.y t) (J.chal t) (J.a t) (J.b t) (J.c t) x' sig n') (signAttempt C H x n))
    (n : UInt16) (s : Bytes) (h : signLoop C H x n = some s) :
    ∀ (sig : Nat → UInt8) (n' : UInt64) (t : Nat), n'.toUInt16 = 4 * n → ∃ r, signLoopA C H J x' sig n' t = some r := by
  refine signLoop.partial_correctness C H x (motive := fun n _ => ∀ (sig : Nat → UInt8) (n' : UInt64) (t : Nat), n'.toUInt16 = 4 * n →
    ∃ r, signLoopA C H J x' sig n' t = some r) ?_ n s h
  intro f ih n s h sig n' t hn
  have a := hr t sig n n' hn
  rw [signLoopA.eq_def]
  cases hc : signAttempt C H x n with
  | none => rw [hc] at h; cases h
  | some o =>
    rw [hc] at a h
    cases o with
    | none =>
      obtain ⟨m, hm⟩ := a
      rw [hm]
      exact ih (n + 1) s h m (n' + 4) (t + 1) (nonce_step hn)
    | some s' =>
      obtain ⟨m, hm, hs⟩ := a
      rw [hm]
      exact ⟨m, rfl⟩

theorem signatureA_eq (J : SignJunk) (m sk : Bytes) (hsk : 32 ≤ sk.length) : signatureA C H J m sk = signature C H m sk := by
  have hrho : (unpackSk C sk).rho.length = 32 := by show (sk.take 32).length = 32; rw [List.length_take]; omega
  unfold signatureA signature signCtxA signCtx
  dsimp only
  rw [matrixA_eq (C := C) _ hrho]
  cases hmat : matrixExpand C H (unpackSk C sk).rho with
  | none => rfl
  | some mat =>
  rw [Option.map_some]
  simp only [Option.bind_eq_bind, Option.bind_some, Option.pure_def]
  have hr := fun t sig n n' (hn : UInt64.toUInt16 n' = 4 * n) => signAttemptA_rel (C := C) (H := H) (J.loop.y t) (J.loop.chal t) (J.loop.a t) (J.loop.b t) (J.loop.c t)
    (fun k => (J.vec 0 k).mach) (fun k => (J.vec 1 k).mach) (fun k => (J.vec 2 k).mach) sig (mu := shake256 H 64 ((unpackSk C sk).tr ++ m))
    (rhoprime := shake256 H 64 ((unpackSk C sk).key ++ List.replicate 32 0 ++ shake256 H 64 ((unpackSk C sk).tr ++ m))) (shake256_len _ _)
    (matrixExpand_bnd hmat) (s1 := (unpackSk C sk).s1) (s2 := (unpackSk C sk).s2) (t0 := (unpackSk C sk).t0)
    (fun k i => by have := polyetaUnpack_range (C := C) (sk.drop (128 + k.1 * 96)) i; exact ⟨this.1, this.2.trans (by decide)⟩)
    (fun k i => by have := polyetaUnpack_range (C := C) (sk.drop (512 + k.1 * 96)) i; exact ⟨this.1, this.2.trans (by decide)⟩)
    (fun k i => by have := polyt0Unpack_range (C := C) (sk.drop (896 + k.1 * 416)) i; exact ⟨this.1.le, this.2⟩) hn
  have h0 : (0 : UInt64).toUInt16 = 4 * (0 : UInt16) := rfl
  cases hs : signLoopA C H J.loop _ J.sig 0 0 with
  | some r => exact (loop_fwd J.loop _ _ hr J.sig 0 0 r hs 0 h0).symm
  | none =>
    cases hl : signLoop C H _ 0 with
    | none => rfl
    | some s =>
      obtain ⟨r, h⟩ := loop_bwd J.loop _ _ hr 0 s hl J.sig 0 0 h0
      rw [h] at hs; cases hs

theorem cryptoSignA_eq (J : SignJunk) (m sk : Bytes) (hsk : 32 ≤ sk.length) : cryptoSignA C H J m sk = cryptoSign C H m sk := by
  unfold cryptoSignA cryptoSign
  rw [signatureA_eq J m sk hsk]

end Verif.Avx2
