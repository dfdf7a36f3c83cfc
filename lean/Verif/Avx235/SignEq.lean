import Verif.Avx235.SignLoop
import Verif.Avx235.SignKey

/-! # AVX2 signing of dilithium3 and dilithium5 returns the portable signature -/

namespace Verif.Avx235

open Verif.Dilithium (Shake Poly CSem Bnd shake256 shake256_len polyt0Unpack_range)
open Verif.Dilithium35 (Mode Vec Mat matrixExpand matrixExpand_bnd vecNtt unpackSk SignCtx signCtx signLoop signAttempt signature cryptoSign polyetaUnpack_range forVec_const forVec_some)
open Verif.Avx2 (VPoly Junk Mach nttC ofP readB permP)

variable {C : CSem} {H : Shake} {md : Mode}

theorem nonce_step {n' : UInt64} {n : UInt16} (h : n'.toUInt16 = UInt16.ofNat md.L * n) : (n' + UInt64.ofNat md.L).toUInt16 = UInt16.ofNat md.L * (n + 1) := by
  rw [UInt64.toUInt16_add, h, UInt16.mul_add, UInt16.mul_one]
  cases md <;> rfl

theorem loop_fwd (J : Nat → PassJunk md) (x' : CtxA md) (x : SignCtx md)
    (hr : ∀ t sig n n', UInt64.toUInt16 n' = UInt16.ofNat md.L * n → AttemptRel md (signAttemptA md C H (J t) x' sig n') (signAttempt md C H x n))
    (sig : Nat → UInt8) (n' : UInt64) (t : Nat) (r : Nat → UInt8) (h : signLoopA md C H J x' sig n' t = some r) :
    ∀ n : UInt16, n'.toUInt16 = UInt16.ofNat md.L * n → signLoop md C H x n = some (readB r 0 md.SIGLEN) := by
  refine signLoopA.partial_correctness md C H J x' (motive := fun _ n' _ r => ∀ n : UInt16, n'.toUInt16 = UInt16.ofNat md.L * n → signLoop md C H x n = some (readB r 0 md.SIGLEN))
    ?_ sig n' t r h
  intro f ih sig n' t r h n hn
  have a := hr t sig n n' hn
  rw [signLoop.eq_def]
  cases hc : signAttempt md C H x n with
  | none => rw [hc] at a; rw [show signAttemptA _ _ _ _ _ _ _ = none from a] at h; cases h
  | some o =>
    rw [hc] at a
    cases o with
    | none =>
      obtain ⟨m, hm⟩ := a
      rw [hm] at h
      exact ih m (n' + UInt64.ofNat md.L) (t + 1) r h (n + 1) (nonce_step hn)
    | some s =>
      obtain ⟨m, hm, hs⟩ := a
      rw [hm] at h
      have : m = r := Option.some.inj h
      subst this
      rw [hs]; rfl

theorem loop_bwd (J : Nat → PassJunk md) (x' : CtxA md) (x : SignCtx md)
    (hr : ∀ t sig n n', UInt64.toUInt16 n' = UInt16.ofNat md.L * n → AttemptRel md (signAttemptA md C H (J t) x' sig n') (signAttempt md C H x n))
    (n : UInt16) (s : Bytes) (h : signLoop md C H x n = some s) :
    ∀ (sig : Nat → UInt8) (n' : UInt64) (t : Nat), n'.toUInt16 = UInt16.ofNat md.L * n → ∃ r, signLoopA md C H J x' sig n' t = some r := by
  refine signLoop.partial_correctness md C H x (motive := fun n _ => ∀ (sig : Nat → UInt8) (n' : UInt64) (t : Nat), n'.toUInt16 = UInt16.ofNat md.L * n →
    ∃ r, signLoopA md C H J x' sig n' t = some r) ?_ n s h
  intro f ih n s h sig n' t hn
  have a := hr t sig n n' hn
  rw [signLoopA.eq_def]
  cases hc : signAttempt md C H x n with
  | none => rw [hc] at h; cases h
  | some o =>
    rw [hc] at a h
    cases o with
    | none =>
      obtain ⟨m, hm⟩ := a
      rw [hm]
      exact ih (n + 1) s h m (n' + UInt64.ofNat md.L) (t + 1) (nonce_step hn)
    | some s' =>
      obtain ⟨m, hm, hs⟩ := a
      rw [hm]
      exact ⟨m, rfl⟩

theorem eta11 (md : Mode) : -11 ≤ md.etaMin ∧ (md.ETA : Int) ≤ 11 := by cases md <;> decide

theorem matA_some (J : RowJunk) {rho : Bytes} (hr : rho.length = 32) {mat : Mat md} (hm : matrixExpand md C H rho = some mat) (hx : Extra C md H rho) :
    (Dilithium35.forVec md.K fun i => rowMat md H J rho i) = some fun i j => permP (ofP (mat i j)) :=
  forVec_const _ _ _ fun i => rowMat_some J hr hm hx i

theorem matA_none (J : RowJunk) {rho : Bytes} (hr : rho.length = 32) (hx : ¬ Extra C md H rho) : (Dilithium35.forVec md.K fun i => rowMat md H J rho i) = none := by
  cases h : Dilithium35.forVec md.K fun i => rowMat md H J rho i with
  | none => rfl
  | some v =>
    have := forVec_some _ _ _ h ⟨0, by cases md <;> decide⟩
    rw [rowMat_none (C := C) J hr hx] at this
    cases this

theorem signatureA_none (J : SignJunk md) (m sk : Bytes) (hsk : 32 ≤ sk.length) (hx : ¬ Extra C md H (sk.take 32)) : signatureA md C H J m sk = none := by
  have hrho : (sk.take 32).length = 32 := by rw [List.length_take]; omega
  unfold signatureA signCtxA
  dsimp only
  rw [show (unpackSk md C sk).rho = sk.take 32 from rfl, matA_none (C := C) J.ctx.mat hrho hx]
  rfl

theorem signatureA_eq (J : SignJunk md) (m sk : Bytes) (hsk : 32 ≤ sk.length) (hx : Extra C md H (sk.take 32)) : signatureA md C H J m sk = signature md C H m sk := by
  have hrho : (sk.take 32).length = 32 := by rw [List.length_take]; omega
  obtain ⟨mat, hmat⟩ := mat_of_extra hx
  unfold signatureA signature signCtxA signCtx
  dsimp only
  rw [show (unpackSk md C sk).rho = sk.take 32 from rfl, matA_some (C := C) J.ctx.mat hrho hmat hx, hmat]
  simp only [Option.bind_eq_bind, Option.bind_some, Option.pure_def]
  have hr := fun t sig n n' (hn : UInt64.toUInt16 n' = UInt16.ofNat md.L * n) => signAttemptA_rel (C := C) (H := H) (J.pass t)
    (fun k => (J.ctx.s1 k).mach) (fun k => (J.ctx.s2 k).mach) (fun k => (J.ctx.t0 k).mach) sig (mu := shake256 H 64 ((unpackSk md C sk).tr ++ m))
    (rhoprime := shake256 H 64 ((unpackSk md C sk).key ++ List.replicate 32 0 ++ shake256 H 64 ((unpackSk md C sk).tr ++ m))) (shake256_len _ _)
    (matrixExpand_bnd hmat) (s1 := (unpackSk md C sk).s1) (s2 := (unpackSk md C sk).s2) (t0 := (unpackSk md C sk).t0)
    (fun k i => by have := polyetaUnpack_range (C := C) md (sk.drop (128 + k.1 * md.ETABYTES)) i; exact ⟨(eta11 md).1.trans this.1, this.2.trans (eta11 md).2⟩)
    (fun k i => by have := polyetaUnpack_range (C := C) md (sk.drop (128 + md.L * md.ETABYTES + k.1 * md.ETABYTES)) i; exact ⟨(eta11 md).1.trans this.1, this.2.trans (eta11 md).2⟩)
    (fun k i => by have := polyt0Unpack_range (C := C) (sk.drop (128 + md.L * md.ETABYTES + md.K * md.ETABYTES + k.1 * 416)) i; exact ⟨this.1.le, this.2⟩) hn
  have h0 : (0 : UInt64).toUInt16 = UInt16.ofNat md.L * (0 : UInt16) := by cases md <;> rfl
  cases hs : signLoopA md C H J.pass _ J.sig 0 0 with
  | some r => exact (loop_fwd J.pass _ _ hr J.sig 0 0 r hs 0 h0).symm
  | none =>
    cases hl : signLoop md C H _ 0 with
    | none => rfl
    | some s =>
      obtain ⟨r, h⟩ := loop_bwd J.pass _ _ hr 0 s hl J.sig 0 0 h0
      rw [h] at hs; cases hs

theorem signatureA_iff (J : SignJunk md) (m sk sig : Bytes) (hsk : 32 ≤ sk.length) :
    signatureA md C H J m sk = some sig ↔ signature md C H m sk = some sig ∧ Extra C md H (sk.take 32) := by
  by_cases hx : Extra C md H (sk.take 32)
  · rw [signatureA_eq J m sk hsk hx]; exact ⟨fun h => ⟨h, hx⟩, fun h => h.1⟩
  · rw [signatureA_none J m sk hsk hx]; exact ⟨fun h => (nomatch h), fun h => absurd h.2 hx⟩

theorem cryptoSignA_iff (J : SignJunk md) (m sk sm : Bytes) (hsk : 32 ≤ sk.length) :
    cryptoSignA md C H J m sk = some sm ↔ cryptoSign md C H m sk = some sm ∧ Extra C md H (sk.take 32) := by
  by_cases hx : Extra C md H (sk.take 32)
  · unfold cryptoSignA cryptoSign
    rw [signatureA_eq J m sk hsk hx]; exact ⟨fun h => ⟨h, hx⟩, fun h => h.1⟩
  · unfold cryptoSignA
    rw [signatureA_none J m sk hsk hx]; exact ⟨fun h => (nomatch h), fun h => absurd h.2 hx⟩

end Verif.Avx235
