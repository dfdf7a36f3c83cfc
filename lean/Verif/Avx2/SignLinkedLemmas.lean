import Verif.Avx2.SignLinked
import Verif.Avx2.SampleLinkedLemmas
import Verif.Avx2.VerifyEq

/-! # The functions of `SignLinked.lean` compute what those of `Sign.lean` compute with `fipsShake` -/

namespace Verif.Avx2.Linked

open Verif.Dilithium (CSem unpackSk)
open Verif.Dilithium.Linked (bytesAt hash2 polyChallenge hash2_eq polyChallenge_eq bytesAt_eq shake256_len)
open Verif.Keccak (Oob)
open Verif.Props (fipsShake C84_shake256_is_model)

variable (C : CSem) (O : Oob)

theorem expandRow_eq (K : KJ) (J : Fin 5 → Junk) (rho : Bytes) (h : rho.length = 32) (i : Fin 4) :
    expandRow K J rho i = Avx2.expandRow fipsShake J rho i := by
  unfold expandRow Avx2.expandRow
  rw [X4.polyUniform4x_model K.R K.s (J 0) rho h]

theorem keypairStep_eq (K : Fin 4 → KJ) (J : Fin 4 → Fin 10 → Junk) (rho : Bytes) (h : rho.length = 32) :
    keypairStep C K J rho = Avx2.keypairStep C fipsShake J rho := by
  funext s1hat s2 st i
  unfold keypairStep Avx2.keypairStep
  rw [expandRow_eq _ _ _ h]

theorem keypairA_eq (K : Fin 2 → KJ) (K' : Fin 4 → KJ) (J : Fin 8 → Junk) (J' : Fin 4 → Fin 10 → Junk) (coins : Bytes) :
    keypairA C O K K' J J' coins = Avx2.keypairA C fipsShake J J' coins := by
  unfold keypairA Avx2.keypairA
  rw [C84_shake256_is_model, Option.bind_eq_bind, Option.bind_some]
  have hl := shake256_len fipsShake 128 (coins.take 32)
  generalize Dilithium.shake256 fipsShake 128 (coins.take 32) = sb at hl ⊢
  have h1 : (sb.take 32).length = 32 := by rw [List.length_take, hl]; rfl
  have h2 : ((sb.drop 32).take 64).length = 64 := by rw [List.length_take, List.length_drop, hl]; rfl
  dsimp only
  rw [X4.polyUniformEta4x_model _ _ _ _ h2, X4.polyUniformEta4x_model _ _ _ _ h2, keypairStep_eq C _ _ _ h1]
  simp only [C84_shake256_is_model, Option.bind_eq_bind, Option.bind_some]

theorem signCtxA_eq (K : Fin 4 → KJ) (J : Fin 3 → Fin 4 → Junk) (J' : Fin 4 → Fin 5 → Junk) (m sk : Bytes) (h : sk.length = 2560) :
    signCtxA C O K J J' m sk = Avx2.signCtxA C fipsShake J J' m sk := by
  have h1 : (unpackSk C sk).rho.length = 32 := by
    simp only [unpackSk, List.length_take, h]; rfl
  unfold signCtxA Avx2.signCtxA
  dsimp only
  rw [hash2_eq, Option.bind_eq_bind, Option.bind_some, C84_shake256_is_model, Option.bind_eq_bind, Option.bind_some]
  simp only [expandRow_eq _ _ _ h1]

theorem readB_length (m : Nat → UInt8) (off n : Nat) : (readB m off n).length = n := by simp [readB]

theorem respondA_eq : respondA C O = Avx2.respondA C fipsShake := by
  funext J J1 J2 x sig z w1
  unfold respondA Avx2.respondA
  dsimp only
  rw [hash2_eq, Option.bind_eq_bind, Option.bind_some, polyChallenge_eq C O _ (readB_length _ _ _)]

theorem signAttemptA_eq (K : KJ) (Jy Jc : Junk) (J : Fin 3 → Fin 4 → Junk) (J1 : Fin 4 → Fin 2 → Junk) (J2 : Fin 4 → Fin 5 → Junk) (x : CtxA)
    (hx : x.rhoprime.length = 64) (sig : Nat → UInt8) (nonce : UInt64) :
    signAttemptA C O K Jy Jc J J1 J2 x sig nonce = Avx2.signAttemptA C fipsShake Jy Jc J J1 J2 x sig nonce := by
  unfold signAttemptA Avx2.signAttemptA
  rw [X4.polyUniformGamma14x_model _ _ _ _ hx, Option.bind_eq_bind, Option.bind_some, respondA_eq]

theorem signLoopA_eq (K : Nat → KJ) (J : LoopJunk) (x : CtxA) (hx : x.rhoprime.length = 64) (sig : Nat → UInt8) (nonce : UInt64) (t : Nat) :
    signLoopA C O K J x sig nonce t = Avx2.signLoopA C fipsShake J x sig nonce t := by
  apply Dilithium.Linked.opt_ext
  · intro r hr
    refine signLoopA.partial_correctness C O K J x (motive := fun sig nonce t r => Avx2.signLoopA C fipsShake J x sig nonce t = some r) ?_ sig nonce t r hr
    intro loop ih sig nonce t r hr
    rw [Avx2.signLoopA]
    rw [signAttemptA_eq C O _ _ _ _ _ _ x hx] at hr
    generalize Avx2.signAttemptA C fipsShake (J.y t) (J.chal t) (J.a t) (J.b t) (J.c t) x sig nonce = o at hr ⊢
    cases o with
    | none => exact absurd hr (by simp)
    | some o =>
      obtain ⟨sig', done⟩ := o
      cases done with
      | true => exact hr
      | false => exact ih _ _ _ _ hr
  · intro r hr
    refine Avx2.signLoopA.partial_correctness C fipsShake J x (motive := fun sig nonce t r => signLoopA C O K J x sig nonce t = some r) ?_ sig nonce t r hr
    intro loop ih sig nonce t r hr
    rw [signLoopA, signAttemptA_eq C O _ _ _ _ _ _ x hx]
    generalize Avx2.signAttemptA C fipsShake (J.y t) (J.chal t) (J.a t) (J.b t) (J.c t) x sig nonce = o at hr ⊢
    cases o with
    | none => exact absurd hr (by simp)
    | some o =>
      obtain ⟨sig', done⟩ := o
      cases done with
      | true => exact hr
      | false => exact ih _ _ _ _ hr

theorem signCtxA_rhoprime (H : Dilithium.Shake) (J : Fin 3 → Fin 4 → Junk) (J' : Fin 4 → Fin 5 → Junk) (m sk : Bytes) (x : CtxA)
    (hx : Avx2.signCtxA C H J J' m sk = some x) : x.rhoprime.length = 64 := by
  unfold Avx2.signCtxA at hx
  dsimp only at hx
  rw [Option.bind_eq_bind] at hx
  generalize Dilithium.forVec (fun i => Avx2.expandRow H (J' i) (unpackSk C sk).rho i) = o at hx
  cases o with
  | none => exact absurd hx (by simp)
  | some mat =>
    rw [Option.bind_some] at hx
    obtain rfl := Option.some.inj hx
    exact shake256_len _ _ _

theorem signatureA_eq (K : Fin 4 → KJ) (K' : Nat → KJ) (J : SignJunk) (m sk : Bytes) (h : sk.length = 2560) :
    signatureA C O K K' J m sk = Avx2.signatureA C fipsShake J m sk := by
  unfold signatureA Avx2.signatureA
  rw [signCtxA_eq C O _ _ _ _ _ h]
  cases hx : Avx2.signCtxA C fipsShake J.vec J.mat m sk with
  | none => rfl
  | some x =>
    rw [Option.bind_eq_bind, Option.bind_some, signLoopA_eq C O K' J.loop x (signCtxA_rhoprime C fipsShake _ _ _ _ _ hx)]
    rfl

theorem cryptoSignA_eq (K : Fin 4 → KJ) (K' : Nat → KJ) (J : SignJunk) (m sk : Bytes) (h : sk.length = 2560) :
    cryptoSignA C O K K' J m sk = Avx2.cryptoSignA C fipsShake J m sk := by
  unfold cryptoSignA Avx2.cryptoSignA
  rw [signatureA_eq C O K K' J m sk h]

theorem verifyRow_eq (K : Fin 4 → KJ) (J : Fin 4 → Fin 5 → Junk) (J' : Fin 4 → Fin 4 → Junk) (sig pk : Bytes) (h : pk.length = 1312) (c : VPoly)
    (z : Fin 4 → VPoly) : verifyRow C K J J' sig pk c z = Avx2.verifyRow C fipsShake J J' sig pk c z := by
  funext st i
  unfold verifyRow Avx2.verifyRow
  rw [expandRow_eq _ _ _ (by rw [List.length_take, h]; rfl)]

theorem verifyRows_eq (K : Fin 4 → KJ) (J : Fin 4 → Fin 5 → Junk) (J' : Fin 4 → Fin 4 → Junk) (sig pk : Bytes) (h : pk.length = 1312) (c : VPoly)
    (z : Fin 4 → VPoly) (l : List (Fin 4)) : ∀ st, verifyRows C K J J' sig pk c z l st = Avx2.verifyRows C fipsShake J J' sig pk c z l st := by
  induction l with
  | nil => intro st; rfl
  | cons i l ih =>
    intro st
    rw [verifyRows, Avx2.verifyRows, verifyRow_eq C K J J' sig pk h, show verifyRows C K J J' sig pk c z l = Avx2.verifyRows C fipsShake J J' sig pk c z l from funext ih]

theorem verifyEnd_eq (sig mu : Bytes) (st : (Nat → UInt8) × Nat) : verifyEnd C O sig mu st = some (Avx2.verifyEnd C fipsShake sig mu st) := by
  unfold verifyEnd Avx2.verifyEnd
  split
  · rfl
  · rw [hash2_eq, Option.bind_eq_bind, Option.bind_some]
    rfl

theorem challenge_at (sig : Bytes) (h : 32 ≤ sig.length) : polyChallenge C O sig = Dilithium.polyChallenge C fipsShake sig := by
  have e : bytesAt C 32 sig = bytesAt C 32 (sig.take 32) := by
    unfold bytesAt
    apply List.map_congr_left
    intro i hi
    rw [List.mem_range] at hi
    rw [List.getD_eq_getElem _ _ (by omega), List.getD_eq_getElem _ _ (by rw [List.length_take]; omega), List.getElem_take]
  rw [← polyChallenge_take, ← polyChallenge_eq C O _ (by rw [List.length_take]; omega)]
  unfold polyChallenge
  rw [e]

theorem verifyA_eq (K : Fin 4 → KJ) (J : VerifyJunk) (sig m pk : Bytes) (h : pk.length = 1312) :
    verifyA C O K J sig m pk = Avx2.verifyA C fipsShake J sig m pk := by
  unfold verifyA Avx2.verifyA
  by_cases hs : sig.length ≠ 2420
  · rw [if_pos hs, if_pos hs]
  rw [if_neg hs, if_neg hs]
  rw [C84_shake256_is_model, Option.bind_eq_bind, Option.bind_some, hash2_eq, Option.bind_eq_bind, Option.bind_some, challenge_at C O _ (by omega)]
  dsimp only
  cases Dilithium.polyChallenge C fipsShake sig with
  | none => rfl
  | some c =>
    rw [Option.bind_eq_bind, Option.bind_some, Option.bind_some, verifyRows_eq C K J.row J.mul sig pk h]
    generalize Avx2.verifyRows C fipsShake _ _ _ _ _ _ _ _ = o
    cases o with
    | none => rfl
    | some o =>
      cases o with
      | none => rfl
      | some st => exact verifyEnd_eq C O sig _ st

theorem cryptoOpenA_eq (K : Fin 4 → KJ) (J : VerifyJunk) (sm pk : Bytes) (h : pk.length = 1312) :
    cryptoOpenA C O K J sm pk = Avx2.cryptoOpenA C fipsShake J sm pk := by
  unfold cryptoOpenA Avx2.cryptoOpenA
  rw [verifyA_eq C O K J _ _ _ h]

end Verif.Avx2.Linked
