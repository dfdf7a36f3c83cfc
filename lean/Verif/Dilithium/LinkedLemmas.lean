import Verif.Props.Keccak
import Verif.Dilithium.Linked
import Verif.Dilithium.KeyPack
import Mathlib.Tactic.FinCases

/-! # The functions of `Linked.lean` compute what the stream model computes with `fipsShake` -/

namespace Verif.Dilithium.Linked
open Verif Verif.Keccak Verif.Props

/-- Every sequence of squeeze calls from the context `c` returns the slices of `st` from `pos` on. -/
def Reads (sq : Nat → Keccak.Inc → Option (Bytes × Keccak.Inc)) (st : Nat → UInt8) (pos : Nat) (c : Keccak.Inc) : Prop := ∀ ns, squeezes sq c ns = some (slices st pos ns)

theorem Reads.step {sq : Nat → Keccak.Inc → Option (Bytes × Keccak.Inc)} {st : Nat → UInt8} {pos : Nat} {c : Keccak.Inc} (h : Reads sq st pos c) (n : Nat) :
    ∃ c', sq n c = some (squeeze st pos n, c') ∧ Reads sq st (pos + n) c' := by
  have h1 := h [n]
  cases hs : sq n c with
  | none => simp [squeezes, hs] at h1
  | some p =>
    obtain ⟨o, c'⟩ := p
    have h1 : some [o] = some [squeeze st pos n] := by rw [← show squeezes sq c [n] = some [o] from by simp [squeezes, hs]]; exact h1
    simp only [Option.some.injEq, List.cons.injEq, and_true] at h1
    refine ⟨c', by rw [h1], fun ns => ?_⟩
    have h2 := h (n :: ns)
    simp only [squeezes, hs, slices, Option.bind_eq_bind, Option.bind_some] at h2
    cases h3 : squeezes sq c' ns with
    | none => simp [h3] at h2
    | some l => simp [h3] at h2; rw [h2.2]

variable (C : CSem) (O : Oob)

theorem reads256 (ms : List Bytes) : ∃ c, ms.foldlM (shake256IncAbsorb O) shake256IncInit = some c ∧
    Reads (shake256IncSqueeze O) (fipsShake.shake256 ms.flatten) 0 (shake256IncFinalize O c) := by
  cases hc : ms.foldlM (shake256IncAbsorb O) shake256IncInit with
  | none =>
    have := C84_shake256_inc_is_model O ms []
    simp [runInc, hc] at this
  | some c =>
    refine ⟨c, rfl, fun ns => ?_⟩
    rw [← C84_shake256_inc_is_model O ms ns, runInc, hc]; rfl

theorem reads128 (ms : List Bytes) : ∃ c, ms.foldlM (shake128IncAbsorb O) shake128IncInit = some c ∧
    Reads (shake128IncSqueeze O) (fipsShake.shake128 ms.flatten) 0 (shake128IncFinalize O c) := by
  cases hc : ms.foldlM (shake128IncAbsorb O) shake128IncInit with
  | none =>
    have := C84_shake128_inc_is_model O ms []
    simp [runInc, hc] at this
  | some c =>
    refine ⟨c, rfl, fun ns => ?_⟩
    rw [← C84_shake128_inc_is_model O ms ns, runInc, hc]; rfl

theorem bytesAt_eq (n : Nat) (b : Bytes) (h : b.length = n) : bytesAt C n b = b := by
  apply List.ext_getElem
  · simp [bytesAt, h]
  · intro i h1 h2
    simp only [bytesAt, List.getElem_map, List.getElem_range, List.getD_eq_getElem?_getD, List.getElem?_eq_getElem h2, Option.getD_some]

theorem bytesAt_take (n : Nat) (b : Bytes) (h : n ≤ b.length) : bytesAt C n b = b.take n := by
  apply List.ext_getElem
  · simp [bytesAt, h]
  · intro i h1 h2
    have : i < b.length := by simp [bytesAt] at h1; omega
    simp only [bytesAt, List.getElem_map, List.getElem_range, List.getD_eq_getElem?_getD, List.getElem?_eq_getElem this, Option.getD_some, List.getElem_take]

theorem stream128Init_eq (seed : Bytes) (hs : seed.length = 32) (nonce : UInt16) :
    ∃ c, stream128Init C O seed nonce = some c ∧ Reads (shake128IncSqueeze O) (stream128 fipsShake seed nonce) 0 c := by
  obtain ⟨c, h1, h2⟩ := reads128 O [seed, nonceBytes nonce]
  refine ⟨shake128IncFinalize O c, ?_, ?_⟩
  · unfold stream128Init
    rw [bytesAt_eq C _ _ hs]
    simp only [List.foldlM_cons, List.foldlM_nil, Option.bind_eq_bind] at h1
    cases h3 : shake128IncAbsorb O shake128IncInit seed with
    | none => simp [h3] at h1
    | some c1 =>
      simp only [h3, Option.bind_some] at h1
      cases h4 : shake128IncAbsorb O c1 (nonceBytes nonce) with
      | none => simp [h4] at h1
      | some c2 => simp [h4] at h1; subst h1; simp [h4]
  · simpa [stream128] using h2

theorem stream256Init_eq (seed : Bytes) (hs : seed.length = 64) (nonce : UInt16) :
    ∃ c, stream256Init C O seed nonce = some c ∧ Reads (shake256IncSqueeze O) (stream256 fipsShake seed nonce) 0 c := by
  obtain ⟨c, h1, h2⟩ := reads256 O [seed, nonceBytes nonce]
  refine ⟨shake256IncFinalize O c, ?_, ?_⟩
  · unfold stream256Init
    rw [bytesAt_eq C _ _ hs]
    simp only [List.foldlM_cons, List.foldlM_nil, Option.bind_eq_bind] at h1
    cases h3 : shake256IncAbsorb O shake256IncInit seed with
    | none => simp [h3] at h1
    | some c1 =>
      simp only [h3, Option.bind_some] at h1
      cases h4 : shake256IncAbsorb O c1 (nonceBytes nonce) with
      | none => simp [h4] at h1
      | some c2 => simp [h4] at h1; subst h1; simp [h4]
  · simpa [stream256] using h2

theorem hash2_eq (n : Nat) (a b : Bytes) : hash2 O n a b = some (Dilithium.shake256 fipsShake n (a ++ b)) := by
  obtain ⟨c, h1, h2⟩ := reads256 O [a, b]
  obtain ⟨c', h5, _⟩ := h2.step n
  unfold hash2
  simp only [List.foldlM_cons, List.foldlM_nil, Option.bind_eq_bind] at h1
  cases h3 : shake256IncAbsorb O shake256IncInit a with
  | none => simp [h3] at h1
  | some c1 =>
    simp only [h3, Option.bind_some] at h1
    cases h4 : shake256IncAbsorb O c1 b with
    | none => simp [h4] at h1
    | some c2 => simp [h4] at h1; subst h1; simp [h4, h5, Dilithium.shake256]

theorem opt_ext {α : Type} {x y : Option α} (h1 : ∀ a, x = some a → y = some a) (h2 : ∀ a, y = some a → x = some a) : x = y := by
  cases x with
  | none =>
    cases y with
    | none => rfl
    | some a => exact absurd (h2 a rfl) (by simp)
  | some a => exact (h1 a rfl).symm

theorem uniformLoop_eq (st : Nat → UInt8) (acc : List Int) (buf : Bytes) (pos : Nat) (c : Keccak.Inc) (h : Reads (shake128IncSqueeze O) st pos c) :
    uniformLoop O acc buf c = Dilithium.uniformLoop st acc buf pos := by
  apply opt_ext
  · intro r hr
    refine uniformLoop.partial_correctness O (motive := fun acc buf c r => ∀ pos, Reads (shake128IncSqueeze O) st pos c →
      Dilithium.uniformLoop st acc buf pos = some r) ?_ acc buf c r hr pos h
    intro loop ih acc buf c r hr pos h
    obtain ⟨c', h1, h2⟩ := h.step 168
    rw [Dilithium.uniformLoop]
    split at hr
    · rename_i hl
      rw [if_pos hl]
      rw [h1] at hr
      exact ih _ _ _ _ hr _ h2
    · rename_i hl
      rw [if_neg hl]; exact hr
  · intro r hr
    refine Dilithium.uniformLoop.partial_correctness st (motive := fun acc buf pos r => ∀ c, Reads (shake128IncSqueeze O) st pos c →
      uniformLoop O acc buf c = some r) ?_ acc buf pos r hr c h
    intro loop ih acc buf pos r hr c h
    obtain ⟨c', h1, h2⟩ := h.step 168
    rw [uniformLoop]
    split at hr
    · rename_i hl
      rw [if_pos hl]
      rw [show 1 * 168 = 168 from rfl, h1]
      exact ih _ _ _ _ hr _ h2
    · rename_i hl
      rw [if_neg hl]; exact hr

theorem polyUniform_eq (seed : Bytes) (hs : seed.length = 32) (nonce : UInt16) : polyUniform C O seed nonce = Dilithium.polyUniform C fipsShake seed nonce := by
  obtain ⟨c, h1, h2⟩ := stream128Init_eq C O seed hs nonce
  obtain ⟨c', h3, h4⟩ := h2.step 840
  unfold polyUniform Dilithium.polyUniform
  rw [h1]
  simp only [Option.bind_eq_bind, Option.bind_some, Nat.reduceMul, h3]
  rw [uniformLoop_eq O _ _ _ _ _ h4]
  cases Dilithium.uniformLoop (stream128 fipsShake seed nonce) (rejUniform 256 (squeeze (stream128 fipsShake seed nonce) 0 840))
    (squeeze (stream128 fipsShake seed nonce) 0 840) 840 <;> rfl

theorem etaLoop_eq (st : Nat → UInt8) (acc : List Int) (pos : Nat) (c : Keccak.Inc) (h : Reads (shake256IncSqueeze O) st pos c) :
    etaLoop O acc c = Dilithium.etaLoop st acc pos := by
  apply opt_ext
  · intro r hr
    refine etaLoop.partial_correctness O (motive := fun acc c r => ∀ pos, Reads (shake256IncSqueeze O) st pos c →
      Dilithium.etaLoop st acc pos = some r) ?_ acc c r hr pos h
    intro loop ih acc c r hr pos h
    obtain ⟨c', h1, h2⟩ := h.step 136
    rw [Dilithium.etaLoop]
    split at hr
    · rename_i hl
      rw [if_pos hl]
      rw [h1] at hr
      exact ih _ _ _ hr _ h2
    · rename_i hl
      rw [if_neg hl]; exact hr
  · intro r hr
    refine Dilithium.etaLoop.partial_correctness st (motive := fun acc pos r => ∀ c, Reads (shake256IncSqueeze O) st pos c →
      etaLoop O acc c = some r) ?_ acc pos r hr c h
    intro loop ih acc pos r hr c h
    obtain ⟨c', h1, h2⟩ := h.step 136
    rw [etaLoop]
    split at hr
    · rename_i hl
      rw [if_pos hl]
      rw [show 1 * 136 = 136 from rfl, h1]
      exact ih _ _ _ hr _ h2
    · rename_i hl
      rw [if_neg hl]; exact hr

theorem polyUniformEta_eq (seed : Bytes) (hs : seed.length = 64) (nonce : UInt16) :
    polyUniformEta C O seed nonce = Dilithium.polyUniformEta C fipsShake seed nonce := by
  obtain ⟨c, h1, h2⟩ := stream256Init_eq C O seed hs nonce
  obtain ⟨c', h3, h4⟩ := h2.step 136
  unfold polyUniformEta Dilithium.polyUniformEta
  rw [h1]
  simp only [Option.bind_eq_bind, Option.bind_some, Nat.reduceMul, h3]
  rw [etaLoop_eq O _ _ _ _ h4]
  cases Dilithium.etaLoop (stream256 fipsShake seed nonce) (rejEta 256 (squeeze (stream256 fipsShake seed nonce) 0 136)) 136 <;> rfl

theorem polyUniformGamma1_eq (seed : Bytes) (hs : seed.length = 64) (nonce : UInt16) :
    polyUniformGamma1 C O seed nonce = some (Dilithium.polyUniformGamma1 C fipsShake seed nonce) := by
  obtain ⟨c, h1, h2⟩ := stream256Init_eq C O seed hs nonce
  obtain ⟨c', h3, h4⟩ := h2.step 680
  unfold polyUniformGamma1 Dilithium.polyUniformGamma1
  rw [h1]
  simp only [Option.bind_eq_bind, Option.bind_some, Nat.reduceMul, h3]
  rfl

/-- The two states of the challenge loop correspond. -/
structure Same (st : Nat → UInt8) (x : ChalSt) (y : Dilithium.ChalSt) : Prop where
  buf : x.buf = y.buf
  pos : x.pos = y.pos
  reads : Reads (shake256IncSqueeze O) st y.off x.state

theorem refill_eq (st : Nat → UInt8) (x : ChalSt) (y : Dilithium.ChalSt) (h : Same O st x y) :
    ∃ x', refill O x = some x' ∧ Same O st x' (if y.pos ≥ 136 then ⟨squeeze st y.off 136, 0, y.off + 136⟩ else y) := by
  unfold refill
  rw [h.pos]
  split
  · obtain ⟨c', h1, h2⟩ := h.reads.step 136
    exact ⟨⟨squeeze st y.off 136, 0, c'⟩, by rw [h1]; rfl, ⟨rfl, rfl, h2⟩⟩
  · exact ⟨x, rfl, h⟩

theorem chalByte_eq (st : Nat → UInt8) (i : Nat) (x : ChalSt) (y : Dilithium.ChalSt) (h : Same O st x y) :
    (∀ r, chalByte C O i x = some r → ∃ r', Dilithium.chalByte C st i y = some r' ∧ r.1 = r'.1 ∧ Same O st r.2 r'.2) ∧
    (∀ r', Dilithium.chalByte C st i y = some r' → ∃ r, chalByte C O i x = some r ∧ r.1 = r'.1 ∧ Same O st r.2 r'.2) := by
  constructor
  · intro r hr
    refine chalByte.partial_correctness C O i (motive := fun x r => ∀ y, Same O st x y →
      ∃ r', Dilithium.chalByte C st i y = some r' ∧ r.1 = r'.1 ∧ Same O st r.2 r'.2) ?_ x r hr y h
    intro loop ih x r hr y h
    obtain ⟨x', h1, h2⟩ := refill_eq O st x y h
    rw [Dilithium.chalByte]
    rw [h1] at hr
    simp only [Option.bind_eq_bind, Option.bind_some] at hr
    rw [h2.buf, h2.pos] at hr
    generalize (if y.pos ≥ 136 then (⟨squeeze st y.off 136, 0, y.off + 136⟩ : Dilithium.ChalSt) else y) = y' at hr h2 ⊢
    split at hr
    · rename_i hl
      rw [if_pos hl]
      exact ih _ _ hr _ ⟨rfl, rfl, h2.reads⟩
    · rename_i hl
      rw [if_neg hl]
      cases hr
      exact ⟨_, rfl, rfl, ⟨rfl, rfl, h2.reads⟩⟩
  · intro r' hr
    refine Dilithium.chalByte.partial_correctness C st i (motive := fun y r' => ∀ x, Same O st x y →
      ∃ r, chalByte C O i x = some r ∧ r.1 = r'.1 ∧ Same O st r.2 r'.2) ?_ y r' hr x h
    intro loop ih y r' hr x h
    obtain ⟨x', h1, h2⟩ := refill_eq O st x y h
    rw [chalByte, h1]
    simp only [Option.bind_eq_bind, Option.bind_some]
    rw [h2.buf, h2.pos]
    dsimp only at hr
    generalize (if y.pos ≥ 136 then (⟨squeeze st y.off 136, 0, y.off + 136⟩ : Dilithium.ChalSt) else y) = y' at hr h2 ⊢
    split at hr
    · rename_i hl
      rw [if_pos hl]
      exact ih _ _ hr _ ⟨rfl, rfl, h2.reads⟩
    · rename_i hl
      rw [if_neg hl]
      cases hr
      exact ⟨_, rfl, rfl, ⟨rfl, rfl, h2.reads⟩⟩

theorem chalFold_eq (st : Nat → UInt8) (is : List Nat) (p : Poly) (s : Nat) (x : ChalSt) (y : Dilithium.ChalSt) (h : Same O st x y) :
    (is.foldlM (chalStep C O) (p, s, x)).map (·.1) = (is.foldlM (Dilithium.chalStep C st) (p, s, y)).map (·.1) := by
  induction is generalizing p s x y with
  | nil => rfl
  | cons i is ih =>
    obtain ⟨h1, h2⟩ := chalByte_eq C O st i x y h
    simp only [List.foldlM_cons, chalStep, Dilithium.chalStep]
    cases hx : chalByte C O i x with
    | none =>
      cases hy : Dilithium.chalByte C st i y with
      | none => rfl
      | some r' =>
        obtain ⟨r, hr, _⟩ := h2 r' hy
        rw [hx] at hr; cases hr
    | some r =>
      obtain ⟨r', hy, e1, e2⟩ := h1 r hx
      obtain ⟨b, x'⟩ := r
      obtain ⟨b', y'⟩ := r'
      dsimp only at e1 e2
      subst e1
      rw [hy]
      exact ih _ _ _ _ e2

theorem polyChallenge_eq (seed : Bytes) (hs : seed.length = 32) : polyChallenge C O seed = Dilithium.polyChallenge C fipsShake seed := by
  obtain ⟨c, h1, h2⟩ := reads256 O [seed]
  obtain ⟨c', h3, h4⟩ := h2.step 136
  simp only [List.foldlM_cons, List.foldlM_nil, Option.bind_eq_bind] at h1
  have h1 : shake256IncAbsorb O shake256IncInit seed = some c := by
    cases h5 : shake256IncAbsorb O shake256IncInit seed with
    | none => simp [h5] at h1
    | some c2 => simpa [h5] using h1
  simp only [List.flatten_cons, List.flatten_nil, List.append_nil] at h3 h4
  unfold polyChallenge Dilithium.polyChallenge
  rw [bytesAt_eq C _ _ hs, h1, List.take_of_length_le (Nat.le_of_eq hs)]
  simp only [Option.bind_eq_bind, Option.bind_some, h3]
  have := chalFold_eq C O (fipsShake.shake256 seed) (List.range' 217 39) (fun _ => 0)
    (((List.range 8).map fun i => (at8 C (squeeze (fipsShake.shake256 seed) 0 136) i).toNat * 256 ^ i).sum)
    ⟨squeeze (fipsShake.shake256 seed) 0 136, 8, c'⟩ ⟨squeeze (fipsShake.shake256 seed) 0 136, 8, 136⟩ ⟨rfl, rfl, by simpa using h4⟩
  revert this
  cases List.foldlM (chalStep C O) _ _ <;> cases List.foldlM (Dilithium.chalStep C _) _ _ <;> simp

theorem matrixExpand_eq (rho : Bytes) (h : rho.length = 32) : matrixExpand C O rho = Dilithium.matrixExpand C fipsShake rho := by
  unfold matrixExpand Dilithium.matrixExpand
  simp only [polyUniform_eq C O rho h]

theorem vecUniformEta_eq (seed : Bytes) (h : seed.length = 64) (nonce : UInt16) :
    vecUniformEta C O seed nonce = Dilithium.vecUniformEta C fipsShake seed nonce := by
  unfold vecUniformEta Dilithium.vecUniformEta
  simp only [polyUniformEta_eq C O seed h]

theorem forVec_some {α : Type} (f : Fin 4 → α) : forVec (fun i => some (f i)) = some f := by
  unfold forVec
  simp only [Option.bind_eq_bind, Option.bind_some, Option.pure_def, Option.some.injEq]
  funext i
  fin_cases i <;> rfl

theorem vecUniformGamma1_eq (seed : Bytes) (h : seed.length = 64) (nonce : UInt16) :
    vecUniformGamma1 C O seed nonce = some (Dilithium.vecUniformGamma1 C fipsShake seed nonce) := by
  unfold vecUniformGamma1 Dilithium.vecUniformGamma1
  simp only [polyUniformGamma1_eq C O seed h, forVec_some]

theorem shake256_len (H : Shake) (n : Nat) (b : Bytes) : (Dilithium.shake256 H n b).length = n := by simp [Dilithium.shake256, squeeze]

theorem keypairDet_eq (coins : Bytes) (h : coins.length = 32) : keypairDet C O coins = Dilithium.keypairDet C fipsShake coins := by
  unfold keypairDet Dilithium.keypairDet
  rw [bytesAt_eq C _ _ h, List.take_of_length_le (Nat.le_of_eq h)]
  simp only [C84_shake256_is_model, Option.bind_eq_bind, Option.bind_some]
  have hl := shake256_len fipsShake 128 coins
  generalize Dilithium.shake256 fipsShake 128 coins = sb at hl ⊢
  have h1 : (sb.take 32).length = 32 := by rw [List.length_take, hl]; rfl
  have h2 : ((sb.drop 32).take 64).length = 64 := by rw [List.length_take, List.length_drop, hl]; rfl
  have h3 : ∀ t1, bytesAt C PKLEN (packPk (sb.take 32) t1) = packPk (sb.take 32) t1 := fun t1 => bytesAt_eq C _ _ (packPk_len _ _ h1)
  simp only [matrixExpand_eq C O _ h1, vecUniformEta_eq C O _ h2, h3]

theorem signCtx_eq (m sk : Bytes) (h : sk.length = SKLEN) : signCtx C O m sk = Dilithium.signCtx C fipsShake m sk := by
  unfold signCtx Dilithium.signCtx
  have h1 : (unpackSk C sk).tr.length = 64 := by
    simp only [unpackSk, List.length_take, List.length_drop, h]; rfl
  have h2 : (unpackSk C sk).key.length = 32 := by
    simp only [unpackSk, List.length_take, List.length_drop, h]; rfl
  have h3 : (unpackSk C sk).rho.length = 32 := by
    simp only [unpackSk, List.length_take, List.length_drop, h]; rfl
  simp only [bytesAt_eq C _ _ h1, bytesAt_eq C _ _ h2, hash2_eq, C84_shake256_is_model, Option.bind_eq_bind, Option.bind_some, matrixExpand_eq C O _ h3]

theorem vecPackW1_len (w : Vec) : (vecPackW1 w).length = 768 := by
  unfold vecPackW1
  rw [flat4_len _ 192 (fun i => by unfold polyw1Pack; exact List.length_ofFn)]

theorem signAttempt_eq (x : SignCtx) (h1 : x.mu.length = 64) (h2 : x.rhoprime.length = 64) (nonce : UInt16) :
    signAttempt C O x nonce = Dilithium.signAttempt C fipsShake x nonce := by
  unfold signAttempt Dilithium.signAttempt
  simp only [vecUniformGamma1_eq C O _ h2, Option.bind_eq_bind, Option.bind_some, bytesAt_eq C _ _ h1, bytesAt_eq C _ _ (vecPackW1_len _), hash2_eq,
    polyChallenge_eq C O _ (shake256_len _ _ _)]

theorem rejLoop_eq (H : Shake) (x : SignCtx) (nonce : UInt16) : rejLoop (Dilithium.signAttempt C H x) nonce = Dilithium.signLoop C H x nonce := by
  apply opt_ext
  · intro r hr
    refine rejLoop.partial_correctness (Dilithium.signAttempt C H x) (motive := fun nonce r => Dilithium.signLoop C H x nonce = some r) ?_ nonce r hr
    intro loop ih nonce r hr
    rw [Dilithium.signLoop]
    cases ha : Dilithium.signAttempt C H x nonce with
    | none => simp [ha] at hr
    | some o =>
      rw [ha] at hr
      simp only [Option.bind_eq_bind, Option.bind_some] at hr ⊢
      cases o with
      | none => exact ih _ _ hr
      | some sig => exact hr
  · intro r hr
    refine Dilithium.signLoop.partial_correctness C H x (motive := fun nonce r => rejLoop (Dilithium.signAttempt C H x) nonce = some r) ?_ nonce r hr
    intro loop ih nonce r hr
    rw [rejLoop]
    cases ha : Dilithium.signAttempt C H x nonce with
    | none => simp [ha] at hr
    | some o =>
      rw [ha] at hr
      simp only [Option.bind_eq_bind, Option.bind_some] at hr ⊢
      cases o with
      | none => exact ih _ _ hr
      | some sig => exact hr

theorem signCtx_lens (H : Shake) (m sk : Bytes) (x : SignCtx) (hx : Dilithium.signCtx C H m sk = some x) : x.mu.length = 64 ∧ x.rhoprime.length = 64 := by
  unfold Dilithium.signCtx at hx
  dsimp only at hx
  cases hm : Dilithium.matrixExpand C H (unpackSk C sk).rho with
  | none => simp [hm] at hx
  | some mat =>
    simp only [hm, Option.bind_eq_bind, Option.bind_some, Option.pure_def, Option.some.injEq] at hx
    rw [← hx]
    exact ⟨shake256_len _ _ _, shake256_len _ _ _⟩

theorem signature_congr (H : Shake) (m sk : Bytes) (h : signCtx C O m sk = Dilithium.signCtx C H m sk)
    (hl : ∀ x, Dilithium.signCtx C H m sk = some x → signAttempt C O x = Dilithium.signAttempt C H x) :
    signature C O m sk = Dilithium.signature C H m sk := by
  unfold signature Dilithium.signature
  rw [h, Option.bind_eq_bind]
  cases hx : Dilithium.signCtx C H m sk with
  | none => rw [Option.bind_none, Option.bind_none]
  | some x => rw [Option.bind_some, Option.bind_some, hl x hx, rejLoop_eq]

theorem signature_eq (m sk : Bytes) (h : sk.length = SKLEN) : signature C O m sk = Dilithium.signature C fipsShake m sk :=
  signature_congr C O fipsShake m sk (signCtx_eq C O m sk h) fun x hx =>
    funext fun n => signAttempt_eq C O x (signCtx_lens C fipsShake m sk x hx).1 (signCtx_lens C fipsShake m sk x hx).2 n

theorem cryptoSign_eq (m sk : Bytes) (h : sk.length = SKLEN) : cryptoSign C O m sk = Dilithium.cryptoSign C fipsShake m sk := by
  unfold cryptoSign Dilithium.cryptoSign
  rw [signature_eq C O m sk h]

theorem verify_eq (sig m pk : Bytes) (h : pk.length = PKLEN) : verify C O sig m pk = Dilithium.verify C fipsShake sig m pk := by
  unfold verify Dilithium.verify
  split
  · rfl
  rename_i hs
  have hs : sig.length = SIGLEN := by simpa using hs
  have h1 : (unpackPk C pk).1.length = 32 := by simp only [unpackPk, List.length_take, h]; rfl
  dsimp only
  cases hu : unpackSig C sig with
  | none => rfl
  | some p =>
    obtain ⟨c, z, hh⟩ := p
    have hc : c.length = 32 := by
      unfold unpackSig at hu
      cases hx : unpackHint C (sig.drop 2336) with
      | none => simp [hx] at hu
      | some y => simp [hx] at hu; rw [← hu.1, List.length_take, hs]; rfl
    dsimp only
    split
    · rfl
    · rw [bytesAt_eq C _ _ h, List.take_of_length_le (Nat.le_of_eq h)]
      simp only [C84_shake256_is_model, Option.bind_eq_bind, Option.bind_some, hash2_eq, polyChallenge_eq C O _ hc, matrixExpand_eq C O _ h1,
        bytesAt_eq C _ _ (vecPackW1_len _)]

theorem cryptoOpen_eq (sm pk : Bytes) (h : pk.length = PKLEN) : cryptoOpen C O sm pk = Dilithium.cryptoOpen C fipsShake sm pk := by
  unfold cryptoOpen Dilithium.cryptoOpen
  simp only [verify_eq C O _ _ pk h]

end Verif.Dilithium.Linked
