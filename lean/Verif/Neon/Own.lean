import Verif.Neon.SampleX2
import Verif.Neon.SignEq
import Verif.Dilithium.LinkedLemmas

/-!
# The aarch64 code with itself

When six blocks are not enough, the matrix of the aarch64 code is not that of the portable code.  It is the matrix of the portable code for another hash function,
which agrees with the given one on SHAKE256; so whatever holds of the portable code for all hash functions holds of the aarch64 code with itself.
-/

namespace Verif.Neon

open Verif.Avx2 (VPoly ti ofP)
open Verif.Dilithium hiding W32 toI32_id

variable {C : CSem}

theorem rejUniform_range (len : Nat) (b : Bytes) : ∀ t ∈ rejUniform len b, 0 ≤ t ∧ t < Q := by
  induction len, b using rejUniform.induct with
  | case1 a => rw [rejUniform_zero]; intro t h; cases h
  | case2 len b0 b1 b2 rest t ht ih =>
    rw [rejUniform_pos ht]
    intro x hx
    rcases List.mem_cons.1 hx with rfl | hx
    · exact ⟨Int.natCast_nonneg _, ht⟩
    · exact ih x hx
  | case3 len b0 b1 b2 rest t ht ih => rw [rejUniform_neg ht]; exact ih
  | case4 a n hx =>
    intro t ht
    unfold rejUniform at ht
    split at ht
    · cases ht
    · exact absurd rfl (hx _ _ _ _)
    · cases ht

/-- What the loop returns: at least 256 residues for each lane. -/
theorem uniformLoop2_spec (s : Fin 2 → Nat → UInt8) (acc : Fin 2 → List Int) (buf : Fin 2 → Bytes) (pos : Nat) (r : Fin 2 → List Int)
    (h : uniformLoop2 s acc buf pos = some r) (ha : ∀ k, ∀ t ∈ acc k, 0 ≤ t ∧ t < Q) : ∀ k, 256 ≤ (r k).length ∧ ∀ t ∈ r k, 0 ≤ t ∧ t < Q := by
  refine uniformLoop2.partial_correctness s (motive := fun acc buf pos r => (∀ k, ∀ t ∈ acc k, 0 ≤ t ∧ t < Q) →
    ∀ k, 256 ≤ (r k).length ∧ ∀ t ∈ r k, 0 ≤ t ∧ t < Q) ?_ acc buf pos r h ha
  intro loop ih acc buf pos r hr ha
  split at hr
  · refine ih _ _ _ _ hr fun k t ht => ?_
    rcases List.mem_append.1 ht with h | h
    · exact ha k t h
    · exact rejUniform_range _ _ t h
  · rename_i hn
    obtain rfl := Option.some.inj hr
    intro k
    refine ⟨?_, ha k⟩
    rw [not_or] at hn
    match k with
    | 0 => have := hn.1; omega
    | 1 => have := hn.2; omega

/-- A residue in every coefficient. -/
def Residues (p : Poly) : Prop := ∀ i, 0 ≤ p i ∧ p i < Q

theorem residues_ofList (l : List Int) (h : 256 ≤ l.length) (hl : ∀ t ∈ l, 0 ≤ t ∧ t < Q) : Residues (polyOfList C l) := by
  intro i
  have := i.2
  unfold polyOfList
  rw [List.getD_eq_getElem _ _ (by omega)]
  exact hl _ (List.getElem_mem _)

theorem polyUniformX2_residues {H : Shake} {seed : Bytes} {n0 n1 : UInt16} {p q : Poly} (h : polyUniformX2 C H seed n0 n1 = some (p, q)) : Residues p ∧ Residues q := by
  unfold polyUniformX2 at h
  dsimp only at h
  rw [Option.map_eq_some_iff] at h
  obtain ⟨r, hr, e⟩ := h
  have := uniformLoop2_spec _ _ _ _ r hr fun k => rejUniform_range _ _
  rw [Prod.mk.injEq] at e
  exact ⟨e.1 ▸ residues_ofList _ (this 0).1 (this 0).2, e.2 ▸ residues_ofList _ (this 1).1 (this 1).2⟩

theorem forVec_some_iff' {α : Type} (f : Fin 4 → Option α) (v : Fin 4 → α) (h : forVec f = some v) : ∀ i, f i = some (v i) := by
  unfold forVec at h
  simp only [Option.bind_eq_bind, Option.bind_eq_some_iff, Option.pure_def, Option.some.injEq] at h
  obtain ⟨a, ha, b, hb, c, hc, d, hd, rfl⟩ := h
  intro i
  match i with
  | 0 => exact ha
  | 1 => exact hb
  | 2 => exact hc
  | 3 => exact hd

theorem matrixExpandN_residues {H : Shake} {rho : Bytes} {mat : Mat} (h : matrixExpandN C H rho = some mat) : ∀ i j, Residues (mat i j) := by
  unfold matrixExpandN at h
  rw [Option.bind_eq_bind, Option.bind_eq_some_iff] at h
  obtain ⟨cols, hc, e⟩ := h
  obtain rfl := Option.some.inj e
  intro i j
  have hj := forVec_some_iff' _ _ hc j
  simp only [Option.bind_eq_bind, Option.bind_eq_some_iff, Option.pure_def, Option.some.injEq, Prod.exists] at hj
  obtain ⟨a, b, hab, c, d, hcd, e⟩ := hj
  have h1 := polyUniformX2_residues hab
  have h2 := polyUniformX2_residues hcd
  show Residues (cols j i)
  rw [← e]
  match i with
  | 0 => exact h1.1
  | 1 => exact h1.2
  | 2 => exact h2.1
  | 3 => exact h2.2

/-! ## The other hash function -/

/-- The stream whose first 256 candidates are the coefficients. -/
def encStream (p : Poly) (k : Nat) : UInt8 := if h : k / 3 < 256 then UInt8.ofNat ((p ⟨k / 3, h⟩).toNat / 256 ^ (k % 3)) else 0

theorem encStream_cand (p : Poly) (hp : Residues p) (k : Fin 256) : cand (encStream p) k.1 = p k := by
  have hk := k.2
  obtain ⟨h0, h1⟩ := hp k
  have e : ∀ d < 3, encStream p (3 * k.1 + d) = UInt8.ofNat ((p k).toNat / 256 ^ d) := fun d hd => by
    unfold encStream
    have h3 : (3 * k.1 + d) / 3 = k.1 := by omega
    have h4 : (3 * k.1 + d) % 3 = d := by omega
    rw [dif_pos (by omega), h4]
    simp only [h3]
  unfold cand
  rw [show 3 * k.1 = 3 * k.1 + 0 from rfl, e 0 (by omega), e 1 (by omega), e 2 (by omega)]
  simp only [UInt8.toNat_ofNat']
  simp only [Q] at h1
  omega

theorem cand_zero (p : Poly) (k : Nat) (hk : 256 ≤ k) : cand (encStream p) k = 0 := by
  have e : ∀ d < 3, encStream p (3 * k + d) = 0 := fun d hd => by
    unfold encStream; rw [dif_neg (by omega)]
  unfold cand
  rw [show 3 * k = 3 * k + 0 from rfl, e 0 (by omega), e 1 (by omega), e 2 (by omega)]
  rfl

theorem encStream_acc (p : Poly) (hp : Residues p) : accUniform (encStream p) 0 336 = (List.range' 0 336).map (cand (encStream p)) := by
  unfold accUniform
  rw [List.filter_eq_self]
  intro t ht
  rw [List.mem_map] at ht
  obtain ⟨k, hk, rfl⟩ := ht
  rw [decide_eq_true_eq]
  by_cases h : k < 256
  · rw [encStream_cand p hp ⟨k, h⟩]; exact (hp _).2
  · rw [cand_zero p k (by omega)]; decide

theorem encStream_six (p : Poly) (hp : Residues p) : SixBlocks (encStream p) := by
  unfold SixBlocks
  rw [encStream_acc p hp, List.length_map, List.length_range']
  omega

theorem encStream_first (p : Poly) (hp : Residues p) : polyOfList C (first256 (encStream p)) = p := by
  funext i
  have hi := i.2
  unfold polyOfList first256
  rw [encStream_acc p hp, List.getD_eq_getElem _ _ (by simp only [List.length_take, List.length_map, List.length_range']; omega), List.getElem_take,
    List.getElem_map, List.getElem_range']
  simp only [Nat.zero_add, Nat.one_mul]
  exact encStream_cand p hp i

/-- SHAKE256 as before; SHAKE128 of a seed of 32 bytes and a nonce `256 i + j` is a stream for entry `(i, j)`. -/
def otherH (H : Shake) (mat : Mat) : Shake :=
  ⟨fun b => encStream (mat ⟨(b.getD 33 0).toNat % 4, Nat.mod_lt _ (by omega)⟩ ⟨(b.getD 32 0).toNat % 4, Nat.mod_lt _ (by omega)⟩), H.shake256⟩

theorem other_stream (H : Shake) (mat : Mat) (rho : Bytes) (hr : rho.length = 32) (i j : Fin 4) :
    stream128 (otherH H mat) rho (UInt16.ofNat (i.1 * 256 + j.1)) = encStream (mat i j) := by
  have key : ∀ i j : Fin 4, nonceBytes (UInt16.ofNat (i.1 * 256 + j.1)) = [UInt8.ofNat j.1, UInt8.ofNat i.1] ∧ (UInt8.ofNat j.1).toNat % 4 = j.1 ∧
      (UInt8.ofNat i.1).toNat % 4 = i.1 := by decide
  obtain ⟨k1, k2, k3⟩ := key i j
  unfold stream128 otherH
  dsimp only
  have a : (rho ++ nonceBytes (UInt16.ofNat (i.1 * 256 + j.1))).getD 33 0 = UInt8.ofNat i.1 := by
    rw [k1, List.getD_append_right _ _ _ _ (by omega), hr]; rfl
  have b : (rho ++ nonceBytes (UInt16.ofNat (i.1 * 256 + j.1))).getD 32 0 = UInt8.ofNat j.1 := by
    rw [k1, List.getD_append_right _ _ _ _ (by omega), hr]; rfl
  simp only [a, b, k2, k3]

theorem other_six (H : Shake) (mat : Mat) (hm : ∀ i j, Residues (mat i j)) (rho : Bytes) (hr : rho.length = 32) : SixBlocksMat (otherH H mat) rho := by
  intro i j
  rw [other_stream H mat rho hr]
  exact encStream_six _ (hm i j)

theorem other_expand (H : Shake) (mat : Mat) (hm : ∀ i j, Residues (mat i j)) (rho : Bytes) (hr : rho.length = 32) :
    matrixExpandN C (otherH H mat) rho = some mat := by
  rw [matrixExpandN_eq (other_six H mat hm rho hr)]
  unfold matrixExpand
  have e : ∀ i j : Fin 4, polyUniform C (otherH H mat) rho (UInt16.ofNat (i.1 * 256 + j.1)) = some (mat i j) := fun i j => by
    have h := polyUniform_six (C := C) (other_six H mat hm rho hr i j)
    rw [h, other_stream H mat rho hr, encStream_first _ (hm i j)]
  simp only [e, forVec_some']

/-! ## The functions for two hash functions that agree on SHAKE256 and the matrix -/

variable {a a' b : Bytes → Nat → UInt8} {M : Mach}

theorem keypairN_congr (coins : Bytes)
    (h : matrixExpandN C ⟨a', b⟩ ((shake256 ⟨a, b⟩ 128 (coins.take 32)).take 32) = matrixExpandN C ⟨a, b⟩ ((shake256 ⟨a, b⟩ 128 (coins.take 32)).take 32)) :
    keypairN C ⟨a', b⟩ M coins = keypairN C ⟨a, b⟩ M coins := by
  have e1 : shake256 ⟨a', b⟩ = shake256 ⟨a, b⟩ := rfl
  have e2 : vecUniformEta C ⟨a', b⟩ = vecUniformEta C ⟨a, b⟩ := rfl
  unfold keypairN
  rw [e1, e2]
  generalize shake256 ⟨a, b⟩ 128 (coins.take 32) = sb at h ⊢
  dsimp only
  rw [h]

theorem signAttemptN_congr : signAttemptN C ⟨a', b⟩ M = signAttemptN C ⟨a, b⟩ M := by
  have e1 : shake256 ⟨a', b⟩ = shake256 ⟨a, b⟩ := rfl
  have e2 : vecUniformGamma1N C ⟨a', b⟩ = vecUniformGamma1N C ⟨a, b⟩ := rfl
  have e3 : polyChallenge C ⟨a', b⟩ = polyChallenge C ⟨a, b⟩ := rfl
  funext x n
  unfold signAttemptN
  rw [e1, e2, e3]

theorem signLoopN_congr (x : SignCtx) (nonce : UInt16) : signLoopN C ⟨a', b⟩ M x nonce = signLoopN C ⟨a, b⟩ M x nonce := by
  apply Dilithium.Linked.opt_ext
  · intro r hr
    refine signLoopN.partial_correctness C ⟨a', b⟩ M x (motive := fun nonce r => signLoopN C ⟨a, b⟩ M x nonce = some r) ?_ nonce r hr
    intro loop ih nonce r hr
    rw [signLoopN]
    rw [signAttemptN_congr (a' := a') (a := a)] at hr
    generalize signAttemptN C ⟨a, b⟩ M x nonce = o at hr ⊢
    cases o with
    | none => exact absurd hr (by simp)
    | some o =>
      cases o with
      | none => exact ih _ _ hr
      | some sig => exact hr
  · intro r hr
    refine signLoopN.partial_correctness C ⟨a, b⟩ M x (motive := fun nonce r => signLoopN C ⟨a', b⟩ M x nonce = some r) ?_ nonce r hr
    intro loop ih nonce r hr
    rw [signLoopN, signAttemptN_congr (a' := a') (a := a)]
    generalize signAttemptN C ⟨a, b⟩ M x nonce = o at hr ⊢
    cases o with
    | none => exact absurd hr (by simp)
    | some o =>
      cases o with
      | none => exact ih _ _ hr
      | some sig => exact hr

theorem signatureN_congr (m sk : Bytes) (h : matrixExpandN C ⟨a', b⟩ (sk.take 32) = matrixExpandN C ⟨a, b⟩ (sk.take 32)) :
    signatureN C ⟨a', b⟩ M m sk = signatureN C ⟨a, b⟩ M m sk := by
  have e1 : shake256 ⟨a', b⟩ = shake256 ⟨a, b⟩ := rfl
  have hr : (unpackSk C sk).rho = sk.take 32 := rfl
  unfold signatureN
  have ec : signCtxN C ⟨a', b⟩ M m sk = signCtxN C ⟨a, b⟩ M m sk := by
    unfold signCtxN
    rw [e1]
    dsimp only
    rw [hr, h]
  rw [ec]
  refine congrArg _ (funext fun x => signLoopN_congr x 0)

theorem cryptoSignN_congr (m sk : Bytes) (h : matrixExpandN C ⟨a', b⟩ (sk.take 32) = matrixExpandN C ⟨a, b⟩ (sk.take 32)) :
    cryptoSignN C ⟨a', b⟩ M m sk = cryptoSignN C ⟨a, b⟩ M m sk := by
  unfold cryptoSignN
  rw [signatureN_congr m sk h]

theorem verifyN_congr (sig m pk : Bytes) (h : matrixExpandN C ⟨a', b⟩ (pk.take 32) = matrixExpandN C ⟨a, b⟩ (pk.take 32)) :
    verifyN C ⟨a', b⟩ M sig m pk = verifyN C ⟨a, b⟩ M sig m pk := by
  have e1 : shake256 ⟨a', b⟩ = shake256 ⟨a, b⟩ := rfl
  have e3 : polyChallenge C ⟨a', b⟩ = polyChallenge C ⟨a, b⟩ := rfl
  have hr : (unpackPkP C M pk).1 = pk.take 32 := by unfold unpackPkP; rfl
  unfold verifyN
  dsimp only
  rw [e1, e3, hr, h]

theorem cryptoOpenN_congr (sm pk : Bytes) (h : matrixExpandN C ⟨a', b⟩ (pk.take 32) = matrixExpandN C ⟨a, b⟩ (pk.take 32)) :
    cryptoOpenN C ⟨a', b⟩ M sm pk = cryptoOpenN C ⟨a, b⟩ M sm pk := by
  unfold cryptoOpenN
  rw [verifyN_congr _ _ pk h]

end Verif.Neon
