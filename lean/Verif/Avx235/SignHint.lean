import Verif.Avx235.SignKey
import Verif.Dilithium35.Hint

/-! # The hint loop of the AVX2 signing code of dilithium3 and dilithium5 writes the portable hint encoding -/

namespace Verif.Avx235

open Verif.Dilithium (Poly idx)
open Verif.Dilithium35 (Vec pad pad_fin allIdx cnt cnt_succ cnt_mono allIdx_succ wt tots tots_len packHint packHint_eq)
open Verif.Avx2 (readB writeAt readB_length readB_get readB_congr readB_add readB_same readB_disj writeAt_out writeAt_get)

/-- `hintStepA` with its inputs abstracted: whether the two norm checks pass, and the hint polynomials. -/
def hintStepN (B ω : Nat) (ok : Nat → Bool) (g : Nat → Poly) (st : (Nat → UInt8) × Nat) (i : Nat) : Except (Nat → UInt8) ((Nat → UInt8) × Nat) :=
  if ok i = false then .error st.1 else
  if st.2 + (idx (g i)).length > ω then .error st.1 else
  .ok (writeAt (writeAt st.1 (B + st.2) ((idx (g i)).map UInt8.ofNat)) (B + ω + i) [UInt8.ofNat (st.2 + (idx (g i)).length)], st.2 + (idx (g i)).length)

theorem hintN_spec (B ω : Nat) (ok : Nat → Bool) (g : Nat → Poly) (m : Nat → UInt8) (n : Nat) :
    (∀ m' k, (List.range n).foldlM (hintStepN B ω ok g) (m, 0) = .ok (m', k) → (∀ i, i < n → ok i = true) ∧ k = cnt g n ∧ cnt g n ≤ ω ∧
      readB m' B (cnt g n) = (allIdx g n).map UInt8.ofNat ∧ readB m' (B + ω) n = tots g n ∧ ∀ p, (p < B ∨ (B + cnt g n ≤ p ∧ p < B + ω)) → m' p = m p) ∧
    ∀ m', (List.range n).foldlM (hintStepN B ω ok g) (m, 0) = .error m' → ¬ ((∀ i, i < n → ok i = true) ∧ cnt g n ≤ ω) := by
  induction n with
  | zero =>
    constructor
    · intro m' k h
      cases h
      exact ⟨fun i hi => absurd hi (by omega), rfl, Nat.zero_le _, rfl, rfl, fun _ _ => rfl⟩
    · intro m' h; cases h
  | succ n ih =>
    rw [List.range_succ, List.foldlM_append]
    cases hf : (List.range n).foldlM (hintStepN B ω ok g) (m, 0) with
    | error e =>
      constructor
      · intro m' k h; cases h
      · intro m' _ hc
        exact ih.2 e hf ⟨fun i hi => hc.1 i (by omega), (cnt_mono g (by omega)).trans hc.2⟩
    | ok st =>
      obtain ⟨m1, k1⟩ := st
      obtain ⟨a1, rfl, a3, a4, a5, a6⟩ := ih.1 m1 k1 hf
      have e : (do let s ← (Except.ok (m1, cnt g n) : Except (Nat → UInt8) ((Nat → UInt8) × Nat)); [n].foldlM (hintStepN B ω ok g) s) = hintStepN B ω ok g (m1, cnt g n) n := by
        rw [show (do let s ← (Except.ok (m1, cnt g n) : Except (Nat → UInt8) ((Nat → UInt8) × Nat)); [n].foldlM (hintStepN B ω ok g) s) =
          [n].foldlM (hintStepN B ω ok g) (m1, cnt g n) from rfl, List.foldlM_cons]
        simp only [List.foldlM_nil, bind_pure]
      rw [e]
      unfold hintStepN
      dsimp only
      by_cases c1 : ok n = false
      · rw [if_pos c1]
        refine ⟨fun m' k h => (nomatch h), fun m' _ hc => ?_⟩
        have := hc.1 n (by omega)
        rw [c1] at this; cases this
      by_cases c2 : cnt g n + (idx (g n)).length > ω
      · rw [if_neg c1, if_pos c2]
        refine ⟨fun m' k h => (nomatch h), fun m' _ hc => ?_⟩
        have := hc.2
        rw [cnt_succ] at this; omega
      rw [if_neg c1, if_neg c2]
      refine ⟨fun m' k h => ?_, fun m' h => (nomatch h)⟩
      cases h
      have hlen : ((idx (g n)).map UInt8.ofNat).length = (idx (g n)).length := List.length_map _
      refine ⟨fun i hi => ?_, (cnt_succ g n).symm, by rw [cnt_succ]; omega, ?_, ?_, ?_⟩
      · rcases Nat.lt_succ_iff_lt_or_eq.1 hi with h | h
        · exact a1 i h
        · rw [h]; exact Bool.eq_true_of_not_eq_false c1
      · rw [cnt_succ, readB_add, readB_disj _ _ _ _ _ (by omega), readB_disj _ _ _ _ _ (by omega), a4, readB_disj _ _ _ _ _ (by omega), readB_same _ _ _ _ hlen,
          allIdx_succ, List.map_append]
      · rw [readB_add, readB_disj _ _ _ _ _ (by omega), readB_disj _ _ _ _ _ (by omega), a5, readB_same _ _ _ 1 rfl]
        unfold tots
        rw [List.range_succ, List.map_append, ← cnt_succ]
        rfl
      · intro p hp
        rw [cnt_succ] at hp
        rw [writeAt_out _ _ _ _ (by omega), writeAt_out _ _ _ _ (by omega), a6 p (by omega)]

theorem foldlM_finRange {σ ε : Type} (n : Nat) (f : σ → Nat → Except ε σ) (a : σ) : (List.finRange n).foldlM (fun s i => f s i.1) a = (List.range n).foldlM f a := by
  rw [← List.map_coe_finRange_eq_range, List.foldlM_map]

/-- The hint loop on a hint area of zeros: the portable encoding, when the checks pass. -/
theorem hintN_pack (B ω n : Nat) (ok : Nat → Bool) (h : Vec n) (m : Nat → UInt8) :
    (∀ m' k, (List.range n).foldlM (hintStepN B ω ok (pad h)) (writeAt m B (List.replicate ω 0), 0) = .ok (m', k) →
      (∀ i, i < n → ok i = true) ∧ wt h ≤ ω ∧ readB m' 0 B = readB m 0 B ∧ readB m' B (ω + n) = packHint n ω h) ∧
    ∀ m', (List.range n).foldlM (hintStepN B ω ok (pad h)) (writeAt m B (List.replicate ω 0), 0) = .error m' → ¬ ((∀ i, i < n → ok i = true) ∧ wt h ≤ ω) := by
  have s := hintN_spec B ω ok (pad h) (writeAt m B (List.replicate ω 0)) n
  refine ⟨fun m' k hm => ?_, s.2⟩
  obtain ⟨a1, -, a3, a4, a5, a6⟩ := s.1 m' k hm
  refine ⟨a1, a3, ?_, ?_⟩
  · rw [← readB_disj m B (List.replicate ω 0) 0 B (by omega)]
    exact readB_congr _ _ _ _ fun j hj => a6 _ (by omega)
  · rw [packHint_eq h a3, readB_add, a5]
    show readB m' B ω ++ _ = _
    conv_lhs => rw [show ω = cnt (pad h) n + (ω - cnt (pad h) n) by omega]
    rw [readB_add, a4]
    have z : readB m' (B + cnt (pad h) n) (ω - cnt (pad h) n) = List.replicate (ω - wt h) 0 := by
      apply List.ext_getElem
      · rw [readB_length, List.length_replicate]; rfl
      · intro j h1 h2
        rw [readB_length] at h1
        rw [readB_get, a6 _ (by omega), Nat.add_assoc, writeAt_get _ _ _ _ (by rw [List.length_replicate]; omega), List.getElem_replicate, List.getElem_replicate]
    rw [z, List.append_assoc]

end Verif.Avx235
