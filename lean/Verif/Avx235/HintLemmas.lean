import Verif.Avx235.PolyInt
import Verif.Avx2.HintLemmas

/-! # What `make_hint_avx` of dilithium3 and dilithium5 returns -/

namespace Verif.Avx235

open Verif.Avx2 hiding decomposeV polyDecomposeV useHintV polyUseHintV hintBad makeHintLoop makeHintAvx hintPos hintBad_testBit hintPos_step hintPos_lt hintPos_length_le hintBad_lt makeHintLoop_spec makeHintAvx_spec
open Verif.Dilithium35 (makeHint)

/-- The positions below `n` whose hint is 1. -/
def hintPos (a0 a1 : VPoly) (n : Nat) : List Nat := (List.range n).filter fun j => decide (makeHint (ti a0 (Fin.ofNat 256 j)) (ti a1 (Fin.ofNat 256 j)) = 1)

theorem hintPos_step (a0 a1 : VPoly) (i : Nat) (hi : i < 32) (h0 : ∀ k, -2147483648 < ti a0 k) (h1 : ∀ k, 0 ≤ ti a1 k) :
    hintPos a0 a1 (8 * (i + 1)) = hintPos a0 a1 (8 * i) ++ (bitsOf (hintBad (ldv a0 i) (ldv a1 i))).map fun j => 8 * i + j := by
  unfold hintPos
  rw [show 8 * (i + 1) = 8 * i + 8 by omega, List.range_add, List.filter_append]
  congr 1
  rw [List.filter_map]
  unfold bitsOf
  congr 1
  apply List.filter_congr
  intro j hj
  rw [List.mem_range] at hj
  have := hintBad_testBit (ldv a0 i) (ldv a1 i) ⟨j, hj⟩ (h0 _) (h1 _)
  exact this.symm

theorem hintPos_lt (a0 a1 : VPoly) (n j : Nat) (h : j ∈ hintPos a0 a1 n) : j < n := by
  unfold hintPos at h
  rw [List.mem_filter, List.mem_range] at h
  exact h.1

theorem hintPos_length_le (a0 a1 : VPoly) (n : Nat) : (hintPos a0 a1 n).length ≤ n := by
  refine (List.length_filter_le _ _).trans ?_
  rw [List.length_range]

theorem hintBad_lt (f0 f1 : Ymm) : hintBad f0 f1 < 256 := movemaskPs_lt _

theorem makeHintLoop_spec (a0 a1 : VPoly) (hint : Nat → UInt8) (h0 : ∀ k, -2147483648 < ti a0 k) (h1 : ∀ k, 0 ≤ ti a1 k) (i : Nat) (hi : i ≤ 32) :
    (makeHintLoop a0 a1 hint i).2 = (hintPos a0 a1 (8 * i)).length ∧
    (∀ k (h : k < ((hintPos a0 a1 (8 * i)).map UInt8.ofNat).length), (makeHintLoop a0 a1 hint i).1 k = ((hintPos a0 a1 (8 * i)).map UInt8.ofNat)[k]) ∧
    (∀ n, 256 ≤ n → (makeHintLoop a0 a1 hint i).1 n = hint n) := by
  induction i with
  | zero =>
    refine ⟨rfl, fun k h => absurd h (by simp [hintPos]), fun _ _ => rfl⟩
  | succ i ih =>
    obtain ⟨e1, e2, e3⟩ := ih (by omega)
    have hle := hintPos_length_le a0 a1 (8 * i)
    unfold makeHintLoop
    generalize makeHintLoop a0 a1 hint i = st at *
    obtain ⟨h, n⟩ := st
    simp only at e1 e2 e3 ⊢
    have hb := hintBad_lt (ldv a0 i) (ldv a1 i)
    have hs := hintPos_step a0 a1 i (by omega) h0 h1
    generalize hintBad (ldv a0 i) (ldv a1 i) = bad at *
    have hcell : ∀ k, k < 8 → writeAt h n ((List.range 8).map fun k => UInt8.ofNat (hintIdx bad i / 256 ^ k % 256)) (n + k) = (fun j => UInt8.ofNat (8 * i + j)) (lutAt bad k) := by
      intro k hk
      rw [writeAt_get _ _ _ _ (by rw [List.length_map, List.length_range]; exact hk), List.getElem_map, List.getElem_range, hintIdx_byte bad i k hb (by omega) hk,
        Nat.add_comm]
    obtain ⟨c1, c2⟩ := compact bad hb (fun j => UInt8.ofNat (8 * i + j)) h _ n ((hintPos a0 a1 (8 * i)).map UInt8.ofNat) (by rw [List.length_map, e1]) e2 hcell
      (fun m hm => writeAt_out _ _ _ _ (Or.inl hm))
    have e : (hintPos a0 a1 (8 * i)).map UInt8.ofNat ++ (bitsOf bad).map (fun j => UInt8.ofNat (8 * i + j)) = (hintPos a0 a1 (8 * (i + 1))).map UInt8.ofNat := by
      rw [hs, List.map_append, List.map_map]; rfl
    rw [e] at c1
    refine ⟨by rw [← c1, List.length_map], ?_, ?_⟩
    · intro k hk
      have := c2 k (by rw [e]; exact hk)
      rw [this]
      simp only [e]
    · intro m hm
      rw [writeAt_out _ _ _ _ (Or.inr (by rw [List.length_map, List.length_range]; omega))]
      exact e3 m hm

/-- The positions where the portable `make_hint` gives 1. -/
theorem makeHintAvx_spec (a0 a1 : VPoly) (hint : Nat → UInt8) (h0 : ∀ k, -2147483648 < ti a0 k) (h1 : ∀ k, 0 ≤ ti a1 k) :
    (makeHintAvx a0 a1 hint).2 = (hintPos a0 a1 256).length ∧
    (∀ k (h : k < ((hintPos a0 a1 256).map UInt8.ofNat).length), (makeHintAvx a0 a1 hint).1 k = ((hintPos a0 a1 256).map UInt8.ofNat)[k]) ∧
    (∀ n, 256 ≤ n → (makeHintAvx a0 a1 hint).1 n = hint n) := makeHintLoop_spec a0 a1 hint h0 h1 32 (by omega)

end Verif.Avx235
