import Verif.Avx2.RejLemmas

/-! # What `make_hint_avx` returns -/

namespace Verif.Avx2

open Verif.Dilithium

theorem hint_arith (a0 a1 a2 a3 a4 a5 a6 a7 i : Nat) (h0 : a0 < 8) (h1 : a1 < 8) (h2 : a2 < 8) (h3 : a3 < 8) (h4 : a4 < 8) (h5 : a5 < 8) (h6 : a6 < 8)
    (h7 : a7 < 8) (hi : i < 32) :
    (a0 + a1 * 256 + a2 * 65536 + a3 * 16777216 + a4 * 4294967296 + a5 * 1099511627776 + a6 * 281474976710656 + a7 * 72057594037927936 +
      578721382704613384 * i) % 18446744073709551616 =
    (a0 + 8 * i) + 256 * ((a1 + 8 * i) + 256 * ((a2 + 8 * i) + 256 * ((a3 + 8 * i) + 256 * ((a4 + 8 * i) + 256 * ((a5 + 8 * i) + 256 * ((a6 + 8 * i) +
      256 * (a7 + 8 * i))))))) := by
  omega

theorem hint_sum (f : Nat → Nat) : ((List.range 8).map fun k => f k * 256 ^ k).sum = f 0 + f 1 * 256 + f 2 * 65536 + f 3 * 16777216 + f 4 * 4294967296 +
      f 5 * 1099511627776 + f 6 * 281474976710656 + f 7 * 72057594037927936 := by
  have h : ∀ n, ((List.range (n + 1)).map fun k => f k * 256 ^ k).sum = ((List.range n).map fun k => f k * 256 ^ k).sum + f n * 256 ^ n := fun n => by
    rw [List.range_succ, List.map_append, List.sum_append, List.map_singleton, List.sum_singleton]
  have p2 : 256 ^ 2 = 65536 := by norm_num
  have p3 : 256 ^ 3 = 16777216 := by norm_num
  have p4 : 256 ^ 4 = 4294967296 := by norm_num
  have p5 : 256 ^ 5 = 1099511627776 := by norm_num
  have p6 : 256 ^ 6 = 281474976710656 := by norm_num
  have p7 : 256 ^ 7 = 72057594037927936 := by norm_num
  rw [h, h, h, h, h, h, h, h, p7, p6, p5, p4, p3, p2, pow_one, pow_zero, mul_one, List.range_zero, List.map_nil, List.sum_nil, Nat.zero_add]

theorem hintIdx_eq (bad i : Nat) : hintIdx bad i = (lutAt bad 0 + lutAt bad 1 * 256 + lutAt bad 2 * 65536 + lutAt bad 3 * 16777216 + lutAt bad 4 * 4294967296 +
    lutAt bad 5 * 1099511627776 + lutAt bad 6 * 281474976710656 + lutAt bad 7 * 72057594037927936 + 578721382704613384 * i) % 18446744073709551616 := by
  unfold hintIdx
  rw [hint_sum (lutAt bad)]
  norm_num

theorem digit (a b : Nat) (h : a < 256) : (a + 256 * b) % 256 = a ∧ (a + 256 * b) / 256 = b := by omega

theorem hintIdx_byte (bad i k : Nat) (hb : bad < 256) (hi : i < 32) (hk : k < 8) : hintIdx bad i / 256 ^ k % 256 = lutAt bad k + 8 * i := by
  have hl : ∀ k, k < 8 → lutAt bad k < 8 := fun k hk => (lut_spec ⟨bad, hb⟩).2.1 ⟨k, hk⟩
  rw [hintIdx_eq, hint_arith _ _ _ _ _ _ _ _ _ (hl 0 (by omega)) (hl 1 (by omega)) (hl 2 (by omega)) (hl 3 (by omega)) (hl 4 (by omega)) (hl 5 (by omega))
    (hl 6 (by omega)) (hl 7 (by omega)) hi]
  have h0 := hl 0 (by omega); have h1 := hl 1 (by omega); have h2 := hl 2 (by omega); have h3 := hl 3 (by omega)
  have h4 := hl 4 (by omega); have h5 := hl 5 (by omega); have h6 := hl 6 (by omega); have h7 := hl 7 (by omega)
  generalize lutAt bad = f at *
  have dd : ∀ x k, x / 256 ^ (k + 1) = x / 256 / 256 ^ k := fun x k => by rw [pow_succ, Nat.mul_comm, Nat.div_div_eq_div_mul]
  match k, hk with
  | 0, _ => rw [pow_zero, Nat.div_one, (digit _ _ (by omega)).1]
  | 1, _ => simp only [dd, pow_zero, Nat.div_one]; rw [(digit _ _ (by omega)).2, (digit _ _ (by omega)).1]
  | 2, _ => simp only [dd, pow_zero, Nat.div_one]; rw [(digit _ _ (by omega)).2, (digit _ _ (by omega)).2, (digit _ _ (by omega)).1]
  | 3, _ => simp only [dd, pow_zero, Nat.div_one]; rw [(digit _ _ (by omega)).2, (digit _ _ (by omega)).2, (digit _ _ (by omega)).2, (digit _ _ (by omega)).1]
  | 4, _ => simp only [dd, pow_zero, Nat.div_one]; rw [(digit _ _ (by omega)).2, (digit _ _ (by omega)).2, (digit _ _ (by omega)).2, (digit _ _ (by omega)).2, (digit _ _ (by omega)).1]
  | 5, _ => simp only [dd, pow_zero, Nat.div_one]; rw [(digit _ _ (by omega)).2, (digit _ _ (by omega)).2, (digit _ _ (by omega)).2, (digit _ _ (by omega)).2, (digit _ _ (by omega)).2, (digit _ _ (by omega)).1]
  | 6, _ => simp only [dd, pow_zero, Nat.div_one]; rw [(digit _ _ (by omega)).2, (digit _ _ (by omega)).2, (digit _ _ (by omega)).2, (digit _ _ (by omega)).2, (digit _ _ (by omega)).2, (digit _ _ (by omega)).2, (digit _ _ (by omega)).1]
  | 7, _ => simp only [dd, pow_zero, Nat.div_one]; rw [(digit _ _ (by omega)).2, (digit _ _ (by omega)).2, (digit _ _ (by omega)).2, (digit _ _ (by omega)).2, (digit _ _ (by omega)).2, (digit _ _ (by omega)).2, (digit _ _ (by omega)).2, Nat.mod_eq_of_lt (by omega)]

/-- The positions below `n` whose hint is 1. -/
def hintPos (a0 a1 : VPoly) (n : Nat) : List Nat := (List.range n).filter fun j => decide (makeHint (ti a0 (Fin.ofNat 256 j)) (ti a1 (Fin.ofNat 256 j)) = 1)

theorem hintPos_step (a0 a1 : VPoly) (i : Nat) (hi : i < 32) (h0 : ∀ k, -2147483648 < ti a0 k) (h1 : ∀ k, 0 ≤ ti a1 k) :
    hintPos a0 a1 (8 * (i + 1)) = hintPos a0 a1 (8 * i) ++ (bitsOf (hintBad (ldv a0 i) (ldv a1 i))).map fun j => 8 * i + j := by
  unfold hintPos
  rw [show 8 * (i + 1) = 8 * i + 8 by omega, List.range_add, List.filter_append]
  congr 1
  rw [List.filter_map]
  unfold bitsOf
  congr 1
  apply List.filter_congr
  intro j hj
  rw [List.mem_range] at hj
  have := hintBad_testBit (ldv a0 i) (ldv a1 i) ⟨j, hj⟩ (h0 _) (h1 _)
  exact this.symm

theorem hintPos_lt (a0 a1 : VPoly) (n j : Nat) (h : j ∈ hintPos a0 a1 n) : j < n := by
  unfold hintPos at h
  rw [List.mem_filter, List.mem_range] at h
  exact h.1

theorem hintPos_length_le (a0 a1 : VPoly) (n : Nat) : (hintPos a0 a1 n).length ≤ n := by
  refine (List.length_filter_le _ _).trans ?_
  rw [List.length_range]

theorem writeAt_get {α : Type} (r : Nat → α) (c : Nat) (l : List α) (k : Nat) (hk : k < l.length) : writeAt r c l (c + k) = l[k] := by
  unfold writeAt
  rw [dif_pos ⟨by omega, by omega⟩]
  congr 1
  omega

theorem writeAt_out {α : Type} (r : Nat → α) (c : Nat) (l : List α) (n : Nat) (h : n < c ∨ c + l.length ≤ n) : writeAt r c l n = r n := by
  unfold writeAt
  rw [dif_neg (by omega)]

theorem hintBad_lt (f0 f1 : Ymm) : hintBad f0 f1 < 256 := movemaskPs_lt _

theorem makeHintLoop_spec (a0 a1 : VPoly) (hint : Nat → UInt8) (h0 : ∀ k, -2147483648 < ti a0 k) (h1 : ∀ k, 0 ≤ ti a1 k) (i : Nat) (hi : i ≤ 32) :
    (makeHintLoop a0 a1 hint i).2 = (hintPos a0 a1 (8 * i)).length ∧
    (∀ k (h : k < ((hintPos a0 a1 (8 * i)).map UInt8.ofNat).length), (makeHintLoop a0 a1 hint i).1 k = ((hintPos a0 a1 (8 * i)).map UInt8.ofNat)[k]) ∧
    (∀ n, 256 ≤ n → (makeHintLoop a0 a1 hint i).1 n = hint n) := by
  induction i with
  | zero =>
    refine ⟨rfl, fun k h => absurd h (by simp [hintPos]), fun _ _ => rfl⟩
  | succ i ih =>
    obtain ⟨e1, e2, e3⟩ := ih (by omega)
    have hle := hintPos_length_le a0 a1 (8 * i)
    unfold makeHintLoop
    generalize makeHintLoop a0 a1 hint i = st at *
    obtain ⟨h, n⟩ := st
    simp only at e1 e2 e3 ⊢
    have hb := hintBad_lt (ldv a0 i) (ldv a1 i)
    have hs := hintPos_step a0 a1 i (by omega) h0 h1
    generalize hintBad (ldv a0 i) (ldv a1 i) = bad at *
    have hcell : ∀ k, k < 8 → writeAt h n ((List.range 8).map fun k => UInt8.ofNat (hintIdx bad i / 256 ^ k % 256)) (n + k) = (fun j => UInt8.ofNat (8 * i + j)) (lutAt bad k) := by
      intro k hk
      rw [writeAt_get _ _ _ _ (by rw [List.length_map, List.length_range]; exact hk), List.getElem_map, List.getElem_range, hintIdx_byte bad i k hb (by omega) hk,
        Nat.add_comm]
    obtain ⟨c1, c2⟩ := compact bad hb (fun j => UInt8.ofNat (8 * i + j)) h _ n ((hintPos a0 a1 (8 * i)).map UInt8.ofNat) (by rw [List.length_map, e1]) e2 hcell
      (fun m hm => writeAt_out _ _ _ _ (Or.inl hm))
    have e : (hintPos a0 a1 (8 * i)).map UInt8.ofNat ++ (bitsOf bad).map (fun j => UInt8.ofNat (8 * i + j)) = (hintPos a0 a1 (8 * (i + 1))).map UInt8.ofNat := by
      rw [hs, List.map_append, List.map_map]; rfl
    rw [e] at c1
    refine ⟨by rw [← c1, List.length_map], ?_, ?_⟩
    · intro k hk
      have := c2 k (by rw [e]; exact hk)
      rw [this]
      simp only [e]
    · intro m hm
      rw [writeAt_out _ _ _ _ (Or.inr (by rw [List.length_map, List.length_range]; omega))]
      exact e3 m hm

/-- The positions where the portable `make_hint` gives 1. -/
theorem makeHintAvx_spec (a0 a1 : VPoly) (hint : Nat → UInt8) (h0 : ∀ k, -2147483648 < ti a0 k) (h1 : ∀ k, 0 ≤ ti a1 k) :
    (makeHintAvx a0 a1 hint).2 = (hintPos a0 a1 256).length ∧
    (∀ k (h : k < ((hintPos a0 a1 256).map UInt8.ofNat).length), (makeHintAvx a0 a1 hint).1 k = ((hintPos a0 a1 256).map UInt8.ofNat)[k]) ∧
    (∀ n, 256 ≤ n → (makeHintAvx a0 a1 hint).1 n = hint n) := makeHintLoop_spec a0 a1 hint h0 h1 32 (by omega)

end Verif.Avx2
