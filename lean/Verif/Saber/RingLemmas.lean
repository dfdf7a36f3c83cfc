import Verif.Saber.PolyLemmas
import Verif.Basic.Negacyclic

/-! `Poly::mul` is the negacyclic product; message decoding. -/

namespace Verif.Saber.Poly

open Finset

theorem foldl_addAt {ι : Type} (l : List ι) (k : ι → Nat) (x : ι → U16) (c : Poly) (m : Fin 256) :
    l.foldl (fun c j => addAt c (k j) (x j)) c m = c m + (l.map fun j => if m.1 = k j then x j else 0).sum := by
  induction l generalizing c with
  | nil => simp
  | cons j l ih =>
    simp only [List.foldl_cons, List.map_cons, List.sum_cons, ih]
    by_cases h : m.1 = k j
    · simp [addAt, h, add_assoc]
    · simp [addAt, h]

theorem foldl_subAt {ι : Type} (l : List ι) (k : ι → Nat) (x : ι → U16) (c : Poly) (m : Fin 256) :
    l.foldl (fun c j => subAt c (k j) (x j)) c m = c m + (l.map fun j => if m.1 = k j then -x j else 0).sum := by
  induction l generalizing c with
  | nil => simp
  | cons j l ih =>
    simp only [List.foldl_cons, List.map_cons, List.sum_cons, ih]
    by_cases h : m.1 = k j
    · simp [subAt, h, sub_eq_add_neg, add_assoc]
    · simp [subAt, h]

theorem sum_filter_list (P : Fin 256 → Bool) (f : Fin 256 → U16) :
    (((List.finRange 256).filter P).map f).sum = ∑ j, if P j then f j else 0 := by
  rw [Fin.sum_univ_def]
  induction List.finRange 256 with
  | nil => simp
  | cons j l ih =>
    by_cases h : P j
    · simp [h, ih]
    · simp [h, ih]

theorem mulRow_apply (a b c : Poly) (i m : Fin 256) :
    mulRow a b c i m = c m + ∑ j, (if i.1 + j.1 = m.1 then a i * b j else if i.1 + j.1 = m.1 + 256 then -(a i * b j) else 0) := by
  unfold mulRow
  rw [foldl_subAt _ (fun j => i.1 + j.1 - 256) (fun j => a i * b j), foldl_addAt _ (fun j => i.1 + j.1) (fun j => a i * b j),
    sum_filter_list, sum_filter_list, add_assoc, ← Finset.sum_add_distrib]
  refine congrArg (c m + ·) ?_
  refine Finset.sum_congr rfl fun j _ => ?_
  have := i.2; have := j.2; have := m.2
  by_cases h1 : j.1 < 256 - i.1
  · have h2 : ¬ (256 - i.1 ≤ j.1) := by omega
    have h3 : i.1 + j.1 ≠ m.1 + 256 := by omega
    simp only [h1, h2, decide_true, decide_false, if_true, if_false, Bool.false_eq_true, add_zero, h3]
    by_cases h4 : i.1 + j.1 = m.1
    · simp [h4]
    · rw [if_neg (fun e => h4 e.symm), if_neg h4]
  · have h2 : 256 - i.1 ≤ j.1 := by omega
    have h3 : i.1 + j.1 ≠ m.1 := by omega
    simp only [h1, h2, decide_true, decide_false, if_true, if_false, Bool.false_eq_true, zero_add, h3]
    by_cases h4 : i.1 + j.1 = m.1 + 256
    · rw [if_pos (by omega), if_pos h4]
    · rw [if_neg (by omega), if_neg h4]

theorem mul_eq_negaMul (a b : Poly) : mul a b = negaMul a b := by
  funext m
  unfold mul negaMul
  have : ∀ (l : List (Fin 256)) (c : Poly), l.foldl (mulRow a b) c m = c m + (l.map fun i =>
      ∑ j, (if i.1 + j.1 = m.1 then a i * b j else if i.1 + j.1 = m.1 + 256 then -(a i * b j) else 0)).sum := by
    intro l
    induction l with
    | nil => simp
    | cons i l ih => intro c; simp only [List.foldl_cons, ih, mulRow_apply, List.map_cons, List.sum_cons, add_assoc]
  rw [this, Fin.sum_univ_def]
  simp [default]

/-- `read_bytes_msg` collects the coefficients, when they are bits, into bytes; `bit j` of byte `i` is coefficient `8 i + j`. -/
theorem readBytesMsg_bits (p : Poly) (m : ByteArr 32)
    (h : ∀ i : Fin 256, p i = ext ((byteAt m ⟨i.1 / 8, by omega⟩ >>> (i.1 % 8)) &&& 0x01)) : readBytesMsg p = m := by
  apply buf_ext
  intro i
  unfold readBytesMsg
  rw [byteAt_bufOf]
  have hj : ∀ idx : Fin 8, p ⟨8 * i.1 + idx.1, by omega⟩ = ext ((byteAt m i >>> idx.1) &&& 0x01) := by
    intro idx
    rw [h]
    have h1 : (8 * i.1 + idx.1) / 8 = i.1 := by omega
    have h2 : (8 * i.1 + idx.1) % 8 = idx.1 := by omega
    simp only [h1, h2, Fin.eta]
  simp only [hj]
  generalize byteAt m i = x
  revert x
  decide +kernel

end Verif.Saber.Poly
