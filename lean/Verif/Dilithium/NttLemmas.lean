import Verif.Dilithium.Ntt
import Verif.Basic.Negacyclic
import Mathlib.Data.ZMod.Basic
import Mathlib.Tactic.LinearCombination
import Mathlib.Tactic.NormNum

/-! # The NTT of ntt.c computes negacyclic products -/

namespace Verif.Dilithium
open Finset

/-! ## The loops in closed form -/

section loops
variable {α : Type}

/-- One in-place pair update. -/
def pairStep (oob : α) (g : α → α → α × α) (len : Nat) (a : Fin 256 → α) (j : Nat) : Fin 256 → α :=
  wr (wr a (j + len) (g (rd oob a j) (rd oob a (j + len))).2) j (g (rd oob a j) (rd oob a (j + len))).1

/-- The closed form of one layer of pair updates; `g b` is the update of block `b`. -/
def pairLayer (oob : α) (len : Nat) (g : Nat → α → α → α × α) (a : Fin 256 → α) : Fin 256 → α := fun i =>
  if i.1 % (2 * len) < len then (g (i.1 / (2 * len)) (a i) (rd oob a (i.1 + len))).1
  else (g (i.1 / (2 * len)) (rd oob a (i.1 - len)) (a i)).2

theorem rd_lt (oob : α) (a : Fin 256 → α) (n : Nat) (h : n < 256) : rd oob a n = a ⟨n, h⟩ := by simp [rd, h]

theorem inner_loop (oob : α) (g : α → α → α × α) (len : Nat) (a : Fin 256 → α) (s m : Nat) (hm : m ≤ len) (hs : s + 2 * len ≤ 256) :
    (List.range m).foldl (fun a j => pairStep oob g len a (s + j)) a = fun i =>
      if s ≤ i.1 ∧ i.1 < s + m then (g (a i) (rd oob a (i.1 + len))).1
      else if s + len ≤ i.1 ∧ i.1 < s + len + m then (g (rd oob a (i.1 - len)) (a i)).2 else a i := by
  induction m with
  | zero =>
    funext i
    rw [if_neg (by omega), if_neg (by omega)]; rfl
  | succ m ih =>
    rw [List.range_succ, List.foldl_append, ih (by omega)]
    simp only [List.foldl_cons, List.foldl_nil, pairStep]
    have e1 : ∀ n (hn : n < 256), ¬ (s ≤ n ∧ n < s + m) → ¬ (s + len ≤ n ∧ n < s + len + m) → rd oob (fun i : Fin 256 =>
      if s ≤ i.1 ∧ i.1 < s + m then (g (a i) (rd oob a (i.1 + len))).1
      else if s + len ≤ i.1 ∧ i.1 < s + len + m then (g (rd oob a (i.1 - len)) (a i)).2 else a i) n = a ⟨n, hn⟩ := by
      intro n hn h1 h2
      rw [rd_lt _ _ _ hn, if_neg h1, if_neg h2]
    rw [e1 (s + m) (by omega) (by omega) (by omega), e1 (s + m + len) (by omega) (by omega) (by omega)]
    funext i
    unfold wr
    by_cases h1 : i.1 = s + m
    · rw [if_pos h1, if_pos (by omega), rd_lt oob a (i.1 + len) (by omega)]
      simp only [← h1, Fin.eta]
    · rw [if_neg h1]
      by_cases h2 : i.1 = s + m + len
      · rw [if_pos h2, if_neg (by omega), if_pos (by omega), rd_lt oob a (i.1 - len) (by omega)]
        simp only [← h2, Fin.eta]
        simp only [show i.1 - len = s + m by omega]
      · rw [if_neg h2]
        dsimp only
        split
        · rw [if_pos (by omega)]
        · rw [if_neg (show ¬ (s ≤ i.1 ∧ i.1 < s + (m + 1)) by omega)]
          split
          · rw [if_pos (by omega)]
          · rw [if_neg (by omega)]

/-- The layer lengths. -/
def IsLen (len : Nat) : Prop := len ∈ [1, 2, 4, 8, 16, 32, 64, 128]

instance (len : Nat) : Decidable (IsLen len) := by unfold IsLen; infer_instance

theorem outer_loop (oob : α) (g : Nat → α → α → α × α) (len : Nat) (hlen : IsLen len) (a : Fin 256 → α) (n : Nat) (hn : n ≤ 128 / len) :
    (List.range n).foldl (fun a b => (List.range len).foldl (fun a j => pairStep oob (g b) len a (2 * len * b + j)) a) a = fun i =>
      if i.1 / (2 * len) < n then pairLayer oob len g a i else a i := by
  induction n with
  | zero => funext i; simp
  | succ n ih =>
    rw [List.range_succ, List.foldl_append, ih (by omega)]
    simp only [List.foldl_cons, List.foldl_nil]
    have hb : 2 * len * n + 2 * len ≤ 256 := by
      simp only [IsLen, List.mem_cons, List.not_mem_nil, or_false] at hlen
      rcases hlen with h | h | h | h | h | h | h | h <;> subst h <;> omega
    rw [inner_loop oob (g n) len _ _ _ (Nat.le_refl _) hb]
    funext i
    have hpos : 0 < 2 * len := by
      simp only [IsLen, List.mem_cons, List.not_mem_nil, or_false] at hlen; omega
    have hdm := Nat.div_add_mod i.1 (2 * len)
    have hml := Nat.mod_lt i.1 hpos
    have hdiv : ∀ j, j < 2 * len → (2 * len * n + j) / (2 * len) = n := fun j hj => by
      rw [Nat.mul_add_div hpos, Nat.div_eq_of_lt hj]; rfl
    by_cases hi : i.1 / (2 * len) = n
    · rw [if_pos (show i.1 / (2 * len) < n + 1 by omega), if_neg (show ¬ i.1 / (2 * len) < n by omega)]
      unfold pairLayer
      rw [hi] at hdm ⊢
      by_cases hr : i.1 % (2 * len) < len
      · rw [if_pos hr, if_pos (by omega), rd_lt oob _ (i.1 + len) (by omega), rd_lt oob _ (i.1 + len) (by omega)]
        have : (i.1 + len) / (2 * len) = n := by
          rw [show i.1 + len = 2 * len * n + (i.1 % (2 * len) + len) by omega]; exact hdiv _ (by omega)
        simp only [this, Nat.lt_irrefl, if_false]
      · rw [if_neg hr, if_neg (by omega), if_pos (by omega), rd_lt oob _ (i.1 - len) (by omega), rd_lt oob _ (i.1 - len) (by omega)]
        have : (i.1 - len) / (2 * len) = n := by
          rw [show i.1 - len = 2 * len * n + (i.1 % (2 * len) - len) by omega]; exact hdiv _ (by omega)
        simp only [this, Nat.lt_irrefl, if_false]
    · have h1 : ¬ (2 * len * n ≤ i.1 ∧ i.1 < 2 * len * n + 2 * len) := by
        rintro ⟨h, h'⟩
        apply hi
        rw [show i.1 = 2 * len * n + (i.1 - 2 * len * n) by omega]; exact hdiv _ (by omega)
      rw [if_neg (by omega), if_neg (by omega)]
      by_cases h : i.1 / (2 * len) < n
      · rw [if_pos h, if_pos (by omega)]
      · rw [if_neg h, if_neg (by omega)]

/-- With the `zeta` counter threaded through. -/
theorem counter_loop (oob : α) (g : Nat → α → α → α × α) (kf : Nat → Nat) (len : Nat) (st : Nat → Nat) (k0 : Nat) (a : Fin 256 → α) (n : Nat)
    (hk : ∀ b, b < n → st (kf b) = kf (b + 1)) (h0 : kf 0 = k0) :
    (List.range n).foldl (fun s b => ((List.range len).foldl (fun a j => pairStep oob (g (st s.2)) len a (2 * len * b + j)) s.1, st s.2)) (a, k0)
      = ((List.range n).foldl (fun a b => (List.range len).foldl (fun a j => pairStep oob (g (kf (b + 1))) len a (2 * len * b + j)) a) a, kf n) := by
  induction n with
  | zero => simp [h0]
  | succ n ih =>
    rw [List.range_succ, List.foldl_append, List.foldl_append, ih (fun b hb => hk b (by omega))]
    simp only [List.foldl_cons, List.foldl_nil, hk n (by omega)]

end loops

variable (C : CSem) (oob : Int)

/-- The forward pair update at the C level. -/
def cBf (k : Nat) (lo hi : Int) : Int × Int :=
  (C.i32 (lo + montgomeryReduce C (C.i64 (zeta oob k * hi))), C.i32 (lo - montgomeryReduce C (C.i64 (zeta oob k * hi))))

/-- The inverse pair update at the C level. -/
def cIbf (k : Nat) (lo hi : Int) : Int × Int :=
  (C.i32 (lo + hi), montgomeryReduce C (C.i64 (C.i32 (-zeta oob k) * C.i32 (lo - hi))))

theorem rd_wr_ne {α : Type} (oob : α) (a : Fin 256 → α) (n m : Nat) (v : α) (h : n ≠ m) : rd oob (wr a m v) n = rd oob a n := by
  unfold rd wr
  split
  · simp [h]
  · rfl

theorem rd_wr_eq {α : Type} (oob : α) (a : Fin 256 → α) (n : Nat) (v : α) (h : n < 256) : rd oob (wr a n v) n = v := by
  unfold rd wr
  simp [h]

theorem wr_wr {α : Type} (a : Fin 256 → α) (n : Nat) (v w : α) : wr (wr a n v) n w = wr a n w := by
  funext i; unfold wr; split <;> rfl

theorem wr_oob {α : Type} (a : Fin 256 → α) (n : Nat) (v : α) (h : ¬ n < 256) : wr a n v = a := by
  funext i; unfold wr; rw [if_neg (by omega)]

theorem wr_comm {α : Type} (a : Fin 256 → α) (n m : Nat) (v w : α) (h : n ≠ m) : wr (wr a n v) m w = wr (wr a m w) n v := by
  funext i; unfold wr; split
  · split
    · omega
    · rfl
  · rfl

theorem butterfly_eq (k len : Nat) (hlen : 0 < len) (a : Poly) (j : Nat) :
    butterfly C oob (zeta oob k) len a j = pairStep oob (cBf C oob k) len a j := by
  unfold butterfly pairStep cBf
  simp only
  rw [rd_wr_ne _ _ _ _ _ (by omega)]

theorem invButterfly_eq (k len : Nat) (hlen : 0 < len) (a : Poly) (j : Nat) (hj : j + len < 256) :
    invButterfly C oob (C.i32 (-zeta oob k)) len a j = pairStep oob (cIbf C oob k) len a j := by
  unfold invButterfly pairStep cIbf
  simp only
  rw [rd_wr_ne _ _ _ _ _ (by omega : j + len ≠ j), rd_wr_eq _ _ _ _ hj, wr_wr, wr_comm _ _ _ _ _ (by omega : j ≠ j + len)]

theorem isLen_pos {len : Nat} (h : IsLen len) : 0 < len := by
  simp only [IsLen, List.mem_cons, List.not_mem_nil, or_false] at h; omega

theorem foldl_congr' {α β : Type} (l : List β) (f g : α → β → α) (a : α) (h : ∀ a, ∀ b ∈ l, f a b = g a b) : l.foldl f a = l.foldl g a := by
  induction l generalizing a with
  | nil => rfl
  | cons b l ih =>
    simp only [List.foldl_cons]
    rw [h a b (by simp)]
    exact ih _ fun a b hb => h a b (by simp [hb])

theorem nttLayer_eq (len : Nat) (hlen : IsLen len) (a : Poly) :
    nttLayer C oob len (a, 128 / len - 1) =
      (pairLayer oob len (fun b => cBf C oob (128 / len + b)) a, 128 / len + (128 / len - 1)) := by
  unfold nttLayer
  have hpos := isLen_pos hlen
  have h1 : 1 ≤ 128 / len := by
    simp only [IsLen, List.mem_cons, List.not_mem_nil, or_false] at hlen
    rcases hlen with h | h | h | h | h | h | h | h <;> subst h <;> decide
  simp only [butterfly_eq C oob _ len hpos]
  rw [counter_loop oob (cBf C oob) (fun b => 128 / len - 1 + b) len (fun k => k + 1) (128 / len - 1) a (128 / len) (fun _ _ => rfl) rfl]
  rw [outer_loop oob (fun b => cBf C oob (128 / len - 1 + (b + 1))) len hlen a _ (Nat.le_refl _)]
  refine Prod.ext ?_ (by simp only; omega)
  funext i
  simp only
  have : i.1 / (2 * len) < 128 / len := by
    have := i.2
    simp only [IsLen, List.mem_cons, List.not_mem_nil, or_false] at hlen
    rcases hlen with h | h | h | h | h | h | h | h <;> subst h <;> omega
  rw [if_pos this]
  simp only [show ∀ b, 128 / len - 1 + (b + 1) = 128 / len + b by omega]

theorem invnttLayer_eq (len : Nat) (hlen : IsLen len) (a : Poly) :
    invnttLayer C oob len (a, 256 / len) =
      (pairLayer oob len (fun b => cIbf C oob (256 / len - 1 - b)) a, 256 / (2 * len)) := by
  unfold invnttLayer
  have hpos := isLen_pos hlen
  have hlb : ∀ b ∈ List.range (128 / len), 2 * len * b + 2 * len ≤ 256 := by
    intro b hb
    rw [List.mem_range] at hb
    simp only [IsLen, List.mem_cons, List.not_mem_nil, or_false] at hlen
    rcases hlen with h | h | h | h | h | h | h | h <;> subst h <;> omega
  have key : (List.range (128 / len)).foldl (fun s b =>
      ((List.range len).foldl (fun a j => invButterfly C oob (C.i32 (-zeta oob (s.2 - 1))) len a (2 * len * b + j)) s.1, s.2 - 1)) (a, 256 / len)
    = (List.range (128 / len)).foldl (fun s b =>
      ((List.range len).foldl (fun a j => pairStep oob (cIbf C oob (s.2 - 1)) len a (2 * len * b + j)) s.1, s.2 - 1)) (a, 256 / len) := by
    apply foldl_congr'
    intro s b hb
    congr 1
    apply foldl_congr'
    intro a j hj
    rw [List.mem_range] at hj
    have := hlb b hb
    exact invButterfly_eq C oob _ len hpos a _ (by omega)
  rw [key]
  rw [counter_loop oob (cIbf C oob) (fun b => 256 / len - b) len (fun k => k - 1) (256 / len) a (128 / len) (fun _ _ => by omega) rfl]
  rw [outer_loop oob (fun b => cIbf C oob (256 / len - (b + 1))) len hlen a _ (Nat.le_refl _)]
  refine Prod.ext ?_ ?_
  · funext i
    simp only
    have : i.1 / (2 * len) < 128 / len := by
      have := i.2
      simp only [IsLen, List.mem_cons, List.not_mem_nil, or_false] at hlen
      rcases hlen with h | h | h | h | h | h | h | h <;> subst h <;> omega
    rw [if_pos this]
    have e : (fun b => cIbf C oob (256 / len - (b + 1))) = fun b => cIbf C oob (256 / len - 1 - b) := by
      funext b; congr 1; omega
    rw [e]
  · simp only [IsLen, List.mem_cons, List.not_mem_nil, or_false] at hlen
    rcases hlen with h | h | h | h | h | h | h | h <;> subst h <;> rfl

end Verif.Dilithium
