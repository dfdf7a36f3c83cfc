import Verif.Neon35.Sym

/-!
# The inner product routine, one turn of its loop at a time

The kernel runs the routine in pieces: up to the loop, each turn, and what comes after.  `mid L i` is the machine at the head of the loop before turn `i`.
-/

namespace Verif.Neon35

open Verif.Neon

/-- Equality of rows. -/
def rbeq (r r' : Row) : Bool := r.a0.beq r'.a0 && r.a1.beq r'.a1 && r.a2.beq r'.a2 && r.a3.beq r'.a3
/-- Equality of lists, given one for the elements. -/
def lbeq {α : Type} (e : α → α → Bool) : List α → List α → Bool
  | [], [] => true
  | a :: l, a' :: l' => e a a' && lbeq e l l'
  | _, _ => false
/-- Equality of states. -/
def sbeq (s s' : SSt) : Bool := lbeq rbeq s.regs s'.regs && lbeq Nat.beq s.xs s'.xs && lbeq V.beq s.ws s'.ws && lbeq rbeq s.mem s'.mem

theorem rbeq_ok (r r' : Row) (h : rbeq r r' = true) : r = r' := by
  unfold rbeq at h
  simp only [Bool.and_eq_true] at h
  obtain ⟨⟨⟨h0, h1⟩, h2⟩, h3⟩ := h
  cases r; cases r'
  rw [Row.mk.injEq]
  exact ⟨V.eq_of_beq _ _ h0, V.eq_of_beq _ _ h1, V.eq_of_beq _ _ h2, V.eq_of_beq _ _ h3⟩

theorem lbeq_ok {α : Type} (e : α → α → Bool) (he : ∀ a b, e a b = true → a = b) (l l' : List α) (h : lbeq e l l' = true) : l = l' := by
  induction l generalizing l' with
  | nil => cases l' with
    | nil => rfl
    | cons _ _ => cases h
  | cons a l ih => cases l' with
    | nil => cases h
    | cons a' l' =>
      rw [lbeq, Bool.and_eq_true] at h
      rw [he _ _ h.1, ih _ h.2]

theorem sbeq_ok (s s' : SSt) (h : sbeq s s' = true) : s = s' := by
  unfold sbeq at h
  simp only [Bool.and_eq_true] at h
  obtain ⟨⟨⟨h0, h1⟩, h2⟩, h3⟩ := h
  cases s; cases s'
  rw [SSt.mk.injEq]
  exact ⟨lbeq_ok _ rbeq_ok _ _ h0, lbeq_ok _ (fun _ _ => Nat.eq_of_beq_eq_true) _ _ h1, lbeq_ok _ V.eq_of_beq _ _ h2, lbeq_ok _ rbeq_ok _ _ h3⟩

theorem symRun2_step (n : Nat) (s : SSt) (hl : s.mem.length = 64) (i : Instr) (hi : ok2 n s i = true) :
    ∃ t, t.mem.length = 64 ∧ ∀ γ (k : SSt → γ), apply s (eff2 s i) k = k t := by
  obtain ⟨t, l, e, -, -⟩ := step2 n s hl i hi (fun _ => ())
  exact ⟨t, l, e⟩

/-- A piece run to its end. -/
theorem symRun2_piece {β : Type} (n : Nat) (p q : List Instr) (s t : SSt) (hl : s.mem.length = 64) (h : symRun2 n p s (fun s' => sbeq s' t) = some true) (k : SSt → β) :
    symRun2 n (p ++ q) s k = symRun2 n q t k := by
  induction p generalizing s with
  | nil =>
    rw [symRun2, Option.some.injEq] at h
    rw [sbeq_ok _ _ h]
    rfl
  | cons i p ih =>
    rw [symRun2] at h
    split at h
    · rename_i hi
      obtain ⟨s', l', e⟩ := symRun2_step n s hl i hi
      rw [e] at h
      rw [List.cons_append, symRun2, if_pos hi, e]
      exact ih s' l' h
    · cases h

/-- A vector register at the head of the loop. -/
def midR (L i r j : Nat) : V :=
  if r < 4 then .x (256 * L + 16 * i + 4 * r + j)
  else if r < 8 then .x (512 * L + 16 * i + 4 * (r - 4) + j)
  else if r < 12 then .x (7000 + 4 * r + j)
  else if r < 16 then half j (accV (256 + 256 * L) (16 * i + 4 * (r - 12) + j / 2) (L - 2))
  else if r < 20 then half j (accV (256 + 256 * L) (16 * i + 4 * (r - 16) + 2 + j / 2) (L - 2))
  else if r < 24 ∧ 0 < i then .lo (accV (256 + 256 * L) (16 * (i - 1) + 4 * (r - 20) + j) (L - 1))
  else if r < 28 ∧ 0 < i then accT L (16 * (i - 1) + 4 * (r - 24) + j)
  else if r < 30 then .x (7000 + 4 * r + j)
  else .x (256 + 512 * L + (r - 30))
/-- A pointer (0: none) at the head of the loop. -/
def midX (L i r : Nat) : Nat :=
  if r = 0 then 16 * i + 1
  else if r = 1 then 256 + 16 * (i + 1) + 1
  else if r = 2 then 256 + 256 * L + 16 * (i + 1) + 1
  else if r = 3 then 256 + 512 * L + 1
  else if r = 4 ∨ r = 16 then 0
  else if r = 19 ∧ L = 7 then 256 + 512 * L - 256 + 16 * (i + 1) + 1
  else if r < 2 * L + 3 then 256 + 256 * L * ((r + 1) % 2) + 256 * ((r - 3) / 2) + 16 * (i + 1) + 1
  else 0
/-- A data register. -/
def midW (L r : Nat) : V := if r = 20 then .x (256 + 512 * L) else if r = 21 then .x (257 + 512 * L) else .x (7200 + r)
/-- Memory: `i` groups of four rows are done. -/
def midM (L i a : Nat) : V := if a < 16 * i then accT L a else .x a
/-- Four lanes. -/
def row4 (f : Nat → V) : Row := ⟨f 0, f 1, f 2, f 3⟩
/-- The machine at the head of the loop before turn `i`. -/
def mid (L i : Nat) : SSt :=
  ⟨(List.range 32).map fun r => row4 (midR L i r), (List.range 32).map (midX L i), (List.range 64).map (midW L), (List.range 64).map fun r => row4 fun j => midM L i (4 * r + j)⟩

theorem mid_len (L i : Nat) : (mid L i).mem.length = 64 := by
  unfold mid
  simp

/-- The turns `i`, …, `i + m - 1`. -/
theorem symRun2_turns {β : Type} (n L : Nat) (body q : List Instr) (m i : Nat)
    (h : ∀ j, j < m → symRun2 n body (mid L (i + j)) (fun s' => sbeq s' (mid L (i + j + 1))) = some true) (k : SSt → β) :
    symRun2 n (loop m body ++ q) (mid L i) k = symRun2 n q (mid L (i + m)) k := by
  induction m generalizing i with
  | zero => rfl
  | succ m ih =>
    have e : loop (m + 1) body = body ++ loop m body := by
      unfold loop
      rw [List.replicate_succ, List.flatten_cons]
    rw [e, List.append_assoc, symRun2_piece n body _ (mid L i) (mid L (i + 1)) (mid_len L i) (h 0 (by omega)), ih (i + 1) (fun j hj => ?_)]
    · rw [show i + 1 + m = i + (m + 1) by omega]
    · have := h (j + 1) (by omega)
      rwa [show i + (j + 1) = i + 1 + j by omega] at this

end Verif.Neon35
