import Verif.Avx2.Simd
import Mathlib.Tactic.FinCases

/-!
# Symbolic execution of straight-line vector code

A symbolic machine holds terms instead of dwords; the kernel runs it.  `sym_sound`: whatever the values of the variables, running the real code on a
machine that the symbolic state describes gives a machine that the final symbolic state describes.  `norm` may replace a term by another of equal value.
-/

namespace Verif.Avx2

/-- Terms; those headed by `mul`, `qadd`, `qsub`, `pair` stand for quadwords. -/
inductive V
  | x (c : Nat)
  | zero
  | add (a b : V)
  | sub (a b : V)
  | lo (q : V)
  | hi (q : V)
  | mul (a b : V)
  | qadd (a b : V)
  | qsub (a b : V)
  | pair (h l : V)
deriving DecidableEq, Repr

/-- Values of a term as a dword and as a quadword. -/
def V.ev (env : Nat → W32) : V → W32 × BitVec 64
  | x c => (env c, 0)
  | zero => (0, 0)
  | add a b => ((a.ev env).1 + (b.ev env).1, 0)
  | sub a b => ((a.ev env).1 - (b.ev env).1, 0)
  | lo q => (lo32 (q.ev env).2, 0)
  | hi q => (hi32 (q.ev env).2, 0)
  | mul a b => (0, smul (a.ev env).1 (b.ev env).1)
  | qadd a b => (0, (a.ev env).2 + (b.ev env).2)
  | qsub a b => (0, (a.ev env).2 - (b.ev env).2)
  | pair h l => (0, (h.ev env).1 ++ (l.ev env).1)

/-- Dword value. -/
abbrev V.d (env : Nat → W32) (v : V) : W32 := (v.ev env).1

/-- Structural equality, as a program. -/
def V.beq : V → V → Bool
  | x c, x c' => c == c'
  | zero, zero => true
  | add a b, add a' b' => a.beq a' && b.beq b'
  | sub a b, sub a' b' => a.beq a' && b.beq b'
  | lo a, lo a' => a.beq a'
  | hi a, hi a' => a.beq a'
  | mul a b, mul a' b' => a.beq a' && b.beq b'
  | qadd a b, qadd a' b' => a.beq a' && b.beq b'
  | qsub a b, qsub a' b' => a.beq a' && b.beq b'
  | pair a b, pair a' b' => a.beq a' && b.beq b'
  | _, _ => false

theorem V.eq_of_beq (a b : V) (h : a.beq b = true) : a = b := by
  induction a generalizing b <;> cases b <;> simp only [V.beq, Bool.and_eq_true, beq_iff_eq, reduceCtorEq, Bool.false_eq_true] at h
  case x => rw [h]
  case zero => rfl
  case lo ih _ => rw [ih _ h]
  case hi ih _ => rw [ih _ h]
  all_goals (rename_i i1 i2 _ _; rw [i1 _ h.1, i2 _ h.2])

/-- Evaluate a number. -/
def forceN {β : Type} (n : Nat) (k : Nat → β) : β := match n with | 0 => k 0 | n + 1 => k (n + 1)

theorem forceN_eq {β : Type} (n : Nat) (k : Nat → β) : forceN n k = k n := by cases n <;> rfl

/-- Evaluate a term completely. -/
def V.force {β : Type} : V → (V → β) → β
  | x c, k => forceN c fun c => k (x c)
  | zero, k => k zero
  | add a b, k => a.force fun a => b.force fun b => k (add a b)
  | sub a b, k => a.force fun a => b.force fun b => k (sub a b)
  | lo a, k => a.force fun a => k (lo a)
  | hi a, k => a.force fun a => k (hi a)
  | mul a b, k => a.force fun a => b.force fun b => k (mul a b)
  | qadd a b, k => a.force fun a => b.force fun b => k (qadd a b)
  | qsub a b, k => a.force fun a => b.force fun b => k (qsub a b)
  | pair a b, k => a.force fun a => b.force fun b => k (pair a b)

theorem V.force_eq {β : Type} (v : V) (k : V → β) : v.force k = k v := by
  induction v generalizing k <;> simp [V.force, forceN_eq, *]

/-- Eight terms. -/
structure Row where
  (a0 a1 a2 a3 a4 a5 a6 a7 : V)

/-- Lane. -/
def Row.get (r : Row) : Nat → V
  | 0 => r.a0 | 1 => r.a1 | 2 => r.a2 | 3 => r.a3 | 4 => r.a4 | 5 => r.a5 | 6 => r.a6 | _ => r.a7

/-- A row from its lanes, evaluated. -/
def rowOf {β : Type} (f : Nat → V) (k : Row → β) : β :=
  (f 0).force fun a0 => (f 1).force fun a1 => (f 2).force fun a2 => (f 3).force fun a3 =>
  (f 4).force fun a4 => (f 5).force fun a5 => (f 6).force fun a6 => (f 7).force fun a7 => k ⟨a0, a1, a2, a3, a4, a5, a6, a7⟩

theorem rowOf_eq {β : Type} (f : Nat → V) (k : Row → β) : rowOf f k = k ⟨f 0, f 1, f 2, f 3, f 4, f 5, f 6, f 7⟩ := by
  simp [rowOf, V.force_eq]

/-- Evaluated list update. -/
def lset {α β : Type} : List α → Nat → α → (List α → β) → β
  | [], _, _, k => k []
  | _ :: l, 0, v, k => k (v :: l)
  | a :: l, n + 1, v, k => lset l n v fun l' => k (a :: l')

theorem lset_eq {α β : Type} (l : List α) (n : Nat) (v : α) (k : List α → β) : lset l n v k = k (l.set n v) := by
  induction l generalizing n k with
  | nil => simp [lset]
  | cons a l ih => cases n <;> simp [lset, ih]

/-- The all-zero row. -/
def Row.zero : Row := ⟨.zero, .zero, .zero, .zero, .zero, .zero, .zero, .zero⟩

/-- Lane of a listed row. -/
def lane (l : List Row) (r j : Nat) : V := (l.getD r Row.zero).get j

/-- Quadword of two lanes. -/
def qterm (h l : V) : V :=
  match h, l with
  | .hi a, .lo b => if a.beq b then a else .pair h l
  | _, _ => .pair h l

/-- Lane `j` of the symbolic result of a register instruction. -/
def symLane (norm : V → V) (regs mem : List Row) (i : Instr) (j : Nat) : V :=
  match i with
  | .load addr _ => lane mem (addr / 8) j
  | .store _ _ => .zero
  | .mov s _ => lane regs s j
  | .bcast addr _ => lane mem (addr / 8) (addr % 8)
  | .permqm imm addr _ => lane mem (addr / 8) (2 * (imm / 4 ^ (j / 2) % 4) + j % 2)
  | .muldq a b _ => let q := V.mul (lane regs a (2 * (j / 2))) (lane regs b (2 * (j / 2))); if j % 2 = 0 then .lo q else .hi q
  | .shdup a _ => lane regs a (2 * (j / 2) + 1)
  | .sldup a _ => lane regs a (2 * (j / 2))
  | .srlq32 a _ => if j % 2 = 0 then lane regs a (2 * (j / 2) + 1) else .zero
  | .blendd imm a b _ => if imm.testBit j then lane regs a j else lane regs b j
  | .addd a b _ => norm (.add (lane regs b j) (lane regs a j))
  | .subd a b _ => norm (.sub (lane regs b j) (lane regs a j))
  | .addq a b _ =>
    let q := V.qadd (qterm (lane regs b (2 * (j / 2) + 1)) (lane regs b (2 * (j / 2)))) (qterm (lane regs a (2 * (j / 2) + 1)) (lane regs a (2 * (j / 2))))
    if j % 2 = 0 then .lo q else .hi q
  | .subq a b _ =>
    let q := V.qsub (qterm (lane regs b (2 * (j / 2) + 1)) (lane regs b (2 * (j / 2)))) (qterm (lane regs a (2 * (j / 2) + 1)) (lane regs a (2 * (j / 2))))
    if j % 2 = 0 then .lo q else .hi q
  | .perm128 imm a b _ =>
    let sel := if j < 4 then imm % 4 else imm / 16 % 4
    if sel = 0 then lane regs b (j % 4) else if sel = 1 then lane regs b (4 + j % 4)
    else if sel = 2 then lane regs a (j % 4) else lane regs a (4 + j % 4)
  | .unpl a b _ => if j % 4 < 2 then lane regs b (4 * (j / 4) + j % 2) else lane regs a (4 * (j / 4) + j % 2)
  | .unph a b _ => if j % 4 < 2 then lane regs b (4 * (j / 4) + 2 + j % 2) else lane regs a (4 * (j / 4) + 2 + j % 2)

/-- Destination register. -/
def dest : Instr → Option Nat
  | .load _ d | .mov _ d | .bcast _ d | .permqm _ _ d | .muldq _ _ d | .shdup _ d | .sldup _ d | .srlq32 _ d | .blendd _ _ _ d
  | .addd _ _ d | .subd _ _ d | .addq _ _ d | .subq _ _ d | .perm128 _ _ _ d | .unpl _ _ d | .unph _ _ d => some d
  | .store _ _ => none

/-- Accesses are 32-byte aligned, within the listed memory, and registers are among the sixteen. -/
def okInstr (nmem : Nat) : Instr → Bool
  | .load addr d | .permqm _ addr d => addr % 8 == 0 && decide (addr / 8 < nmem) && decide (d < 16)
  | .store s addr => addr % 8 == 0 && decide (addr / 8 < nmem) && decide (s < 16)
  | .bcast addr d => decide (addr / 8 < nmem) && decide (d < 16)
  | .mov a d | .shdup a d | .sldup a d | .srlq32 a d => decide (a < 16) && decide (d < 16)
  | .muldq a b d | .blendd _ a b d | .addd a b d | .subd a b d | .addq a b d | .subq a b d | .perm128 _ a b d | .unpl a b d
  | .unph a b d => decide (a < 16) && decide (b < 16) && decide (d < 16)

/-- One symbolic step. -/
def symStep {β : Type} (norm : V → V) (regs mem : List Row) (i : Instr) (k : List Row → List Row → β) : β :=
  match i with
  | .store s addr => lset mem (addr / 8) (regs.getD s Row.zero) fun mem => k regs mem
  | i => rowOf (symLane norm regs mem i) fun row => lset regs ((dest i).getD 0) row fun regs => k regs mem

/-- Symbolic run; `none` on an instruction outside the limits of `okInstr`. -/
def symRun {β : Type} (norm : V → V) (nmem : Nat) : List Instr → List Row → List Row → (List Row → List Row → β) → Option β
  | [], regs, mem, k => some (k regs mem)
  | i :: p, regs, mem, k => if okInstr nmem i then symStep norm regs mem i fun regs mem => symRun norm nmem p regs mem k else none

/-- A symbolic state describes a machine. -/
structure Desc (env : Nat → W32) (nmem : Nat) (regs mem : List Row) (s : Mach) : Prop where
  lenR : regs.length = 16
  lenM : mem.length = nmem
  reg : ∀ r < 16, ∀ j : Fin 8, s.reg r j = (lane regs r j.1).d env
  mem : ∀ a < nmem, ∀ j : Fin 8, s.mem (8 * a + j.1) = (lane mem a j.1).d env

theorem lane_set (l : List Row) (n r j : Nat) (row : Row) (hn : n < l.length) : lane (l.set n row) r j = if r = n then row.get j else lane l r j := by
  unfold lane
  by_cases h : r = n
  · subst h; simp [List.getD_eq_getElem?_getD, List.getElem?_set, hn]
  · simp [List.getD_eq_getElem?_getD, List.getElem?_set, h, Ne.symm h]

theorem row_get (f : Nat → V) (j : Fin 8) : (Row.mk (f 0) (f 1) (f 2) (f 3) (f 4) (f 5) (f 6) (f 7)).get j.1 = f j.1 := by
  fin_cases j <;> rfl

theorem qterm_ev (env : Nat → W32) (h l : V) : ((qterm h l).ev env).2 = h.d env ++ l.d env := by
  unfold qterm
  split
  · split
    · rename_i a b hab
      rw [← V.eq_of_beq a b hab]
      show (a.ev env).2 = hi32 _ ++ lo32 _
      generalize (a.ev env).2 = w
      unfold hi32 lo32
      apply BitVec.eq_of_getLsbD_eq
      intro i hi
      simp only [BitVec.getLsbD_append, BitVec.getLsbD_setWidth, BitVec.getLsbD_extractLsb']
      by_cases c : i < 32
      · simp [c]
      · have : i - 32 < 32 := by omega
        simp [c, this, show 32 + (i - 32) = i by omega]
    · rfl
  · rfl

theorem Desc.loadj {env : Nat → W32} {nmem : Nat} {regs mem : List Row} {s : Mach} (h : Desc env nmem regs mem s) (addr : Nat) (h1 : addr % 8 = 0)
    (h2 : addr / 8 < nmem) (j : Fin 8) : s.load addr j = (lane mem (addr / 8) j.1).d env := by
  have := h.mem (addr / 8) h2 j
  rw [show 8 * (addr / 8) = addr by omega] at this
  exact this

/-- Register instructions. -/
theorem symLane_sound (norm : V → V) (env : Nat → W32) (hn : ∀ v, (norm v).d env = v.d env) (nmem : Nat) (regs mem : List Row) (s : Mach)
    (h : Desc env nmem regs mem s) (i : Instr) (hi : okInstr nmem i = true) (d : Nat) (hd : dest i = some d) :
    ∃ v : Ymm, exec s i = s.set d v ∧ d < 16 ∧ ∀ j : Fin 8, v j = (symLane norm regs mem i j.1).d env := by
  cases i <;> simp only [dest, Option.some.injEq, reduceCtorEq] at hd <;> subst hd <;>
    simp only [okInstr, Bool.and_eq_true, beq_iff_eq, decide_eq_true_eq] at hi <;> simp only [exec, symLane]
  · exact ⟨_, rfl, hi.2, fun j => h.loadj _ hi.1.1 hi.1.2 j⟩
  · exact ⟨_, rfl, hi.2, fun j => h.reg _ hi.1 j⟩
  · rename_i addr d
    refine ⟨_, rfl, hi.2, fun j => ?_⟩
    have := h.mem (addr / 8) hi.1 ⟨addr % 8, by omega⟩
    simp only [show 8 * (addr / 8) + addr % 8 = addr by omega] at this
    exact this
  · refine ⟨_, rfl, hi.2, fun j => h.loadj _ hi.1.1 hi.1.2 _⟩
  · refine ⟨_, rfl, hi.2, fun j => ?_⟩
    simp only [pmuldq, ofQwords, h.reg _ hi.1.1, h.reg _ hi.1.2]
    split <;> rfl
  · exact ⟨_, rfl, hi.2, fun j => h.reg _ hi.1 _⟩
  · exact ⟨_, rfl, hi.2, fun j => h.reg _ hi.1 _⟩
  · refine ⟨_, rfl, hi.2, fun j => ?_⟩
    simp only [psrlq32, h.reg _ hi.1]
    split <;> rfl
  · refine ⟨_, rfl, hi.2, fun j => ?_⟩
    simp only [pblendd, h.reg _ hi.1.1, h.reg _ hi.1.2]
    split <;> rfl
  · refine ⟨_, rfl, hi.2, fun j => ?_⟩
    rw [hn]; simp only [paddd, h.reg _ hi.1.1, h.reg _ hi.1.2]; rfl
  · refine ⟨_, rfl, hi.2, fun j => ?_⟩
    rw [hn]; simp only [psubd, h.reg _ hi.1.1, h.reg _ hi.1.2]; rfl
  · refine ⟨_, rfl, hi.2, fun j => ?_⟩
    simp only [paddq, ofQwords, qword, h.reg _ hi.1.1, h.reg _ hi.1.2]
    split <;> simp only [V.d, V.ev, qterm_ev]
  · refine ⟨_, rfl, hi.2, fun j => ?_⟩
    simp only [psubq, ofQwords, qword, h.reg _ hi.1.1, h.reg _ hi.1.2]
    split <;> simp only [V.d, V.ev, qterm_ev]
  · rename_i imm a b d
    refine ⟨_, rfl, hi.2, fun j => ?_⟩
    simp only [perm2i128, half, h.reg _ hi.1.1, h.reg _ hi.1.2]
    by_cases c : j.1 < 4
    · simp only [c, dite_true, if_true, Nat.mod_eq_of_lt c]
      repeat' split
      all_goals rfl
    · have e : j.1 - 4 = j.1 % 4 := by omega
      simp only [c, dite_false, if_false, e]
      repeat' split
      all_goals rfl
  · refine ⟨_, rfl, hi.2, fun j => ?_⟩
    simp only [unpcklq, h.reg _ hi.1.1, h.reg _ hi.1.2]
    split <;> rfl
  · refine ⟨_, rfl, hi.2, fun j => ?_⟩
    simp only [unpckhq, h.reg _ hi.1.1, h.reg _ hi.1.2]
    split <;> rfl

theorem symStep_sound {β : Type} (norm : V → V) (env : Nat → W32) (hn : ∀ v, (norm v).d env = v.d env) (nmem : Nat) (regs mem : List Row) (s : Mach)
    (h : Desc env nmem regs mem s) (i : Instr) (hi : okInstr nmem i = true) (k : List Row → List Row → β) :
    ∃ regs' mem', symStep norm regs mem i k = k regs' mem' ∧ Desc env nmem regs' mem' (exec s i) := by
  cases hd : dest i with
  | some d =>
    obtain ⟨v, e, hd', hv⟩ := symLane_sound norm env hn nmem regs mem s h i hi d hd
    refine ⟨regs.set d ⟨symLane norm regs mem i 0, symLane norm regs mem i 1, symLane norm regs mem i 2, symLane norm regs mem i 3,
      symLane norm regs mem i 4, symLane norm regs mem i 5, symLane norm regs mem i 6, symLane norm regs mem i 7⟩, mem, ?_, ?_⟩
    · cases i <;> simp only [dest, Option.some.injEq, reduceCtorEq] at hd <;> subst hd <;> simp only [symStep, rowOf_eq, lset_eq, dest, Option.getD_some]
    · rw [e]
      refine ⟨by simp [h.lenR], h.lenM, fun r hr j => ?_, fun a ha j => h.mem a ha j⟩
      rw [lane_set _ _ _ _ _ (by rw [h.lenR]; exact hd')]
      show (if r = d then v else s.reg r) j = _
      by_cases c : r = d
      · rw [if_pos c, if_pos c, row_get, hv]
      · rw [if_neg c, if_neg c, h.reg r hr]
  | none =>
    cases i <;> simp only [dest, reduceCtorEq] at hd
    rename_i r addr
    simp only [okInstr, Bool.and_eq_true, beq_iff_eq, decide_eq_true_eq] at hi
    refine ⟨regs, mem.set (addr / 8) (regs.getD r Row.zero), by simp only [symStep, lset_eq], h.lenR, by simp [h.lenM], h.reg, fun a ha j => ?_⟩
    rw [lane_set _ _ _ _ _ (by rw [h.lenM]; exact hi.1.2)]
    simp only [exec, Mach.store]
    by_cases c : a = addr / 8
    · rw [dif_pos (by omega), if_pos c]
      have := h.reg r hi.2 j
      rw [show (⟨8 * a + j.1 - addr, by omega⟩ : Fin 8) = j from Fin.ext (by simp; omega)]
      exact this
    · rw [dif_neg (by omega), if_neg c, h.mem a ha]

/-- **Soundness of symbolic execution.** -/
theorem sym_sound {β : Type} (norm : V → V) (env : Nat → W32) (hn : ∀ v, (norm v).d env = v.d env) (nmem : Nat) (k : List Row → List Row → β) (p : List Instr)
    (regs mem : List Row) (s : Mach) (h : Desc env nmem regs mem s) (b : β) (hb : symRun norm nmem p regs mem k = some b) :
    ∃ regs' mem', k regs' mem' = b ∧ Desc env nmem regs' mem' (run s p) := by
  induction p generalizing regs mem s with
  | nil => exact ⟨regs, mem, Option.some.inj hb, h⟩
  | cons i p ih =>
    rw [symRun] at hb
    split at hb
    · rename_i hi
      obtain ⟨regs', mem', e, h'⟩ := symStep_sound norm env hn nmem regs mem s h i hi (fun regs mem => symRun norm nmem p regs mem k)
      rw [e] at hb
      exact ih regs' mem' _ h' hb
    · cases hb

end Verif.Avx2
