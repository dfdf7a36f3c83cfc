import Verif.Neon.Simd
import Verif.Avx2.Sym

/-!
# Symbolic execution of straight-line aarch64 code

As `Verif.Avx2.Sym`: a symbolic machine holds terms instead of words (pointer registers hold numbers); the kernel runs it.  `sym_sound`: whatever the
values of the variables, running the real code on a machine that the symbolic state describes gives a machine that the final symbolic state describes.
-/

namespace Verif.Neon

open Verif.Avx2 (W32 lo32 hi32 smul forceN forceN_eq lset lset_eq)

/-- Terms; those headed by `sml`, `qadd`, `qsub`, `pair` stand for quadwords. -/
inductive V
  | x (c : Nat)
  | lit (n : Nat)
  | ubf (l n : Nat) (a : V)
  | add (a b : V)
  | sub (a b : V)
  | mul (a b : V)
  | rdm (a b : V)
  | orr (a b : V)
  | cge (a b : V)
  | sml (a b : V)
  | qadd (a b : V)
  | qsub (a b : V)
  | pair (a b : V)
  | neg (a : V)
  | lo (a : V)
  | hi (a : V)
  | srs (n : Nat) (a : V)
  | sar (n : Nat) (a : V)
  | shl (n : Nat) (a : V)
  | lsr (n : Nat) (a : V)
deriving Repr

/-- Values of a term as a word and as a quadword. -/
def V.ev (env : Nat → W32) : V → W32 × BitVec 64
  | x c => (env c, 0)
  | lit n => (BitVec.ofNat 32 n, 0)
  | ubf l n a => (Neon.ubf l n (a.ev env).1, 0)
  | add a b => ((a.ev env).1 + (b.ev env).1, 0)
  | sub a b => ((a.ev env).1 - (b.ev env).1, 0)
  | mul a b => ((a.ev env).1 * (b.ev env).1, 0)
  | rdm a b => (rdmulh (a.ev env).1 (b.ev env).1, 0)
  | orr a b => ((a.ev env).1 ||| (b.ev env).1, 0)
  | cge a b => (Neon.cge (a.ev env).1 (b.ev env).1, 0)
  | sml a b => (0, smul (a.ev env).1 (b.ev env).1)
  | qadd a b => (0, (a.ev env).2 + (b.ev env).2)
  | qsub a b => (0, (a.ev env).2 - (b.ev env).2)
  | pair h l => (0, (h.ev env).1 ++ (l.ev env).1)
  | neg a => (-(a.ev env).1, 0)
  | lo q => (lo32 (q.ev env).2, 0)
  | hi q => (hi32 (q.ev env).2, 0)
  | srs n a => (Neon.srs n (a.ev env).1, 0)
  | sar n a => ((a.ev env).1.sshiftRight n, 0)
  | shl n a => ((a.ev env).1 <<< n, 0)
  | lsr n a => ((a.ev env).1 >>> n, 0)

/-- Word value. -/
abbrev V.d (env : Nat → W32) (v : V) : W32 := (v.ev env).1

/-- Structural equality, as a program. -/
def V.beq : V → V → Bool
  | x c, x c' => c == c'
  | lit c, lit c' => c == c'
  | ubf l n a, ubf l' n' a' => l == l' && n == n' && a.beq a'
  | add a b, add a' b' => a.beq a' && b.beq b'
  | sub a b, sub a' b' => a.beq a' && b.beq b'
  | mul a b, mul a' b' => a.beq a' && b.beq b'
  | rdm a b, rdm a' b' => a.beq a' && b.beq b'
  | orr a b, orr a' b' => a.beq a' && b.beq b'
  | cge a b, cge a' b' => a.beq a' && b.beq b'
  | sml a b, sml a' b' => a.beq a' && b.beq b'
  | qadd a b, qadd a' b' => a.beq a' && b.beq b'
  | qsub a b, qsub a' b' => a.beq a' && b.beq b'
  | pair a b, pair a' b' => a.beq a' && b.beq b'
  | neg a, neg a' => a.beq a'
  | lo a, lo a' => a.beq a'
  | hi a, hi a' => a.beq a'
  | srs n a, srs n' a' => n == n' && a.beq a'
  | sar n a, sar n' a' => n == n' && a.beq a'
  | shl n a, shl n' a' => n == n' && a.beq a'
  | lsr n a, lsr n' a' => n == n' && a.beq a'
  | _, _ => false

theorem V.eq_of_beq (a b : V) (h : a.beq b = true) : a = b := by
  induction a generalizing b <;> cases b <;> simp only [V.beq, Bool.and_eq_true, beq_iff_eq, reduceCtorEq, Bool.false_eq_true] at h
  case x => rw [h]
  case lit => rw [h]
  case ubf ih _ _ _ => rw [h.1.1, h.1.2, ih _ h.2]
  case neg ih _ => rw [ih _ h]
  case lo ih _ => rw [ih _ h]
  case hi ih _ => rw [ih _ h]
  case srs ih _ _ => rw [h.1, ih _ h.2]
  case sar ih _ _ => rw [h.1, ih _ h.2]
  case shl ih _ _ => rw [h.1, ih _ h.2]
  case lsr ih _ _ => rw [h.1, ih _ h.2]
  all_goals (rename_i i1 i2 _ _; rw [i1 _ h.1, i2 _ h.2])

/-- Evaluate a term completely. -/
def V.force {β : Type} : V → (V → β) → β
  | x c, k => forceN c fun c => k (x c)
  | lit c, k => forceN c fun c => k (lit c)
  | ubf l n a, k => forceN l fun l => forceN n fun n => a.force fun a => k (ubf l n a)
  | add a b, k => a.force fun a => b.force fun b => k (add a b)
  | sub a b, k => a.force fun a => b.force fun b => k (sub a b)
  | mul a b, k => a.force fun a => b.force fun b => k (mul a b)
  | rdm a b, k => a.force fun a => b.force fun b => k (rdm a b)
  | orr a b, k => a.force fun a => b.force fun b => k (orr a b)
  | cge a b, k => a.force fun a => b.force fun b => k (cge a b)
  | sml a b, k => a.force fun a => b.force fun b => k (sml a b)
  | qadd a b, k => a.force fun a => b.force fun b => k (qadd a b)
  | qsub a b, k => a.force fun a => b.force fun b => k (qsub a b)
  | pair a b, k => a.force fun a => b.force fun b => k (pair a b)
  | neg a, k => a.force fun a => k (neg a)
  | lo a, k => a.force fun a => k (lo a)
  | hi a, k => a.force fun a => k (hi a)
  | srs n a, k => forceN n fun n => a.force fun a => k (srs n a)
  | sar n a, k => forceN n fun n => a.force fun a => k (sar n a)
  | shl n a, k => forceN n fun n => a.force fun a => k (shl n a)
  | lsr n a, k => forceN n fun n => a.force fun a => k (lsr n a)

theorem V.force_eq {β : Type} (v : V) (k : V → β) : v.force k = k v := by
  induction v generalizing k <;> simp [V.force, forceN_eq, *]

/-- Four terms. -/
structure Row where
  (a0 a1 a2 a3 : V)

/-- Lane. -/
def Row.get (r : Row) : Nat → V
  | 0 => r.a0 | 1 => r.a1 | 2 => r.a2 | _ => r.a3

/-- A row from its lanes, evaluated. -/
def rowOf {β : Type} (f : Nat → V) (k : Row → β) : β :=
  (f 0).force fun a0 => (f 1).force fun a1 => (f 2).force fun a2 => (f 3).force fun a3 => k ⟨a0, a1, a2, a3⟩

theorem rowOf_eq {β : Type} (f : Nat → V) (k : Row → β) : rowOf f k = k ⟨f 0, f 1, f 2, f 3⟩ := by
  simp [rowOf, V.force_eq]

/-- The all-zero row. -/
def Row.zero : Row := ⟨.lit 0, .lit 0, .lit 0, .lit 0⟩

/-- Lane of a listed row. -/
def lane (l : List Row) (r j : Nat) : V := (l.getD r Row.zero).get j

/-- Quadword of two lanes. -/
def qterm (h l : V) : V :=
  match h, l with
  | .hi a, .lo b => if a.beq b then a else .pair h l
  | _, _ => .pair h l

/-- Symbolic machine. -/
structure SSt where
  regs : List Row
  xs : List Nat
  ws : List V
  mem : List Row

/-- Memory word. -/
def SSt.m (s : SSt) (a : Nat) : V := lane s.mem (a / 4) (a % 4)
/-- Data register. -/
def SSt.wr (s : SSt) (r : Nat) : V := s.ws.getD r (.lit 0)
/-- Pointer register: entry `n + 1` is the pointer `n`, entry 0 an unknown one. -/
def SSt.xr (s : SSt) (r : Nat) : Nat := s.xs.getD r 0 - 1
/-- The pointer register is known. -/
def SSt.kx (s : SSt) (r : Nat) : Bool := decide (r < 32) && s.xs.getD r 0 != 0
/-- Lane of a second operand. -/
def SSt.op (s : SSt) (o : Op) (j : Nat) : V :=
  match o with
  | .v r => lane s.regs r j
  | .e r i => lane s.regs r (i % 4)

/-- What an instruction does to the symbolic machine. -/
inductive Eff
  | vec (d : Nat) (f : Nat → V)
  | ptr (d n : Nat)
  | dat (d : Nat) (v : V)
  | dat2 (d : Nat) (v v' : V)
  | sto (addr : Nat) (f : Nat → V)
  | stw (addr : Nat) (v : V)

/-- Low or high word of a quadword, by the parity of the lane. -/
def half (j : Nat) (q : V) : V := if j % 2 = 0 then .lo q else .hi q
/-- The quadword of lane `j` of a register. -/
def qd (s : SSt) (d j : Nat) : V := qterm (lane s.regs d (2 * (j / 2) + 1)) (lane s.regs d (2 * (j / 2)))

/-- Effect of an instruction. -/
def eff (norm : V → V) (s : SSt) : Instr → Eff
  | .addx d p n => .ptr d (s.xr p + n)
  | .ldrw d p off => .dat d (s.m (s.xr p + off))
  | .ldrx d p off => .dat2 d (s.m (s.xr p + off)) (s.m (s.xr p + off + 1))
  | .strw r p => .stw (s.xr p) (s.wr r)
  | .movw d n => .dat d (.lit n)
  | .lsrw d r n => .dat d (.lsr n (s.wr r))
  | .lslw d r n => .dat d (.shl n (s.wr r))
  | .orrw d a b => .dat d (.orr (s.wr a) (s.wr b))
  | .ubfx d r l n => .dat d (.ubf l n (s.wr r))
  | .negw d r => .dat d (.neg (s.wr r))
  | .dup d r => .vec d fun _ => s.wr r
  | .insS d i r => .vec d fun j => if j = i then s.wr r else lane s.regs d j
  | .insD0 d r => .vec d fun j => if j = 0 then s.wr r else if j = 1 then s.wr (r + 32) else lane s.regs d j
  | .ldn n k d p => .vec d fun j => s.m (s.xr p + (k + n * j))
  | .st r p off => .sto (s.xr p + off) fun j => lane s.regs r j
  | .st4row i r p => .sto (s.xr p + 4 * i) fun k => lane s.regs (r + k) (i % 4)
  | .mul d a b => .vec d fun j => .mul (lane s.regs a j) (s.op b j)
  | .mla d a b => .vec d fun j => norm (.add (lane s.regs d j) (.mul (lane s.regs a j) (s.op b j)))
  | .mls d a b => .vec d fun j => norm (.sub (lane s.regs d j) (.mul (lane s.regs a j) (s.op b j)))
  | .sqrdmulh d a b => .vec d fun j => .rdm (lane s.regs a j) (s.op b j)
  | .add d a b => .vec d fun j => norm (.add (lane s.regs a j) (lane s.regs b j))
  | .sub d a b => .vec d fun j => norm (.sub (lane s.regs a j) (lane s.regs b j))
  | .cmge d a b => .vec d fun j => .cge (lane s.regs a j) (lane s.regs b j)
  | .srshr d a n => .vec d fun j => .srs n (lane s.regs a j)
  | .sshr d a n => .vec d fun j => .sar n (lane s.regs a j)
  | .shl d a n => .vec d fun j => .shl n (lane s.regs a j)
  | .uzp1 d a b => .vec d fun j => if j < 2 then lane s.regs a (2 * (j % 2)) else lane s.regs b (2 * (j % 2))
  | .uzp2 d a b => .vec d fun j => if j < 2 then lane s.regs a (2 * (j % 2) + 1) else lane s.regs b (2 * (j % 2) + 1)
  | .trn1s d a b => .vec d fun j => if j % 2 = 0 then lane s.regs a (2 * (j / 2)) else lane s.regs b (2 * (j / 2))
  | .trn2s d a b => .vec d fun j => if j % 2 = 0 then lane s.regs a (2 * (j / 2) + 1) else lane s.regs b (2 * (j / 2) + 1)
  | .trn1d d a b => .vec d fun j => if j < 2 then lane s.regs a (j % 2) else lane s.regs b (j % 2)
  | .trn2d d a b => .vec d fun j => if j < 2 then lane s.regs a (2 + j % 2) else lane s.regs b (2 + j % 2)
  | .smull d a b => .vec d fun j => half j (.sml (lane s.regs a (j / 2)) (lane s.regs b (j / 2)))
  | .smull2 d a b => .vec d fun j => half j (.sml (lane s.regs a (2 + j / 2)) (lane s.regs b (2 + j / 2)))
  | .smlal d a b => .vec d fun j => half j (.qadd (qd s d j) (.sml (lane s.regs a (j / 2)) (lane s.regs b (j / 2))))
  | .smlal2 d a b => .vec d fun j => half j (.qadd (qd s d j) (.sml (lane s.regs a (2 + j / 2)) (lane s.regs b (2 + j / 2))))
  | .smlsl d a b => .vec d fun j => half j (.qsub (qd s d j) (.sml (lane s.regs a (j / 2)) (lane s.regs b (j / 2))))
  | .smlsl2 d a b => .vec d fun j => half j (.qsub (qd s d j) (.sml (lane s.regs a (2 + j / 2)) (lane s.regs b (2 + j / 2))))

/-- Register of a second operand. -/
def Op.ok : Op → Bool
  | .v r => decide (r < 32)
  | .e r i => decide (r < 32) && decide (i < 4)

/-- Accesses are within the listed memory, stores of rows aligned to 16 bytes, register numbers below 32. -/
def okInstr (nmem : Nat) (s : SSt) : Instr → Bool
  | .addx d p _ => decide (d < 32) && s.kx p
  | .ldrw d p off => decide (d < 32) && s.kx p && decide (s.xr p + off < 4 * nmem)
  | .ldrx d p off => decide (d < 32) && s.kx p && decide (s.xr p + off + 1 < 4 * nmem)
  | .strw r p => decide (r < 32) && s.kx p && decide (s.xr p < 4 * nmem)
  | .movw d _ => decide (d < 32)
  | .lsrw d r _ | .lslw d r _ | .ubfx d r _ _ | .negw d r | .dup d r | .insS d _ r | .insD0 d r => decide (d < 32) && decide (r < 32)
  | .orrw d a b => decide (d < 32) && decide (a < 32) && decide (b < 32)
  | .ldn n k d p => decide (d < 32) && s.kx p && decide (s.xr p + (k + n * 3) < 4 * nmem)
  | .st r p off => decide (r < 32) && s.kx p && (s.xr p + off) % 4 == 0 && decide ((s.xr p + off) / 4 < nmem)
  | .st4row i r p => decide (r + 3 < 32) && s.kx p && (s.xr p + 4 * i) % 4 == 0 && decide ((s.xr p + 4 * i) / 4 < nmem)
  | .mul d a b | .mla d a b | .mls d a b | .sqrdmulh d a b => decide (d < 32) && decide (a < 32) && b.ok
  | .add d a b | .sub d a b | .cmge d a b | .uzp1 d a b | .uzp2 d a b | .trn1s d a b | .trn2s d a b | .trn1d d a b | .trn2d d a b
  | .smull d a b | .smull2 d a b | .smlal d a b | .smlal2 d a b | .smlsl d a b | .smlsl2 d a b => decide (d < 32) && decide (a < 32) && decide (b < 32)
  | .srshr d a _ | .sshr d a _ | .shl d a _ => decide (d < 32) && decide (a < 32)

/-- Carry an effect out. -/
def apply {β : Type} (s : SSt) (e : Eff) (k : SSt → β) : β :=
  match e with
  | .vec d f => rowOf f fun row => lset s.regs d row fun regs => k { s with regs := regs }
  | .ptr d n => forceN (n + 1) fun n => lset s.xs d n fun xs => k { s with xs := xs }
  | .dat d v => v.force fun v => lset s.ws d v fun ws => k { s with ws := ws }
  | .dat2 d v v' => v.force fun v => v'.force fun v' => lset s.ws d v fun ws => lset ws (d + 32) v' fun ws => k { s with ws := ws }
  | .sto addr f => rowOf f fun row => lset s.mem (addr / 4) row fun mem => k { s with mem := mem }
  | .stw addr v => v.force fun v => rowOf (fun j => if j = addr % 4 then v else lane s.mem (addr / 4) j) fun row =>
      lset s.mem (addr / 4) row fun mem => k { s with mem := mem }

/-- Symbolic run; `none` on an instruction outside the limits of `okInstr`. -/
def symRun {β : Type} (norm : V → V) (nmem : Nat) : List Instr → SSt → (SSt → β) → Option β
  | [], s, k => some (k s)
  | i :: p, s, k => if okInstr nmem s i then apply s (eff norm s i) fun s => symRun norm nmem p s k else none

/-- A symbolic state describes a machine. -/
structure Desc (env : Nat → W32) (nmem : Nat) (t : SSt) (s : Mach) : Prop where
  lenR : t.regs.length = 32
  lenX : t.xs.length = 32
  lenW : t.ws.length = 64
  lenM : t.mem.length = nmem
  reg : ∀ r < 32, ∀ j : Fin 4, s.reg r j = (lane t.regs r j.1).d env
  x : ∀ r, t.kx r = true → s.x r = t.xr r
  w : ∀ r < 64, s.w r = (t.wr r).d env
  mem : ∀ a < nmem, ∀ j : Fin 4, s.mem (4 * a + j.1) = (lane t.mem a j.1).d env

theorem lane_set (l : List Row) (n r j : Nat) (row : Row) (hn : n < l.length) : lane (l.set n row) r j = if r = n then row.get j else lane l r j := by
  unfold lane
  by_cases h : r = n
  · subst h; simp [List.getD_eq_getElem?_getD, List.getElem?_set, hn]
  · simp [List.getD_eq_getElem?_getD, List.getElem?_set, h, Ne.symm h]

theorem getD_set {α : Type} (l : List α) (n r : Nat) (v d : α) (hn : n < l.length) : (l.set n v).getD r d = if r = n then v else l.getD r d := by
  by_cases h : r = n
  · subst h; simp [List.getD_eq_getElem?_getD, List.getElem?_set, hn]
  · simp [List.getD_eq_getElem?_getD, List.getElem?_set, h, Ne.symm h]

theorem row_get (f : Nat → V) (j : Fin 4) : (Row.mk (f 0) (f 1) (f 2) (f 3)).get j.1 = f j.1 := by
  fin_cases j <;> rfl

theorem qterm_ev (env : Nat → W32) (h l : V) : ((qterm h l).ev env).2 = h.d env ++ l.d env := by
  unfold qterm
  split
  · split
    · rename_i a b hab
      rw [← V.eq_of_beq a b hab]
      show (a.ev env).2 = hi32 _ ++ lo32 _
      generalize (a.ev env).2 = w
      unfold hi32 lo32
      apply BitVec.eq_of_getLsbD_eq
      intro i hi
      simp only [BitVec.getLsbD_append, BitVec.getLsbD_setWidth, BitVec.getLsbD_extractLsb']
      by_cases c : i < 32
      · simp [c]
      · have : i - 32 < 32 := by omega
        simp [c, this, show 32 + (i - 32) = i by omega]
    · rfl
  · rfl

section
variable {env : Nat → W32} {nmem : Nat} {t : SSt} {s : Mach}

theorem Desc.m (h : Desc env nmem t s) (a : Nat) (ha : a < 4 * nmem) : s.mem a = (t.m a).d env := by
  have := h.mem (a / 4) (by omega) ⟨a % 4, by omega⟩
  rw [show 4 * (a / 4) + a % 4 = a by omega] at this
  exact this

theorem Desc.op (h : Desc env nmem t s) (o : Op) (ho : o.ok = true) (j : Fin 4) : s.op o j = (t.op o j.1).d env := by
  cases o with
  | v r => exact h.reg r (by simpa [Op.ok] using ho) j
  | e r i =>
    simp only [Op.ok, Bool.and_eq_true, decide_eq_true_eq] at ho
    exact h.reg r ho.1 (Fin.ofNat 4 i)

theorem half_ev (j : Nat) (q : V) : (half j q).d env = if j % 2 = 0 then lo32 (q.ev env).2 else hi32 (q.ev env).2 := by
  unfold half; split <;> rfl

theorem Desc.qd (h : Desc env nmem t s) (d : Nat) (hd : d < 32) (j : Fin 4) : ((qd t d j.1).ev env).2 = dbl (s.reg d) ⟨j.1 / 2, by omega⟩ := by
  unfold Neon.qd dbl
  rw [qterm_ev, h.reg d hd, h.reg d hd]

/-- Writing a vector register. -/
theorem Desc.vec (h : Desc env nmem t s) (d : Nat) (hd : d < 32) (f : Nat → V) (v : Vq) (hv : ∀ j : Fin 4, v j = (f j.1).d env) :
    Desc env nmem { t with regs := t.regs.set d ⟨f 0, f 1, f 2, f 3⟩ } (s.set d v) := by
  refine ⟨by simp [h.lenR], h.lenX, h.lenW, h.lenM, fun r hr j => ?_, h.x, h.w, h.mem⟩
  rw [lane_set _ _ _ _ _ (by rw [h.lenR]; exact hd)]
  show (if r = d then v else s.reg r) j = _
  by_cases c : r = d
  · rw [if_pos c, if_pos c, row_get, hv]
  · rw [if_neg c, if_neg c, h.reg r hr]

theorem Desc.ptr (h : Desc env nmem t s) (d : Nat) (hd : d < 32) (n : Nat) : Desc env nmem { t with xs := t.xs.set d (n + 1) } (s.setx d n) := by
  refine ⟨h.lenR, by simp [h.lenX], h.lenW, h.lenM, h.reg, fun r hr => ?_, h.w, h.mem⟩
  show (if r = d then n else s.x r) = (t.xs.set d (n + 1)).getD r 0 - 1
  simp only [SSt.kx] at hr
  rw [getD_set _ _ _ _ _ (by rw [h.lenX]; exact hd)] at hr ⊢
  split
  · rfl
  · rename_i c
    rw [if_neg c] at hr
    exact h.x r hr

theorem Desc.dat (h : Desc env nmem t s) (d : Nat) (hd : d < 64) (v : V) (x : W32) (hv : x = v.d env) :
    Desc env nmem { t with ws := t.ws.set d v } (s.setw d x) := by
  refine ⟨h.lenR, h.lenX, by simp [h.lenW], h.lenM, h.reg, h.x, fun r hr => ?_, h.mem⟩
  show (if r = d then x else s.w r) = ((t.ws.set d v).getD r (.lit 0)).d env
  rw [getD_set _ _ _ _ _ (by rw [h.lenW]; exact hd)]
  split
  · exact hv
  · exact h.w r hr

theorem Desc.sto (h : Desc env nmem t s) (addr : Nat) (h1 : addr % 4 = 0) (h2 : addr / 4 < nmem) (f : Nat → V) (v : Vq) (hv : ∀ j : Fin 4, v j = (f j.1).d env) :
    Desc env nmem { t with mem := t.mem.set (addr / 4) ⟨f 0, f 1, f 2, f 3⟩ } (s.store addr v) := by
  refine ⟨h.lenR, h.lenX, h.lenW, by simp [h.lenM], h.reg, h.x, h.w, fun a ha j => ?_⟩
  rw [lane_set _ _ _ _ _ (by rw [h.lenM]; exact h2)]
  simp only [Mach.store]
  by_cases c : a = addr / 4
  · rw [dif_pos (by omega), if_pos c, row_get, ← hv]
    exact congrArg v (Fin.ext (by simp; omega))
  · rw [dif_neg (by omega), if_neg c, h.mem a ha]

theorem Desc.stw (h : Desc env nmem t s) (addr : Nat) (h2 : addr < 4 * nmem) (v : V) (x : W32) (hv : x = v.d env) :
    Desc env nmem { t with mem := t.mem.set (addr / 4) ⟨if 0 = addr % 4 then v else lane t.mem (addr / 4) 0, if 1 = addr % 4 then v else lane t.mem (addr / 4) 1,
      if 2 = addr % 4 then v else lane t.mem (addr / 4) 2, if 3 = addr % 4 then v else lane t.mem (addr / 4) 3⟩ }
      { s with mem := fun a => if a = addr then x else s.mem a } := by
  refine ⟨h.lenR, h.lenX, h.lenW, by simp [h.lenM], h.reg, h.x, h.w, fun a ha j => ?_⟩
  rw [lane_set _ _ _ _ _ (by rw [h.lenM]; omega)]
  show (if 4 * a + j.1 = addr then x else s.mem (4 * a + j.1)) = _
  by_cases c : a = addr / 4
  · rw [if_pos c, row_get (fun j => if j = addr % 4 then v else lane t.mem (addr / 4) j)]
    by_cases c' : j.1 = addr % 4
    · rw [if_pos (by omega), if_pos c', hv]
    · rw [if_neg (by omega), if_neg c', h.mem a ha, c]
  · rw [if_neg (by omega), if_neg c, h.mem a ha]

end

/-- One step. -/
theorem step_sound {β : Type} (norm : V → V) (env : Nat → W32) (hn : ∀ v, (norm v).d env = v.d env) (nmem : Nat) (t : SSt) (s : Mach)
    (h : Desc env nmem t s) (i : Instr) (hi : okInstr nmem t i = true) (k : SSt → β) :
    ∃ t', apply t (eff norm t i) k = k t' ∧ Desc env nmem t' (exec s i) := by
  cases i <;> simp only [okInstr, Bool.and_eq_true, beq_iff_eq, decide_eq_true_eq] at hi <;>
    simp only [eff, apply, rowOf_eq, lset_eq, forceN_eq, V.force_eq, exec] <;> refine ⟨_, rfl, ?_⟩
  case addx d p n => rw [h.x p hi.2]; exact h.ptr d hi.1 _
  case ldrw d p off => exact h.dat d (by omega) _ _ (by rw [h.x p hi.1.2, h.m _ hi.2])
  case ldrx d p off =>
    exact (h.dat d (by omega) _ _ (by rw [h.x p hi.1.2, h.m _ (by omega)])).dat (d + 32) (by omega) _ _ (by rw [h.x p hi.1.2, h.m _ hi.2])
  case strw r p => rw [h.x p hi.1.2]; exact h.stw _ hi.2 _ _ (h.w r (by omega))
  case movw d n => exact h.dat d (by omega) _ _ rfl
  case lsrw d r n => exact h.dat d (by omega) _ _ (by rw [h.w r (by omega)]; rfl)
  case lslw d r n => exact h.dat d (by omega) _ _ (by rw [h.w r (by omega)]; rfl)
  case orrw d a b => exact h.dat d (by omega) _ _ (by rw [h.w a (by omega), h.w b (by omega)]; rfl)
  case ubfx d r l n => exact h.dat d (by omega) _ _ (by rw [h.w r (by omega)]; rfl)
  case negw d r => exact h.dat d (by omega) _ _ (by rw [h.w r (by omega)]; rfl)
  case dup d r => exact h.vec d hi.1 (fun _ => t.wr r) _ fun j => h.w r (by omega)
  case insS d i r =>
    refine h.vec d hi.1 (fun j => if j = i then t.wr r else lane t.regs d j) _ fun j => ?_
    try dsimp only
    split
    · exact h.w r (by omega)
    · exact h.reg d hi.1 j
  case insD0 d r =>
    refine h.vec d hi.1 (fun j => if j = 0 then t.wr r else if j = 1 then t.wr (r + 32) else lane t.regs d j) _ fun j => ?_
    try dsimp only
    split
    · exact h.w r (by omega)
    · split
      · exact h.w (r + 32) (by omega)
      · exact h.reg d hi.1 j
  case ldn n k d p =>
    refine h.vec d hi.1.1 (fun j => t.m (t.xr p + (k + n * j))) _ fun j => ?_
    have : n * j.1 ≤ n * 3 := Nat.mul_le_mul_left n (by omega)
    rw [h.x p hi.1.2, h.m _ (by omega)]
  case st r p off => rw [h.x p hi.1.1.2]; exact h.sto _ hi.1.2 hi.2 (fun j => lane t.regs r j) _ fun j => h.reg r hi.1.1.1 j
  case st4row i r p =>
    rw [h.x p hi.1.1.2]
    exact h.sto _ hi.1.2 hi.2 (fun k => lane t.regs (r + k) (i % 4)) _ fun k => h.reg (r + k.1) (by have := k.2; omega) (Fin.ofNat 4 i)
  case mul d a b => exact h.vec d hi.1.1 (fun j => .mul (lane t.regs a j) (t.op b j)) _ fun j => by rw [h.reg a hi.1.2, h.op b hi.2]; rfl
  case mla d a b =>
    exact h.vec d hi.1.1 (fun j => norm (.add (lane t.regs d j) (.mul (lane t.regs a j) (t.op b j)))) _ fun j => by
      rw [hn, h.reg a hi.1.2, h.reg d hi.1.1, h.op b hi.2]; rfl
  case mls d a b =>
    exact h.vec d hi.1.1 (fun j => norm (.sub (lane t.regs d j) (.mul (lane t.regs a j) (t.op b j)))) _ fun j => by
      rw [hn, h.reg a hi.1.2, h.reg d hi.1.1, h.op b hi.2]; rfl
  case sqrdmulh d a b => exact h.vec d hi.1.1 (fun j => .rdm (lane t.regs a j) (t.op b j)) _ fun j => by rw [h.reg a hi.1.2, h.op b hi.2]; rfl
  case add d a b =>
    exact h.vec d hi.1.1 (fun j => norm (.add (lane t.regs a j) (lane t.regs b j))) _ fun j => by rw [hn, h.reg a hi.1.2, h.reg b hi.2]; rfl
  case sub d a b =>
    exact h.vec d hi.1.1 (fun j => norm (.sub (lane t.regs a j) (lane t.regs b j))) _ fun j => by rw [hn, h.reg a hi.1.2, h.reg b hi.2]; rfl
  case cmge d a b => exact h.vec d hi.1.1 (fun j => .cge (lane t.regs a j) (lane t.regs b j)) _ fun j => by rw [h.reg a hi.1.2, h.reg b hi.2]; rfl
  case srshr d a n => exact h.vec d hi.1 (fun j => .srs n (lane t.regs a j)) _ fun j => by rw [h.reg a hi.2]; rfl
  case sshr d a n => exact h.vec d hi.1 (fun j => .sar n (lane t.regs a j)) _ fun j => by rw [h.reg a hi.2]; rfl
  case shl d a n => exact h.vec d hi.1 (fun j => .shl n (lane t.regs a j)) _ fun j => by rw [h.reg a hi.2]; rfl
  case uzp1 d a b =>
    refine h.vec d hi.1.1 (fun j => if j < 2 then lane t.regs a (2 * (j % 2)) else lane t.regs b (2 * (j % 2))) _ fun j => ?_
    try dsimp only
    split
    · exact h.reg a hi.1.2 _
    · exact h.reg b hi.2 _
  case uzp2 d a b =>
    refine h.vec d hi.1.1 (fun j => if j < 2 then lane t.regs a (2 * (j % 2) + 1) else lane t.regs b (2 * (j % 2) + 1)) _ fun j => ?_
    try dsimp only
    split
    · exact h.reg a hi.1.2 _
    · exact h.reg b hi.2 _
  case trn1s d a b =>
    refine h.vec d hi.1.1 (fun j => if j % 2 = 0 then lane t.regs a (2 * (j / 2)) else lane t.regs b (2 * (j / 2))) _ fun j => ?_
    try dsimp only
    split
    · exact h.reg a hi.1.2 _
    · exact h.reg b hi.2 _
  case trn2s d a b =>
    refine h.vec d hi.1.1 (fun j => if j % 2 = 0 then lane t.regs a (2 * (j / 2) + 1) else lane t.regs b (2 * (j / 2) + 1)) _ fun j => ?_
    try dsimp only
    split
    · exact h.reg a hi.1.2 _
    · exact h.reg b hi.2 _
  case trn1d d a b =>
    refine h.vec d hi.1.1 (fun j => if j < 2 then lane t.regs a (j % 2) else lane t.regs b (j % 2)) _ fun j => ?_
    try dsimp only
    split
    · exact h.reg a hi.1.2 _
    · exact h.reg b hi.2 _
  case trn2d d a b =>
    refine h.vec d hi.1.1 (fun j => if j < 2 then lane t.regs a (2 + j % 2) else lane t.regs b (2 + j % 2)) _ fun j => ?_
    try dsimp only
    split
    · exact h.reg a hi.1.2 _
    · exact h.reg b hi.2 _
  case smull d a b =>
    refine h.vec d hi.1.1 (fun j => half j (.sml (lane t.regs a (j / 2)) (lane t.regs b (j / 2)))) _ fun j => ?_
    rw [half_ev]; unfold ofDbl; dsimp only; rw [h.reg a hi.1.2, h.reg b hi.2]; rfl
  case smull2 d a b =>
    refine h.vec d hi.1.1 (fun j => half j (.sml (lane t.regs a (2 + j / 2)) (lane t.regs b (2 + j / 2)))) _ fun j => ?_
    rw [half_ev]; unfold ofDbl; dsimp only; rw [h.reg a hi.1.2, h.reg b hi.2]; rfl
  case smlal d a b =>
    refine h.vec d hi.1.1 (fun j => half j (.qadd (qd t d j) (.sml (lane t.regs a (j / 2)) (lane t.regs b (j / 2))))) _ fun j => ?_
    rw [half_ev]; unfold ofDbl; dsimp only; rw [h.reg a hi.1.2, h.reg b hi.2]; simp only [V.ev, h.qd d hi.1.1 j]
  case smlal2 d a b =>
    refine h.vec d hi.1.1 (fun j => half j (.qadd (qd t d j) (.sml (lane t.regs a (2 + j / 2)) (lane t.regs b (2 + j / 2))))) _ fun j => ?_
    rw [half_ev]; unfold ofDbl; dsimp only; rw [h.reg a hi.1.2, h.reg b hi.2]; simp only [V.ev, h.qd d hi.1.1 j]
  case smlsl d a b =>
    refine h.vec d hi.1.1 (fun j => half j (.qsub (qd t d j) (.sml (lane t.regs a (j / 2)) (lane t.regs b (j / 2))))) _ fun j => ?_
    rw [half_ev]; unfold ofDbl; dsimp only; rw [h.reg a hi.1.2, h.reg b hi.2]; simp only [V.ev, h.qd d hi.1.1 j]
  case smlsl2 d a b =>
    refine h.vec d hi.1.1 (fun j => half j (.qsub (qd t d j) (.sml (lane t.regs a (2 + j / 2)) (lane t.regs b (2 + j / 2))))) _ fun j => ?_
    rw [half_ev]; unfold ofDbl; dsimp only; rw [h.reg a hi.1.2, h.reg b hi.2]; simp only [V.ev, h.qd d hi.1.1 j]

/-- **Soundness of symbolic execution.** -/
theorem sym_sound {β : Type} (norm : V → V) (env : Nat → W32) (hn : ∀ v, (norm v).d env = v.d env) (nmem : Nat) (k : SSt → β) (p : List Instr)
    (t : SSt) (s : Mach) (h : Desc env nmem t s) (b : β) (hb : symRun norm nmem p t k = some b) : ∃ t', k t' = b ∧ Desc env nmem t' (run s p) := by
  induction p generalizing t s with
  | nil => exact ⟨t, Option.some.inj hb, h⟩
  | cons i p ih =>
    rw [symRun] at hb
    split at hb
    · rename_i hi
      obtain ⟨t', e, h'⟩ := step_sound norm env hn nmem t s h i hi (fun t => symRun norm nmem p t k)
      rw [e] at hb
      exact ih t' _ h' hb
    · cases hb

end Verif.Neon
