import Verif.Neon35.Asm
import Verif.Neon.PolySym
import Verif.Neon.Frame

/-!
# The inner product routines of dilithium3/aarch64 and dilithium5/aarch64 run symbolically by the kernel

The memory of these is too large for the lists of `Neon/Sym.lean`.  `symRun2` lists only the first 64 rows, to which all stores must go; a load from
anywhere else is the variable of that address.
-/

namespace Verif.Neon35

open Verif.Neon
open Verif.Avx2 (W32 forceN_eq lset_eq)

/-- A word of memory. -/
def m2 (s : SSt) (a : Nat) : V := if a < 256 then s.m a else .x a

/-- As `eff`, with the loads from `m2`. -/
def eff2 (s : SSt) : Instr → Eff
  | .ldrw d p off => .dat d (m2 s (s.xr p + off))
  | .ldrx d p off => .dat2 d (m2 s (s.xr p + off)) (m2 s (s.xr p + off + 1))
  | .ldn n k d p => .vec d fun j => m2 s (s.xr p + (k + n * j))
  | i => eff id s i

/-- Stores go to the listed rows. -/
def ok2 (n : Nat) (s : SSt) (i : Instr) : Bool := okInstr n s i && match i with
  | .strw _ p => decide (s.xr p < 256)
  | .st _ p off => decide (s.xr p + off < 256)
  | .st4row k _ p => decide (s.xr p + 4 * k < 256)
  | _ => true

/-- Symbolic run. -/
def symRun2 {β : Type} (n : Nat) : List Instr → SSt → (SSt → β) → Option β
  | [], s, k => some (k s)
  | i :: p, s, k => if ok2 n s i then apply s (eff2 s i) fun s => symRun2 n p s k else none

/-- The state with all of memory listed. -/
def ext (n : Nat) (t : SSt) : SSt := { t with mem := t.mem ++ (rowsX n id).drop 64 }

theorem lane_append_lt (l l' : List Row) (r j : Nat) (h : r < l.length) : lane (l ++ l') r j = lane l r j := by
  unfold lane
  rw [List.getD_append _ _ _ _ h]

theorem lane_append_ge (l l' : List Row) (r j : Nat) (h : l.length ≤ r) : lane (l ++ l') r j = lane l' (r - l.length) j := by
  unfold lane
  rw [List.getD_append_right _ _ _ _ h]

theorem lane_drop (l : List Row) (m r j : Nat) : lane (l.drop m) r j = lane l (m + r) j := by
  unfold lane
  rw [List.getD_eq_getElem?_getD, List.getD_eq_getElem?_getD, List.getElem?_drop]

theorem rowX_get (a : Nat) : (rowX id (a / 4)).get (a % 4) = .x a := by
  have h : a % 4 = 0 ∨ a % 4 = 1 ∨ a % 4 = 2 ∨ a % 4 = 3 := by omega
  unfold rowX
  rcases h with h | h | h | h <;> rw [h] <;> show V.x _ = V.x _ <;> congr 1 <;> simp only [id] <;> omega

theorem lane_rowsX (n a : Nat) (h : a < 4 * n) : lane (rowsX n id) (a / 4) (a % 4) = .x a := by
  have e : (rowsX n id).getD (a / 4) Row.zero = rowX id (a / 4) := by
    unfold rowsX
    rw [List.getD_eq_getElem?_getD, List.getElem?_map, List.getElem?_range (by omega)]
    rfl
  unfold lane
  rw [e, rowX_get]

theorem ext_m (n : Nat) (t : SSt) (hl : t.mem.length = 64) (a : Nat) (ha : a < 4 * n) : (ext n t).m a = m2 t a := by
  unfold m2 SSt.m ext
  dsimp only
  split
  · exact lane_append_lt _ _ _ _ (by omega)
  · rw [lane_append_ge _ _ _ _ (by omega), lane_drop, hl, show 64 + (a / 4 - 64) = a / 4 by omega, lane_rowsX n a ha]

theorem step2 {β : Type} (n : Nat) (t : SSt) (hl : t.mem.length = 64) (i : Instr) (hi : ok2 n t i = true) (k : SSt → β) :
    ∃ t', t'.mem.length = 64 ∧ (∀ γ (k : SSt → γ), apply t (eff2 t i) k = k t') ∧ okInstr n (ext n t) i = true ∧
      apply (ext n t) (eff id (ext n t) i) k = k (ext n t') := by
  unfold ok2 at hi
  rw [Bool.and_eq_true] at hi
  obtain ⟨h1, h2⟩ := hi
  have xr : ∀ p, (ext n t).xr p = t.xr p := fun _ => rfl
  have wr : ∀ p, (ext n t).wr p = t.wr p := fun _ => rfl
  have lr : (ext n t).regs = t.regs := rfl
  have se : ∀ r row, r < 64 → (ext n t).mem.set r row = t.mem.set r row ++ (rowsX n id).drop 64 := fun r row h => by
    show (t.mem ++ _).set r row = _
    rw [List.set_append_left _ _ (by omega)]
  cases i
  case ldrw d p off =>
    refine ⟨_, ?_, fun γ k => by simp only [eff2, apply, lset_eq, V.force_eq]; rfl, h1, ?_⟩
    · exact hl
    · simp only [okInstr, Bool.and_eq_true, decide_eq_true_eq] at h1
      simp only [eff, apply, lset_eq, V.force_eq]
      rw [ext_m n t hl _ (by rw [xr]; omega)]
      rfl
  case ldrx d p off =>
    refine ⟨_, ?_, fun γ k => by simp only [eff2, apply, lset_eq, V.force_eq]; rfl, h1, ?_⟩
    · exact hl
    · simp only [okInstr, Bool.and_eq_true, decide_eq_true_eq] at h1
      simp only [eff, apply, lset_eq, V.force_eq]
      rw [ext_m n t hl _ (by rw [xr]; omega), ext_m n t hl _ (by rw [xr]; omega)]
      rfl
  case ldn m q d p =>
    refine ⟨_, ?_, fun γ k => by simp only [eff2, apply, lset_eq, rowOf_eq]; rfl, h1, ?_⟩
    · exact hl
    · simp only [okInstr, Bool.and_eq_true, decide_eq_true_eq] at h1
      simp only [eff, apply, lset_eq, rowOf_eq]
      rw [ext_m n t hl _ (by rw [xr]; omega), ext_m n t hl _ (by rw [xr]; omega), ext_m n t hl _ (by rw [xr]; omega), ext_m n t hl _ (by rw [xr]; omega)]
      rfl
  case strw r p =>
    simp only [decide_eq_true_eq] at h2
    refine ⟨_, ?_, fun γ k => by simp only [eff2, eff, apply, lset_eq, rowOf_eq, V.force_eq]; rfl, h1, ?_⟩
    · exact (List.length_set ..).trans hl
    · simp only [eff, apply, lset_eq, rowOf_eq, V.force_eq, xr, wr]
      rw [se _ _ (by omega)]
      have la : ∀ j, lane (ext n t).mem (t.xr p / 4) j = lane t.mem (t.xr p / 4) j := fun j => lane_append_lt _ _ _ _ (by omega)
      simp only [la]
      rfl
  case st r p off =>
    simp only [decide_eq_true_eq] at h2
    refine ⟨_, ?_, fun γ k => by simp only [eff2, eff, apply, lset_eq, rowOf_eq]; rfl, h1, ?_⟩
    · exact (List.length_set ..).trans hl
    · simp only [eff, apply, lset_eq, rowOf_eq, xr, lr]
      rw [se _ _ (by omega)]
      rfl
  case st4row q r p =>
    simp only [decide_eq_true_eq] at h2
    refine ⟨_, ?_, fun γ k => by simp only [eff2, eff, apply, lset_eq, rowOf_eq]; rfl, h1, ?_⟩
    · exact (List.length_set ..).trans hl
    · simp only [eff, apply, lset_eq, rowOf_eq, xr, lr]
      rw [se _ _ (by omega)]
      rfl
  all_goals
    refine ⟨_, ?_, fun γ k => by simp only [eff2, eff, apply, lset_eq, rowOf_eq, V.force_eq, forceN_eq]; rfl, h1, ?_⟩
    · exact hl
    · simp only [eff, apply, lset_eq, rowOf_eq, V.force_eq, forceN_eq]
      rfl

/-- `symRun2` gives what `symRun` gives on the whole memory. -/
theorem symRun2_ok {β : Type} (n : Nat) (p : List Instr) (t : SSt) (hl : t.mem.length = 64) (f : SSt → β) (g : SSt → β) (hg : ∀ t, t.mem.length = 64 → g (ext n t) = f t)
    (b : β) (h : symRun2 n p t f = some b) : symRun id n p (ext n t) g = some b := by
  induction p generalizing t with
  | nil =>
    rw [symRun2] at h
    rw [symRun, hg t hl]
    exact h
  | cons i p ih =>
    rw [symRun2] at h
    split at h
    · rename_i hi
      obtain ⟨t', l', e, o, e'⟩ := step2 n t hl i hi (fun s => symRun id n p s g)
      rw [e] at h
      rw [symRun, if_pos o, e']
      exact ih t' l' h
    · cases h

/-- The first 64 rows are the given terms. -/
def outAre (f : Nat → V) (s : SSt) : Bool := (List.range 64).all fun r => (List.range 4).all fun j => (lane s.mem r j).beq (f (4 * r + j))

/-- From the short run to the statement about the whole memory. -/
theorem plain2 (n : Nat) (hn : 64 ≤ n) (args : List Nat) (p : List Instr) (f : Nat → V) (hf : ∀ a, 256 ≤ a → f a = .x a)
    (h : symRun2 n p (start (rowsX 64 id) args) (outAre f) = some true) : symRun id n p (plain n args) (allIs f) = some true := by
  have e : plain n args = ext n (start (rowsX 64 id) args) := by
    have : rowsX n id = rowsX 64 id ++ (rowsX n id).drop 64 := by
      conv_lhs => rw [← List.take_append_drop 64 (rowsX n id)]
      congr 1
      unfold rowsX
      rw [← List.map_take, List.take_range, Nat.min_eq_left hn]
    unfold plain ext start
    rw [show (fun c => c) = (id : Nat → Nat) from rfl]
    dsimp only
    rw [← this]
  rw [e]
  refine symRun2_ok n p _ (by unfold start rowsX; simp) _ _ (fun t hl => ?_) true h
  have lm : (ext n t).mem.length = n := by
    unfold ext rowsX
    simp only [List.length_append, List.length_drop, List.length_map, List.length_range]
    omega
  unfold allIs outAre
  rw [lm]
  rw [Bool.eq_iff_iff]
  simp only [List.all_eq_true, List.mem_range]
  constructor
  · intro H r hr j hj
    have := H r (by omega) j hj
    rwa [show lane (ext n t).mem r j = lane t.mem r j from lane_append_lt _ _ _ _ (by omega)] at this
  · intro H r hr j hj
    by_cases c : r < 64
    · rw [show lane (ext n t).mem r j = lane t.mem r j from lane_append_lt _ _ _ _ (by omega)]
      exact H r c j hj
    · have m := ext_m n t hl (4 * r + j) (by omega)
      unfold SSt.m m2 at m
      rw [show (4 * r + j) / 4 = r by omega, show (4 * r + j) % 4 = j by omega, if_neg (by omega)] at m
      rw [m, hf _ (by omega)]
      exact decide_eq_true_eq.mp (by simp [V.beq])

/-- The sum of the first `n + 1` products; `u` at 256, `v` at `b`. -/
def accV (b a : Nat) : Nat → V
  | 0 => .sml (.x (256 + a)) (.x (b + a))
  | n + 1 => .qadd (accV b a n) (.sml (.x (256 + 256 * (n + 1) + a)) (.x (b + 256 * (n + 1) + a)))
/-- Memory afterwards. -/
def accT (L a : Nat) : V := if a < 256 then mTerm (256 + 512 * L) (accV (256 + 256 * L) a (L - 1)) else .x a

theorem accT_ge (L a : Nat) (h : 256 ≤ a) : accT L a = .x a := if_neg (by omega)

end Verif.Neon35
