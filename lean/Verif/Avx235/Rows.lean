import Verif.Avx235.Acc
import Verif.Avx2.SignArith
import Verif.Neon35.SignArith

/-!
# Expansion of the matrix, row by row, in dilithium3/avx2 and dilithium5/avx2

Each `polyvec_matrix_expand_rowN` fills the rest of row `N` and, with what is left of its last four-way call, the beginning of the next row.  In
`crypto_sign_keypair` and `crypto_sign_verify` two buffers are used in turn.
-/

namespace Verif.Avx235

open Verif.Avx2
open Verif.Dilithium (Shake)
open Verif.Dilithium35 (Mode)

/-- The calls of `poly_uniform_4x` in `polyvec_matrix_expand_row0` to `row5` (dilithium3/avx2 polyvec.c:31-90) and to `row7` (dilithium5/avx2
polyvec.c:32-128): for each of the four results whether it goes to `rowb`, at which index, and its nonce. -/
def rowCalls : Mode → Nat → List (Fin 4 → Bool × Nat × UInt16)
  | .three, 0 => [![(false, 0, 0), (false, 1, 1), (false, 2, 2), (false, 3, 3)], ![(false, 4, 4), (true, 0, 256), (true, 1, 257), (true, 2, 258)]]
  | .three, 1 => [![(false, 3, 259), (false, 4, 260), (true, 0, 512), (true, 1, 513)]]
  | .three, 2 => [![(false, 2, 514), (false, 3, 515), (false, 4, 516), (true, 0, 768)]]
  | .three, 3 => [![(false, 1, 769), (false, 2, 770), (false, 3, 771), (false, 4, 772)]]
  | .three, 4 => [![(false, 0, 1024), (false, 1, 1025), (false, 2, 1026), (false, 3, 1027)], ![(false, 4, 1028), (true, 0, 1280), (true, 1, 1281), (true, 2, 1282)]]
  | .three, 5 => [![(false, 3, 1283), (false, 4, 1284), (true, 0, 1536), (true, 1, 1537)]]
  | .five, 0 => [![(false, 0, 0), (false, 1, 1), (false, 2, 2), (false, 3, 3)], ![(false, 4, 4), (false, 5, 5), (false, 6, 6), (true, 0, 256)]]
  | .five, 1 => [![(false, 1, 257), (false, 2, 258), (false, 3, 259), (false, 4, 260)], ![(false, 5, 261), (false, 6, 262), (true, 0, 512), (true, 1, 513)]]
  | .five, 2 => [![(false, 2, 514), (false, 3, 515), (false, 4, 516), (false, 5, 517)], ![(false, 6, 518), (true, 0, 768), (true, 1, 769), (true, 2, 770)]]
  | .five, 3 => [![(false, 3, 771), (false, 4, 772), (false, 5, 773), (false, 6, 774)]]
  | .five, 4 => [![(false, 0, 1024), (false, 1, 1025), (false, 2, 1026), (false, 3, 1027)], ![(false, 4, 1028), (false, 5, 1029), (false, 6, 1030), (true, 0, 1280)]]
  | .five, 5 => [![(false, 1, 1281), (false, 2, 1282), (false, 3, 1283), (false, 4, 1284)], ![(false, 5, 1285), (false, 6, 1286), (true, 0, 1536), (true, 1, 1537)]]
  | .five, 6 => [![(false, 2, 1538), (false, 3, 1539), (false, 4, 1540), (false, 5, 1541)], ![(false, 6, 1542), (true, 0, 1792), (true, 1, 1793), (true, 2, 1794)]]
  | .five, 7 => [![(false, 3, 1795), (false, 4, 1796), (false, 5, 1797), (false, 6, 1798)]]
  | _, _ => []

/-- Row buffers: buffer number and index. -/
abbrev Rows := Nat → Nat → VPoly

/-- Write one entry. -/
def setEntry (st : Rows) (b j : Nat) (v : VPoly) : Rows := fun b' j' => if b' = b ∧ j' = j then v else st b' j'

/-- One four-way call and the `poly_nttunpack` of its four results (in the C code these follow after the last call of the row). -/
def rowCall (H : Shake) (J : Fin 5 → Junk) (rho : Bytes) (a b : Nat) (st : Rows) (c : Fin 4 → Bool × Nat × UInt16) : Option Rows := do
  let r ← polyUniform4x H (J 0) rho fun k => (c k).2.2
  return (List.finRange 4).foldl (fun st k => setEntry st (if (c k).1 then b else a) (c k).2.1 (nttunpackC (J k.succ).mach (r k))) st

/-- `polyvec_matrix_expand_rowN` with the buffers `a` and `b` for this row and the next one; `J` is indexed by the number of the call (at most two). -/
def expandRow (md : Mode) (H : Shake) (J : Nat → Fin 5 → Junk) (rho : Bytes) (a b i : Nat) (st : Rows) : Option Rows :=
  ((rowCalls md i).zipIdx).foldlM (fun st c => rowCall H (J c.2) rho a b st c.1) st

/-- The buffers after rows 0 to `i`; `buf n` is the buffer of row `n`, `st` what the buffers contained at first.  (No other code writes to the buffers,
so what a loop over the rows finds in them at row `i` is this.) -/
def rowsAfter (md : Mode) (H : Shake) (J : Nat → Nat → Fin 5 → Junk) (rho : Bytes) (buf : Nat → Nat) (st : Rows) : Nat → Option Rows
  | 0 => expandRow md H (J 0) rho (buf 0) (buf 1) 0 st
  | i + 1 => (rowsAfter md H J rho buf st i).bind (expandRow md H (J (i + 1)) rho (buf (i + 1)) (buf (i + 2)) (i + 1))

/-- What the routines find in memory at the start of a matrix expansion. -/
structure RowJunk where
  st : Rows
  call : Nat → Nat → Fin 5 → Junk

/-- Row `i` of the matrix as the loops of `crypto_sign_keypair` and `crypto_sign_verify` see it (sign.c:13-43 of dilithium3, 13-51 of dilithium5): two buffers in turn. -/
def rowAlt (md : Mode) (H : Shake) (J : RowJunk) (rho : Bytes) (i : Fin md.K) : Option (Fin md.L → VPoly) :=
  (rowsAfter md H J.call rho (· % 2) J.st i.1).map fun st j => st (i.1 % 2) j.1

/-- Row `i` of the matrix after `polyvec_matrix_expand` (polyvec.c:22-29; dilithium5: 21-30): each row in its place. -/
def rowMat (md : Mode) (H : Shake) (J : RowJunk) (rho : Bytes) (i : Fin md.K) : Option (Fin md.L → VPoly) :=
  (rowsAfter md H J.call rho (·) J.st (md.K - 1)).map fun st j => st i.1 j.1

/-! ## What they return -/

/-- Nonce of entry number `e`, counting row by row. -/
def entryNonce (md : Mode) (e : Nat) : UInt16 := UInt16.ofNat (e / md.L * 256 + e % md.L)

/-- The number of calls in rows 0 to `i - 1`. -/
def callsTo (md : Mode) (i : Nat) : Nat := (md.L * i + 3) / 4

theorem rowCalls_eq (md : Mode) (i : Nat) (hi : i < md.K) : rowCalls md i = (List.range' (callsTo md i) (callsTo md (i + 1) - callsTo md i)).map fun q (k : Fin 4) =>
    (decide ((4 * q + k.1) / md.L ≠ i), (4 * q + k.1) % md.L, entryNonce md (4 * q + k.1)) := by
  cases md <;> (simp only [Mode.K] at hi; interval_cases i <;> decide +kernel)

variable {C : Dilithium.CSem} {H : Shake} {md : Mode}

theorem L_pos (md : Mode) : 3 ≤ md.L ∧ md.L ≤ 7 ∧ md.K ≤ 8 := by cases md <;> decide

/-- Entries `e < N` of the rows in `live` are in place. -/
def Placed (md : Mode) (buf : Nat → Nat) (f : Nat → Dilithium.Poly) (live : Nat → Prop) (N : Nat) (st : Rows) : Prop :=
  ∀ e, e < N → live (e / md.L) → st (buf (e / md.L)) (e % md.L) = permP (ofP (f e))

theorem placed_step {buf : Nat → Nat} {f : Nat → Dilithium.Poly} {live : Nat → Prop} {N : Nat} {st : Rows} (hb : ∀ r, live r → r ≠ N / md.L → buf r ≠ buf (N / md.L))
    (h : Placed md buf f live N st) : Placed md buf f live (N + 1) (setEntry st (buf (N / md.L)) (N % md.L) (permP (ofP (f N)))) := by
  intro e he hr
  unfold setEntry
  by_cases c : e = N
  · rw [if_pos ⟨by rw [c], by rw [c]⟩, c]
  · rw [if_neg]
    · exact h e (by omega) hr
    · rintro ⟨h1, h2⟩
      have : e / md.L = N / md.L := by
        by_contra hn
        exact hb _ hr hn h1
      have d1 := Nat.div_add_mod e md.L
      have d2 := Nat.div_add_mod N md.L
      rw [this, h2] at d1
      omega

/-- Entry number `e` of the portable matrix. -/
def ent (C : Dilithium.CSem) (H : Shake) (md : Mode) (rho : Bytes) (e : Nat) : Option Dilithium.Poly := Dilithium.polyUniform C H rho (entryNonce md e)

/-- The call number `q`, in row `i`. -/
def callOf (md : Mode) (i q : Nat) : Fin 4 → Bool × Nat × UInt16 := fun k => (decide ((4 * q + k.1) / md.L ≠ i), (4 * q + k.1) % md.L, entryNonce md (4 * q + k.1))

theorem nttunpackC_fun (M : Mach) (a : VPoly) : nttunpackC M a = permP a := by
  funext i
  rw [nttunpackC_eq]
  rfl

theorem rowCall_some {rho : Bytes} (hr : rho.length = 32) (J : Fin 5 → Junk) {buf : Nat → Nat} {f : Nat → Dilithium.Poly} {live : Nat → Prop} {i q : Nat} {st : Rows}
    (hb : ∀ r n, live r → (n = i ∨ n = i + 1) → r ≠ n → buf r ≠ buf n) (h1 : md.L * i ≤ 4 * q) (h2 : 4 * q + 4 ≤ md.L * (i + 2))
    (hf : ∀ k : Fin 4, ent C H md rho (4 * q + k.1) = some (f (4 * q + k.1))) (h : Placed md buf f live (4 * q) st) :
    ∃ st', rowCall H J rho (buf i) (buf (i + 1)) st (callOf md i q) = some st' ∧ Placed md buf f live (4 * q + 4) st' := by
  have hL := L_pos md
  have row : ∀ k : Fin 4, (4 * q + k.1) / md.L = i ∨ (4 * q + k.1) / md.L = i + 1 := fun k => by
    have hk := k.2
    have a : i ≤ (4 * q + k.1) / md.L := (Nat.le_div_iff_mul_le (by omega)).2 (by rw [Nat.mul_comm]; omega)
    have e2 : (i + 2) * md.L = md.L * (i + 2) := Nat.mul_comm _ _
    have b : (4 * q + k.1) / md.L < i + 2 := (Nat.div_lt_iff_lt_mul (by omega)).2 (by omega)
    omega
  have dest : ∀ k : Fin 4, (if (callOf md i q k).1 then buf (i + 1) else buf i) = buf ((4 * q + k.1) / md.L) := fun k => by
    unfold callOf
    rcases row k with e | e <;> rw [e] <;> simp
  unfold rowCall
  rw [polyUniform4x_eq (C := C) H (J 0) rho hr]
  rw [forVec_intro _ (fun k : Fin 4 => f (4 * q + k.1)) (show ∀ k, Dilithium.polyUniform C H rho (callOf md i q k).2.2 = some _ from hf)]
  rw [Option.map_some, Option.bind_eq_bind, Option.bind_some]
  refine ⟨_, rfl, ?_⟩
  have hd : ∀ k : Fin 4, ∀ r, live r → r ≠ (4 * q + k.1) / md.L → buf r ≠ buf ((4 * q + k.1) / md.L) := fun k r hr hn => hb r _ hr (row k) hn
  have ef : (List.finRange 4) = [0, 1, 2, 3] := by decide
  rw [ef]
  simp only [List.foldl_cons, List.foldl_nil, dest, nttunpackC_fun]
  have p0 := placed_step (md := md) (hd 0) h
  have p1 := placed_step (md := md) (hd 1) p0
  have p2 := placed_step (md := md) (hd 2) p1
  exact placed_step (md := md) (hd 3) p2

theorem rowCall_none {rho : Bytes} (hr : rho.length = 32) (J : Fin 5 → Junk) {a b i q : Nat} {st : Rows} (k : Fin 4) (h : ent C H md rho (4 * q + k.1) = none) :
    rowCall H J rho a b st (callOf md i q) = none := by
  unfold rowCall
  rw [polyUniform4x_eq (C := C) H (J 0) rho hr]
  rw [forVec_of_none k (show Dilithium.polyUniform C H rho _ = none from h)]
  rfl

theorem calls_bound (md : Mode) (i q : Nat) (h1 : callsTo md i ≤ q) (h2 : q < callsTo md (i + 1)) : md.L * i ≤ 4 * q ∧ 4 * q + 4 ≤ md.L * (i + 2) := by
  have hL := L_pos md
  unfold callsTo at *
  have e1 : md.L * (i + 1) = md.L * i + md.L := by ring
  have e2 : md.L * (i + 2) = md.L * i + 2 * md.L := by ring
  rw [e2]
  rw [e1] at h2
  generalize md.L * i = x at *
  omega

/-- Calls `q0`, …, `q0 + n - 1`. -/
theorem calls_some {rho : Bytes} (hr : rho.length = 32) (J : Nat → Fin 5 → Junk) {buf : Nat → Nat} {f : Nat → Dilithium.Poly} {live : Nat → Prop} {i : Nat}
    (hb : ∀ r n, live r → (n = i ∨ n = i + 1) → r ≠ n → buf r ≠ buf n) (n : Nat) : ∀ (q0 m : Nat) (st : Rows), callsTo md i ≤ q0 → q0 + n ≤ callsTo md (i + 1) →
    (∀ e, e < 4 * (q0 + n) → ent C H md rho e = some (f e)) → Placed md buf f live (4 * q0) st →
    ∃ st', (((List.range' q0 n).map (callOf md i)).zipIdx m).foldlM (fun st c => rowCall H (J c.2) rho (buf i) (buf (i + 1)) st c.1) st = some st' ∧
      Placed md buf f live (4 * (q0 + n)) st' := by
  induction n with
  | zero => intro q0 m st _ _ _ h; exact ⟨st, rfl, h⟩
  | succ n ih =>
    intro q0 m st h1 h2 hf h
    obtain ⟨b1, b2⟩ := calls_bound md i q0 h1 (by omega)
    obtain ⟨st1, e1, p1⟩ := rowCall_some (C := C) hr (J m) hb b1 b2 (fun k => hf _ (by have := k.2; omega)) h
    obtain ⟨st2, e2, p2⟩ := ih (q0 + 1) (m + 1) st1 (by omega) (by omega) (fun e he => hf e (by omega)) p1
    refine ⟨st2, ?_, by rw [show q0 + (n + 1) = q0 + 1 + n by omega]; exact p2⟩
    rw [List.range'_succ, List.map_cons, List.zipIdx_cons, List.foldlM_cons]
    dsimp only
    rw [e1]
    exact e2

theorem calls_none {rho : Bytes} (hr : rho.length = 32) (J : Nat → Fin 5 → Junk) {a b i : Nat} (n : Nat) : ∀ (q0 m : Nat) (st : Rows),
    (∃ e, 4 * q0 ≤ e ∧ e < 4 * (q0 + n) ∧ ent C H md rho e = none) →
    (((List.range' q0 n).map (callOf md i)).zipIdx m).foldlM (fun st c => rowCall H (J c.2) rho a b st c.1) st = none := by
  induction n with
  | zero => rintro q0 m st ⟨e, h1, h2, -⟩; omega
  | succ n ih =>
    rintro q0 m st ⟨e, h1, h2, he⟩
    rw [List.range'_succ, List.map_cons, List.zipIdx_cons, List.foldlM_cons]
    dsimp only
    by_cases c : e < 4 * q0 + 4
    · rw [rowCall_none (C := C) hr (J m) ⟨e - 4 * q0, by omega⟩ (by
        show ent C H md rho (4 * q0 + (e - 4 * q0)) = none
        rw [show 4 * q0 + (e - 4 * q0) = e by omega, he])]
      rfl
    · cases rowCall H (J m) rho a b st (callOf md i q0) with
      | none => rfl
      | some st1 => exact ih (q0 + 1) (m + 1) st1 ⟨e, by omega, by omega, he⟩

theorem callsTo_mono (md : Mode) (i : Nat) : callsTo md i ≤ callsTo md (i + 1) := by
  have e1 : md.L * (i + 1) = md.L * i + md.L := by ring
  unfold callsTo
  omega

theorem expandRow_some {rho : Bytes} (hr : rho.length = 32) (J : Nat → Fin 5 → Junk) {buf : Nat → Nat} {f : Nat → Dilithium.Poly} {live : Nat → Prop} {i : Nat} (hi : i < md.K)
    (hb : ∀ r n, live r → (n = i ∨ n = i + 1) → r ≠ n → buf r ≠ buf n) (st : Rows) (hf : ∀ e, e < 4 * callsTo md (i + 1) → ent C H md rho e = some (f e))
    (h : Placed md buf f live (4 * callsTo md i) st) :
    ∃ st', expandRow md H J rho (buf i) (buf (i + 1)) i st = some st' ∧ Placed md buf f live (4 * callsTo md (i + 1)) st' := by
  have hm := callsTo_mono md i
  have := calls_some (C := C) hr J hb (callsTo md (i + 1) - callsTo md i) (callsTo md i) 0 st (le_refl _) (by omega) (fun e he => hf e (by omega)) h
  rw [show callsTo md i + (callsTo md (i + 1) - callsTo md i) = callsTo md (i + 1) by omega] at this
  unfold expandRow
  rw [rowCalls_eq md i hi]
  exact this

theorem expandRow_none {rho : Bytes} (hr : rho.length = 32) (J : Nat → Fin 5 → Junk) {a b i : Nat} (hi : i < md.K) (st : Rows)
    (h : ∃ e, 4 * callsTo md i ≤ e ∧ e < 4 * callsTo md (i + 1) ∧ ent C H md rho e = none) : expandRow md H J rho a b i st = none := by
  have hm := callsTo_mono md i
  unfold expandRow
  rw [rowCalls_eq md i hi]
  obtain ⟨e, h1, h2, h3⟩ := h
  exact calls_none (C := C) hr J _ _ _ _ ⟨e, h1, by omega, h3⟩

theorem rowsAfter_none {rho : Bytes} (hr : rho.length = 32) (J : Nat → Nat → Fin 5 → Junk) (buf : Nat → Nat) (st : Rows) (i : Nat) (hi : i < md.K)
    (h : ∃ e, e < 4 * callsTo md (i + 1) ∧ ent C H md rho e = none) : rowsAfter md H J rho buf st i = none := by
  induction i with
  | zero =>
    obtain ⟨e, h1, h2⟩ := h
    exact expandRow_none (C := C) hr (J 0) hi st ⟨e, by show 4 * ((md.L * 0 + 3) / 4) ≤ e; omega, h1, h2⟩
  | succ i ih =>
    unfold rowsAfter
    obtain ⟨e, h1, h2⟩ := h
    by_cases c : e < 4 * callsTo md (i + 1)
    · rw [ih (by omega) ⟨e, c, h2⟩]; rfl
    · cases rowsAfter md H J rho buf st i with
      | none => rfl
      | some st1 => exact expandRow_none (C := C) hr (J (i + 1)) hi st1 ⟨e, by omega, h1, h2⟩

theorem rowsAlt_some {rho : Bytes} (hr : rho.length = 32) (J : Nat → Nat → Fin 5 → Junk) (st : Rows) {f : Nat → Dilithium.Poly} (i : Nat) (hi : i < md.K)
    (hf : ∀ e, e < 4 * callsTo md (i + 1) → ent C H md rho e = some (f e)) :
    ∃ st', rowsAfter md H J rho (· % 2) st i = some st' ∧ Placed md (· % 2) f (fun r => r = i ∨ r = i + 1) (4 * callsTo md (i + 1)) st' := by
  have hb : ∀ i r n : Nat, (r = i ∨ r = i + 1) → (n = i ∨ n = i + 1) → r ≠ n → r % 2 ≠ n % 2 := fun i r n _ _ _ => by omega
  induction i with
  | zero =>
    exact expandRow_some (C := C) (buf := (· % 2)) hr (J 0) hi (hb 0) st hf (fun e he => by
      exfalso
      have : callsTo md 0 = 0 := by unfold callsTo; omega
      omega)
  | succ i ih =>
    have hm := callsTo_mono md (i + 1)
    obtain ⟨st1, e1, p1⟩ := ih (by omega) fun e he => hf e (by omega)
    unfold rowsAfter
    rw [e1, Option.bind_some]
    refine expandRow_some (C := C) (buf := (· % 2)) hr (J (i + 1)) hi (hb (i + 1)) st1 hf ?_
    intro e he hr'
    refine p1 e he ?_
    rcases hr' with c | c
    · exact Or.inr c
    · exfalso
      have hL := L_pos md
      have d := Nat.div_add_mod e md.L
      rw [c] at d
      unfold callsTo at he
      have e2 : md.L * (i + 1 + 1) = md.L * (i + 1) + md.L := by ring
      rw [e2] at d
      omega

theorem rowsMat_some {rho : Bytes} (hr : rho.length = 32) (J : Nat → Nat → Fin 5 → Junk) (st : Rows) {f : Nat → Dilithium.Poly} (i : Nat) (hi : i < md.K)
    (hf : ∀ e, e < 4 * callsTo md (i + 1) → ent C H md rho e = some (f e)) :
    ∃ st', rowsAfter md H J rho (·) st i = some st' ∧ Placed md (·) f (fun _ => True) (4 * callsTo md (i + 1)) st' := by
  induction i with
  | zero =>
    exact expandRow_some (C := C) (buf := (·)) hr (J 0) hi (fun r n _ _ h => h) st hf (fun e he => by
      exfalso
      have : callsTo md 0 = 0 := by unfold callsTo; omega
      omega)
  | succ i ih =>
    have hm := callsTo_mono md (i + 1)
    obtain ⟨st1, e1, p1⟩ := ih (by omega) fun e he => hf e (by omega)
    unfold rowsAfter
    rw [e1, Option.bind_some]
    exact expandRow_some (C := C) (buf := (·)) hr (J (i + 1)) hi (fun r n _ _ h => h) st1 hf p1

/-- Number of entries sampled: four for each call; in dilithium3 two more than the matrix has. -/
def entries (md : Mode) : Nat := 4 * callsTo md md.K

theorem entries_eq : entries .three = 32 ∧ entries .five = 56 := by decide

/-- All streams of the matrix give a polynomial, those for the surplus entries too. -/
def Extra (C : Dilithium.CSem) (md : Mode) (H : Shake) (rho : Bytes) : Prop := ∀ e, e < entries md → ent C H md rho e ≠ none

theorem callsTo_le (md : Mode) (i : Nat) (hi : i < md.K) : 4 * callsTo md (i + 1) ≤ entries md ∧ md.L * (i + 1) ≤ 4 * callsTo md (i + 1) := by
  have : md.L * (i + 1) ≤ md.L * md.K := Nat.mul_le_mul_left _ hi
  unfold entries callsTo
  omega

theorem ent_mat {rho : Bytes} {mat : Dilithium35.Mat md} (hm : Dilithium35.matrixExpand md C H rho = some mat) (i : Fin md.K) (j : Fin md.L) :
    ent C H md rho (md.L * i.1 + j.1) = some (mat i j) := by
  have h1 := Dilithium35.forVec_some _ _ _ hm i
  have h2 := Dilithium35.forVec_some _ _ _ h1 j
  have hj := j.2
  have hL := L_pos md
  unfold ent entryNonce
  rw [show (md.L * i.1 + j.1) / md.L = i.1 by rw [Nat.mul_add_div (by omega), Nat.div_eq_of_lt hj, Nat.add_zero], Nat.mul_add_mod, Nat.mod_eq_of_lt hj]
  exact h2

theorem placed_row {rho : Bytes} {mat : Dilithium35.Mat md} (hm : Dilithium35.matrixExpand md C H rho = some mat) {f : Nat → Dilithium.Poly} {buf : Nat → Nat} {live : Nat → Prop}
    {N : Nat} {st : Rows} (hf : ∀ e, e < entries md → ent C H md rho e = some (f e)) (i : Fin md.K) (hl : live i.1) (hN : md.L * (i.1 + 1) ≤ N)
    (p : Placed md buf f live N st) (j : Fin md.L) : st (buf i.1) j.1 = permP (ofP (mat i j)) := by
  have hj := j.2
  have hL := L_pos md
  have e1 : (md.L * i.1 + j.1) / md.L = i.1 := by rw [Nat.mul_add_div (by omega), Nat.div_eq_of_lt hj, Nat.add_zero]
  have e2 : (md.L * i.1 + j.1) % md.L = j.1 := by rw [Nat.mul_add_mod, Nat.mod_eq_of_lt hj]
  have e3 : md.L * (i.1 + 1) = md.L * i.1 + md.L := by ring
  have c := callsTo_le md i.1 i.2
  have := p (md.L * i.1 + j.1) (by omega) (by rw [e1]; exact hl)
  rw [e1, e2] at this
  have h := hf (md.L * i.1 + j.1) (by omega)
  rw [ent_mat hm, Option.some.injEq] at h
  rw [this, ← h]

theorem ent_choose {rho : Bytes} (hx : Extra C md H rho) : ∃ f : Nat → Dilithium.Poly, ∀ e, e < entries md → ent C H md rho e = some (f e) := by
  refine ⟨fun e => (ent C H md rho e).getD fun _ => 0, fun e he => ?_⟩
  obtain ⟨p, hp⟩ := Option.ne_none_iff_exists'.1 (hx e he)
  show ent C H md rho e = some ((ent C H md rho e).getD fun _ => 0)
  rw [hp]; rfl

/-- The row in the alternating buffers is the row of the portable matrix, in the order of the AVX2 transforms. -/
theorem rowAlt_some (J : RowJunk) {rho : Bytes} (hr : rho.length = 32) {mat : Dilithium35.Mat md} (hm : Dilithium35.matrixExpand md C H rho = some mat) (hx : Extra C md H rho)
    (i : Fin md.K) : rowAlt md H J rho i = some fun j => permP (ofP (mat i j)) := by
  obtain ⟨f, hf⟩ := ent_choose hx
  have c := callsTo_le md i.1 i.2
  obtain ⟨st, e, p⟩ := rowsAlt_some (C := C) hr J.call J.st i.1 i.2 fun e he => hf e (by omega)
  unfold rowAlt
  rw [e, Option.map_some]
  exact congrArg some (funext fun j => placed_row (buf := (· % 2)) hm hf i (Or.inl rfl) c.2 p j)

theorem rowMat_some (J : RowJunk) {rho : Bytes} (hr : rho.length = 32) {mat : Dilithium35.Mat md} (hm : Dilithium35.matrixExpand md C H rho = some mat) (hx : Extra C md H rho)
    (i : Fin md.K) : rowMat md H J rho i = some fun j => permP (ofP (mat i j)) := by
  obtain ⟨f, hf⟩ := ent_choose hx
  have hK : 0 < md.K := i.pos
  have c := callsTo_le md (md.K - 1) (by omega)
  obtain ⟨st, e, p⟩ := rowsMat_some (C := C) hr J.call J.st (md.K - 1) (by omega) fun e he => hf e (by omega)
  unfold rowMat
  rw [e, Option.map_some]
  refine congrArg some (funext fun j => placed_row (buf := (·)) hm hf i trivial ?_ p j)
  have : md.L * (i.1 + 1) ≤ md.L * (md.K - 1 + 1) := Nat.mul_le_mul_left _ (by have := i.2; omega)
  omega

/-- If a stream gives no polynomial, some row never comes. -/
theorem rowAlt_none' {rho : Bytes} (J : Fin md.K → RowJunk) (hr : rho.length = 32) (hx : ¬ Extra C md H rho) : ∃ i, rowAlt md H (J i) rho i = none := by
  have hL := L_pos md
  have hK : 0 < md.K := by cases md <;> decide
  unfold Extra at hx
  push Not at hx
  obtain ⟨e, he, hn⟩ := hx
  refine ⟨⟨md.K - 1, by omega⟩, ?_⟩
  unfold rowAlt
  rw [rowsAfter_none (C := C) hr _ _ _ (md.K - 1) (by omega) ⟨e, by rw [show md.K - 1 + 1 = md.K by omega]; exact he, hn⟩]
  rfl

theorem rowMat_none (J : RowJunk) {rho : Bytes} (hr : rho.length = 32) (hx : ¬ Extra C md H rho) (i : Fin md.K) : rowMat md H J rho i = none := by
  have hK : 0 < md.K := i.pos
  unfold Extra at hx
  push Not at hx
  obtain ⟨e, he, hn⟩ := hx
  unfold rowMat
  rw [rowsAfter_none (C := C) hr J.call _ J.st (md.K - 1) (by omega) ⟨e, by rw [show md.K - 1 + 1 = md.K by omega]; exact he, hn⟩]
  rfl

/-- The portable matrix exists when all streams give a polynomial. -/
theorem mat_of_extra {rho : Bytes} (hx : Extra C md H rho) : ∃ mat, Dilithium35.matrixExpand md C H rho = some mat := by
  obtain ⟨f, hf⟩ := ent_choose hx
  refine ⟨fun i j => f (md.L * i.1 + j.1), ?_⟩
  unfold Dilithium35.matrixExpand
  have hL := L_pos md
  have : (fun i : Fin md.K => Dilithium35.forVec md.L fun j => Dilithium.polyUniform C H rho (UInt16.ofNat (i.1 * 256 + j.1))) =
      fun i => some fun j : Fin md.L => f (md.L * i.1 + j.1) := by
    funext i
    rw [← Neon35.forVec_pure]
    refine congrArg _ (funext fun j => ?_)
    have hj := j.2
    have c := callsTo_le md i.1 i.2
    have e3 : md.L * (i.1 + 1) = md.L * i.1 + md.L := by ring
    rw [← hf _ (by omega)]
    unfold ent entryNonce
    rw [show (md.L * i.1 + j.1) / md.L = i.1 by rw [Nat.mul_add_div (by omega), Nat.div_eq_of_lt hj, Nat.add_zero], Nat.mul_add_mod, Nat.mod_eq_of_lt hj]
  rw [this, Neon35.forVec_pure]

/-- `Extra` in plain terms: the portable matrix exists, and in dilithium3 two more streams (nonces 1536 and 1537) give a polynomial. -/
theorem extra_iff {rho : Bytes} : Extra C md H rho ↔ Dilithium35.matrixExpand md C H rho ≠ none ∧
    (md = .three → Dilithium.polyUniform C H rho 1536 ≠ none ∧ Dilithium.polyUniform C H rho 1537 ≠ none) := by
  constructor
  · intro hx
    refine ⟨?_, ?_⟩
    · obtain ⟨mat, hm⟩ := mat_of_extra hx
      rw [hm]; simp
    · rintro rfl
      have n30 : entryNonce .three 30 = 1536 := by decide
      have n31 : entryNonce .three 31 = 1537 := by decide
      have a := hx 30 (by rw [entries_eq.1]; omega)
      have b := hx 31 (by rw [entries_eq.1]; omega)
      unfold ent at a b
      rw [n30] at a
      rw [n31] at b
      exact ⟨a, b⟩
  · rintro ⟨hm, h3⟩ e he
    obtain ⟨mat, hm⟩ := Option.ne_none_iff_exists'.1 hm
    have hL : 0 < md.L := by have := L_pos md; omega
    by_cases hlt : e < md.L * md.K
    · have a : e / md.L < md.K := (Nat.div_lt_iff_lt_mul hL).2 (by rw [Nat.mul_comm]; exact hlt)
      have := ent_mat hm ⟨e / md.L, a⟩ ⟨e % md.L, Nat.mod_lt _ hL⟩
      dsimp only at this
      rw [Nat.div_add_mod] at this
      rw [this]; simp
    · cases md with
      | five => exact absurd he (by rw [entries_eq.2]; simp only [Dilithium35.Mode.L, Dilithium35.Mode.K] at hlt; omega)
      | three =>
        rw [entries_eq.1] at he
        simp only [Dilithium35.Mode.L, Dilithium35.Mode.K] at hlt
        have n30 : entryNonce .three 30 = 1536 := by decide
        have n31 : entryNonce .three 31 = 1537 := by decide
        have := h3 rfl
        have : e = 30 ∨ e = 31 := by omega
        unfold ent
        rcases this with rfl | rfl
        · rw [n30]; exact (h3 rfl).1
        · rw [n31]; exact (h3 rfl).2

end Verif.Avx235
