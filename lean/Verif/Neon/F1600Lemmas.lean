import Verif.Neon.F1600X2
import Verif.Avx2.F1600Lemmas

/-! # Both versions of the two-way permutation are KECCAK-f[1600] in each lane -/

namespace Verif.Neon.F1600

open Verif.Keccak (U64 Lanes rol laneRnd laneTR lane rhoOff)

theorem zx (a : U64) : 0 ^^^ a = a := BitVec.zero_xor
theorem xz (a : U64) : a ^^^ 0 = a := BitVec.xor_zero

/-! ## Rotations -/

theorem rl_bit (a : U64) (k i : Nat) (hi : i < 64) : (a.rotateLeft k).getLsbD i = a.getLsbD ((i + (64 - k % 64)) % 64) := by
  rw [BitVec.getLsbD_rotateLeft]
  have hk : k % 64 < 64 := Nat.mod_lt _ (by omega)
  generalize k % 64 = k at hk ⊢
  by_cases h : i < k
  · rw [decide_eq_true h]
    simp only [cond_true]
    congr 1
    omega
  · rw [decide_eq_false h]
    simp only [cond_false, decide_eq_true hi, Bool.true_and]
    congr 1
    omega

theorem rl0 (a : U64) : a.rotateLeft 0 = a := by
  apply BitVec.eq_of_getLsbD_eq
  intro i hi
  rw [rl_bit _ _ _ hi]
  congr 1
  omega

theorem rl_xor (a b : U64) (k : Nat) : (a ^^^ b).rotateLeft k = a.rotateLeft k ^^^ b.rotateLeft k := by
  apply BitVec.eq_of_getLsbD_eq
  intro i hi
  rw [BitVec.getLsbD_xor, rl_bit _ _ _ hi, rl_bit _ _ _ hi, rl_bit _ _ _ hi, BitVec.getLsbD_xor]

theorem rl_zero (k : Nat) : (0 : U64).rotateLeft k = 0 := by
  apply BitVec.eq_of_getLsbD_eq
  intro i hi
  rw [rl_bit _ _ _ hi]
  simp

theorem rl_rl (a : U64) (j k : Nat) : (a.rotateLeft j).rotateLeft k = a.rotateLeft ((j + k) % 64) := by
  apply BitVec.eq_of_getLsbD_eq
  intro i hi
  rw [rl_bit _ _ _ hi, rl_bit _ _ _ (Nat.mod_lt _ (by omega)), rl_bit _ _ _ hi]
  congr 1
  omega

theorem rr_rl (a : U64) (k : Nat) (h0 : 0 < k) (h1 : k < 64) : a.rotateRight k = a.rotateLeft (64 - k) := by
  apply BitVec.eq_of_getLsbD_eq
  intro i hi
  rw [rl_bit _ _ _ hi, BitVec.getLsbD_rotateRight]
  rw [Nat.mod_eq_of_lt h1]
  by_cases h : i < 64 - k
  · rw [decide_eq_true h]
    simp only [cond_true]
    congr 1
    omega
  · rw [decide_eq_false h]
    simp only [cond_false, decide_eq_true hi, Bool.true_and]
    congr 1
    omega

theorem rol_rl (a : U64) (k : Nat) (h0 : 0 < k) (h1 : k < 64) : rol a k = a.rotateLeft k := by
  apply BitVec.eq_of_getLsbD_eq
  intro i hi
  have e := Keccak.bit_rol a k h0 h1 ⟨i, hi⟩
  rw [rl_bit _ _ _ hi]
  refine e.trans ?_
  rw [Fin.sub_def]
  simp only [Fin.ofNat]
  congr 1
  omega

theorem sri_rl (a : U64) (k : Nat) (h0 : 0 < k) (h1 : k < 64) :
    ((a <<< k) &&& ~~~(BitVec.allOnes 64 >>> (64 - k))) ||| (a >>> (64 - k)) = a.rotateLeft k := by
  apply BitVec.eq_of_getLsbD_eq
  intro i hi
  rw [rl_bit _ _ _ hi, Nat.mod_eq_of_lt h1, BitVec.getLsbD_or, BitVec.getLsbD_and, BitVec.getLsbD_not, BitVec.getLsbD_shiftLeft, BitVec.getLsbD_ushiftRight,
    BitVec.getLsbD_ushiftRight, BitVec.getLsbD_allOnes]
  by_cases h : i < k
  · rw [show (i + (64 - k)) % 64 = 64 - k + i by omega]
    simp [h, hi]
  · rw [show (i + (64 - k)) % 64 = i - k by omega, BitVec.getLsbD_of_ge a (64 - k + i) (by omega)]
    simp [h, hi, show ¬ 64 - k + i < 64 by omega]

/-! ## Symbolic values -/

/-- Insertion into a sorted list, equal elements cancel. -/
def ins (c : Nat) : List Nat → List Nat
  | [] => [c]
  | d :: t => if c < d then c :: d :: t else if c = d then t else d :: ins c t
/-- The exclusive or of two sums. -/
def xorL (a b : List Nat) : List Nat := a.foldr ins b
/-- The rotation of a sum. -/
def rotL (k : Nat) (a : List Nat) : List Nat := a.foldr (fun c => ins (c / 64 * 64 + (c % 64 + k) % 64)) []

/-- A sum of rotated leaves: `64 * leaf + rotation`. -/
def ev (f : Nat → U64) (a : List Nat) : U64 := a.foldr (fun c x => (f (c / 64)).rotateLeft (c % 64) ^^^ x) 0

theorem ev_ins (f : Nat → U64) (c : Nat) (a : List Nat) : ev f (ins c a) = (f (c / 64)).rotateLeft (c % 64) ^^^ ev f a := by
  induction a with
  | nil => rfl
  | cons d t ih =>
    unfold ins
    split
    · rfl
    · split
      · rename_i h
        subst h
        show ev f t = _ ^^^ (_ ^^^ ev f t)
        rw [← BitVec.xor_assoc, BitVec.xor_self]; exact (zx _).symm
      · show _ ^^^ ev f (ins c t) = _ ^^^ (_ ^^^ ev f t)
        rw [ih, ← BitVec.xor_assoc, ← BitVec.xor_assoc, BitVec.xor_comm (BitVec.rotateLeft _ _)]

theorem ev_xorL (f : Nat → U64) (a b : List Nat) : ev f (xorL a b) = ev f a ^^^ ev f b := by
  induction a with
  | nil => show ev f b = 0 ^^^ ev f b; rw [zx]
  | cons c t ih =>
    show ev f (ins c (xorL t b)) = (_ ^^^ ev f t) ^^^ _
    rw [ev_ins, ih, BitVec.xor_assoc]

theorem ev_rotL (f : Nat → U64) (k : Nat) (a : List Nat) : ev f (rotL k a) = (ev f a).rotateLeft k := by
  induction a with
  | nil => exact (rl_zero k).symm
  | cons c t ih =>
    show ev f (ins _ (rotL k t)) = (_ ^^^ ev f t).rotateLeft k
    rw [ev_ins, ih, rl_xor, rl_rl, show (c / 64 * 64 + (c % 64 + k) % 64) / 64 = c / 64 by omega,
      show (c / 64 * 64 + (c % 64 + k) % 64) % 64 = (c % 64 + k) % 64 by omega]

/-- Symbolic values: unknown; a sum, plus `¬b ∧ c`, plus a round constant; a shifted sum. -/
inductive SV where
  | bad
  | v (lin : List Nat) (nl : Option (List Nat × List Nat)) (rc : Option Nat)
  | shl (lin : List Nat) (k : Nat)
deriving DecidableEq

def evN (f : Nat → U64) : Option (List Nat × List Nat) → U64
  | none => 0
  | some (b, c) => ~~~ev f b &&& ev f c
def evR (rc : Nat → U64) : Option Nat → U64
  | none => 0
  | some j => rc j

/-- What a symbolic value says about a word. -/
def Holds (f rc : Nat → U64) (x : U64) : SV → Prop
  | .bad => True
  | .v l n r => x = ev f l ^^^ evN f n ^^^ evR rc r
  | .shl l k => x = ev f l <<< k

def orElse {α : Type} : Option α → Option α → Option (Option α)
  | none, b => some b
  | a, none => some a
  | some _, some _ => none

/-- Exclusive or. -/
def xorS : SV → SV → SV
  | .v l n r, .v l' n' r' =>
    match orElse n n', orElse r r' with
    | some n, some r => .v (xorL l l') n r
    | _, _ => .bad
  | _, _ => .bad
def rotS (k : Nat) : SV → SV
  | .v l none none => .v (rotL k l) none none
  | _ => .bad
/-- `¬b ∧ c`. -/
def andnS : SV → SV → SV
  | .v b none none, .v c none none => .v [] (some (b, c)) none
  | _, _ => .bad
def shlS (k : Nat) : SV → SV
  | .v l none none => .shl l k
  | _ => .bad
def sriS (k : Nat) : SV → SV → SV
  | .shl l j, .v l' none none => if l = l' ∧ 0 < j ∧ j < 64 ∧ k = 64 - j then .v (rotL j l) none none else .bad
  | _, _ => .bad

def Ins.sym (s : List SV) : Ins → SV
  | .eor _ n m => xorS (s.getD n .bad) (s.getD m .bad)
  | .eor3 _ n m a => xorS (xorS (s.getD n .bad) (s.getD m .bad)) (s.getD a .bad)
  | .rax1 _ n m => xorS (s.getD n .bad) (rotS 1 (s.getD m .bad))
  | .xar _ n m k => if 0 < k ∧ k < 64 then rotS (64 - k) (xorS (s.getD n .bad) (s.getD m .bad)) else .bad
  | .bcax _ n m a => xorS (s.getD n .bad) (andnS (s.getD a .bad) (s.getD m .bad))
  | .mov _ n => s.getD n .bad
  | .rc _ j => .v [] none (some j)
  | .shl _ n k => shlS k (s.getD n .bad)
  | .sri d n k => sriS k (s.getD d .bad) (s.getD n .bad)
  | .bic _ n m => andnS (s.getD m .bad) (s.getD n .bad)

def symStep (s : List SV) (i : Ins) : List SV := s.set i.dst (i.sym s)
def symRun (code : List Ins) (s : List SV) : List SV := code.foldl symStep s

section sound
variable {f rc : Nat → U64}

theorem orElse_ev {α : Type} {g : Option α → U64} (h0 : g none = 0) {a b c : Option α} (h : orElse a b = some c) : g c = g a ^^^ g b := by
  cases a with
  | none => cases h; rw [h0, zx]
  | some a =>
    cases b with
    | none => cases h; rw [h0, xz]
    | some b => cases h

theorem xorS_ok {x y : U64} {a b : SV} (hx : Holds f rc x a) (hy : Holds f rc y b) : Holds f rc (x ^^^ y) (xorS a b) := by
  unfold xorS
  split
  · split
    · rename_i h1 h2
      have hx' : x = _ := hx
      have hy' : y = _ := hy
      show x ^^^ y = _ ^^^ _ ^^^ _
      rw [ev_xorL, orElse_ev (g := evN f) rfl h1, orElse_ev (g := evR rc) rfl h2, hx', hy']
      ac_rfl
    · exact trivial
  · exact trivial

theorem pure_ev {x : U64} {l : List Nat} (h : Holds f rc x (.v l none none)) : x = ev f l := by
  have h' : x = ev f l ^^^ 0 ^^^ 0 := h
  rw [h', xz, xz]

theorem pure_holds {x : U64} {l : List Nat} (h : x = ev f l) : Holds f rc x (.v l none none) := by
  show x = ev f l ^^^ 0 ^^^ 0
  rw [h, xz, xz]

theorem rotS_ok {x : U64} {a : SV} (k : Nat) (hx : Holds f rc x a) : Holds f rc (x.rotateLeft k) (rotS k a) := by
  unfold rotS
  split
  · exact pure_holds (by rw [ev_rotL, pure_ev hx])
  · exact trivial

theorem andnS_ok {x y : U64} {a b : SV} (hx : Holds f rc x a) (hy : Holds f rc y b) : Holds f rc (~~~x &&& y) (andnS a b) := by
  unfold andnS
  split
  · show _ = (0 : U64) ^^^ (~~~_ &&& _) ^^^ (0 : U64)
    rw [pure_ev hx, pure_ev hy, zx, xz]
  · exact trivial

theorem shlS_ok {x : U64} {a : SV} (k : Nat) (hx : Holds f rc x a) : Holds f rc (x <<< k) (shlS k a) := by
  unfold shlS
  split
  · exact congrArg (fun z : U64 => z <<< k) (pure_ev hx)
  · exact trivial

theorem sriS_ok {x y : U64} {a b : SV} (k : Nat) (hx : Holds f rc x a) (hy : Holds f rc y b) :
    Holds f rc ((x &&& ~~~(BitVec.allOnes 64 >>> k)) ||| (y >>> k)) (sriS k a b) := by
  unfold sriS
  split
  · split
    · rename_i l j l' h
      obtain ⟨rfl, h0, h1, rfl⟩ := h
      refine pure_holds ?_
      have hx' : x = ev f l <<< j := hx
      rw [ev_rotL, hx', pure_ev hy, sri_rl _ _ h0 h1]
    · exact trivial
  · exact trivial

/-- The registers of one lane agree with the symbolic values. -/
def Agree (f rc : Nat → U64) (s : Nat → U64) (t : List SV) : Prop := ∀ r, Holds f rc (s r) (t.getD r .bad)

theorem sym_ok {s : Nat → U64} {t : List SV} (h : Agree f rc s t) (i : Ins) : Holds f rc (i.out rc s) (i.sym t) := by
  cases i with
  | eor d n m => exact xorS_ok (h n) (h m)
  | eor3 d n m a => exact xorS_ok (xorS_ok (h n) (h m)) (h a)
  | rax1 d n m => exact xorS_ok (h n) (rotS_ok 1 (h m))
  | xar d n m k =>
    unfold Ins.sym
    dsimp only
    split
    · rename_i hk
      show Holds f rc ((s n ^^^ s m).rotateRight k) _
      rw [rr_rl _ _ hk.1 hk.2]
      exact rotS_ok _ (xorS_ok (h n) (h m))
    · exact trivial
  | bcax d n m a =>
    show Holds f rc (s n ^^^ (s m &&& ~~~s a)) _
    rw [BitVec.and_comm]
    exact xorS_ok (h n) (andnS_ok (h a) (h m))
  | mov d n => exact h n
  | rc d j =>
    show rc j = (0 : U64) ^^^ (0 : U64) ^^^ rc j
    rw [xz, zx]
  | shl d n k => exact shlS_ok k (h n)
  | sri d n k => exact sriS_ok k (h d) (h n)
  | bic d n m =>
    show Holds f rc (s n &&& ~~~s m) _
    rw [BitVec.and_comm]
    exact andnS_ok (h m) (h n)

/-- One lane of the registers. -/
def laneR (s : Nat → V2) (l : Fin 2) : Nat → U64 := fun r => s r l

theorem step_ok {s : Nat → V2} {l : Fin 2} {t : List SV} (h : Agree f rc (laneR s l) t) (i : Ins) : Agree f rc (laneR (step rc s i) l) (symStep t i) := by
  intro r
  unfold laneR step symStep
  rw [List.getD_eq_getElem?_getD, List.getElem?_set]
  by_cases hr : r = i.dst
  · rw [if_pos hr, if_pos hr.symm]
    split
    · exact sym_ok h i
    · exact trivial
  · rw [if_neg hr, if_neg fun e => hr e.symm, ← List.getD_eq_getElem?_getD]
    exact h r

theorem run_ok (code : List Ins) {s : Nat → V2} {l : Fin 2} {t : List SV} (h : Agree f rc (laneR s l) t) : Agree f rc (laneR (run rc code s) l) (symRun code t) := by
  induction code generalizing s t with
  | nil => exact h
  | cons i c ih => exact ih (step_ok h i)

end sound

/-! ## The rounds -/

/-- Leaf `i` is register `b + i`. -/
def start (b : Nat) : List SV := List.replicate b .bad ++ ((List.range 25).map fun i => .v [64 * i] none none) ++ List.replicate (36 - b) .bad

/-- θ, then ρ. -/
def symTR (x y : Fin 5) : List Nat :=
  let C : Fin 5 → List Nat := fun x => [64 * (5 * 0 + x.1), 64 * (5 * 1 + x.1), 64 * (5 * 2 + x.1), 64 * (5 * 3 + x.1), 64 * (5 * 4 + x.1)]
  rotL (rhoOff x y) (xorL [64 * (5 * y.1 + x.1)] (xorL (C (x - 1)) (rotL 1 (C (x + 1)))))

/-- One round, with round constant `c`. -/
def symRnd (c : Nat) (x y : Fin 5) : SV :=
  .v (symTR (x + 3 * y) x) (some (symTR (x + 1 + 3 * y) (x + 1), symTR (x + 2 + 3 * y) (x + 2))) (if 5 * y.1 + x.1 = 0 then some c else none)

/-- The code takes the lanes in registers `b + i` to their images under one round, in registers `o + i`. -/
def checkRound (c b o : Nat) (code : List Ins) : Prop := ∀ x y : Fin 5, (symRun code (start b)).getD (o + (5 * y.1 + x.1)) .bad = symRnd c x y
instance (c b o : Nat) (code : List Ins) : Decidable (checkRound c b o code) := by unfold checkRound; infer_instance

set_option maxRecDepth 100000 in
theorem checkAsm : checkRound 0 0 0 roundAsm := by decide +kernel
set_option maxRecDepth 100000 in
theorem checkA : checkRound 0 0 25 roundA := by decide +kernel
set_option maxRecDepth 100000 in
theorem checkE : checkRound 1 25 0 roundE := by decide +kernel

/-- The lanes in registers `b + i`. -/
def lanesAt (b : Nat) (s : Nat → U64) : Lanes := Vector.ofFn fun i => s (b + i.1)

theorem lane_lanesAt (b : Nat) (s : Nat → U64) (x y : Fin 5) : lane (lanesAt b s) x y = s (b + (5 * y.1 + x.1)) := by
  unfold lane lanesAt
  rw [Vector.getElem_ofFn]

theorem start_ok (rc : Nat → U64) (b : Nat) (s : Nat → U64) : Agree (fun i => s (b + i)) rc s (start b) := by
  intro r
  unfold start
  rw [List.getD_eq_getElem?_getD]
  by_cases h1 : r < b
  · rw [List.append_assoc, List.getElem?_append_left (by simpa using h1), List.getElem?_replicate, if_pos h1]
    exact trivial
  · by_cases h2 : r < b + 25
    · rw [List.getElem?_append_left (by simp; omega), List.getElem?_append_right (by simp; omega), List.length_replicate, List.getElem?_map,
        List.getElem?_range (by omega), Option.map_some, Option.getD_some]
      refine pure_holds ?_
      show s r = (s (b + 64 * (r - b) / 64)).rotateLeft (64 * (r - b) % 64) ^^^ 0
      rw [Nat.mul_mod_right, Nat.mul_div_cancel_left _ (by omega), show b + (r - b) = r by omega, xz, rl0]
    · rw [List.getElem?_append_right (by simp; omega), List.getElem?_replicate]
      split <;> exact trivial

theorem ev_cons (f : Nat → U64) (c : Nat) (t : List Nat) : ev f (64 * c :: t) = f c ^^^ ev f t := by
  show (f (64 * c / 64)).rotateLeft (64 * c % 64) ^^^ _ = _
  rw [Nat.mul_mod_right, Nat.mul_div_cancel_left _ (by omega), rl0]
  rfl

theorem symTR_ev (b : Nat) (s : Nat → U64) (x y : Fin 5) : ev (fun i => s (b + i)) (symTR x y) = laneTR (lanesAt b s) x y := by
  unfold symTR laneTR
  dsimp only
  have hl := Keccak.rhoOff_lt x y
  have e0 : ev (fun i => s (b + i)) [] = 0 := rfl
  rw [ev_rotL, ev_xorL, ev_xorL, ev_rotL]
  simp only [ev_cons, e0, xz, lane_lanesAt, show ((0 : Fin 5) : Nat) = 0 from rfl, show ((1 : Fin 5) : Nat) = 1 from rfl, show ((2 : Fin 5) : Nat) = 2 from rfl,
    show ((3 : Fin 5) : Nat) = 3 from rfl, show ((4 : Fin 5) : Nat) = 4 from rfl]
  rw [rol_rl _ 1 (by omega) (by omega)]
  simp only [← BitVec.xor_assoc]
  generalize rhoOff x y = k at hl ⊢
  cases k with
  | zero => exact rl0 _
  | succ k => exact (rol_rl _ (k + 1) (by omega) hl).symm

/-- A checked round is the round of the permutation. -/
theorem round_lane {c b o : Nat} {code : List Ins} (h : checkRound c b o code) (rc : Nat → U64) (s : Nat → V2) (l : Fin 2) (x y : Fin 5) :
    lane (lanesAt o (laneR (run rc code s) l)) x y = laneRnd (rc c) (lanesAt b (laneR s l)) x y := by
  have := run_ok code (start_ok rc b (laneR s l)) (o + (5 * y.1 + x.1))
  rw [h x y] at this
  rw [lane_lanesAt]
  have e : laneR (run rc code s) l (o + (5 * y.1 + x.1)) = _ ^^^ evN _ (some _) ^^^ evR rc _ := this
  rw [e]
  unfold laneRnd evN
  dsimp only
  rw [symTR_ev, symTR_ev, symTR_ev]
  by_cases h0 : 5 * y.1 + x.1 = 0
  · rw [if_pos h0, h0]; rfl
  · rw [if_neg h0]
    show _ ^^^ (0 : U64) = _
    rw [xz]
    split
    · rename_i h1; exact absurd h1 h0
    · rfl

/-- Lane `l` of the state. -/
def laneOf (s : Nat → V2) (l : Fin 2) : Lanes := Vector.ofFn fun i => s i.1 l

theorem laneOf_eq (s : Nat → V2) (l : Fin 2) : lanesAt 0 (laneR s l) = laneOf s l := by
  unfold lanesAt laneOf laneR
  simp only [Nat.zero_add]

open Verif.Keccak (roundConstants) in
theorem loopAsm_spec (rc : Nat → U64) (hrc : ∀ c < 24, rc c = roundConstants.getD c 0) (l : Fin 2) (n k : Nat) (hk : k + n = 24) : ∀ s : Nat → V2,
    Keccak.abs (laneOf (loopAsm rc n k s) l) = (List.range' k n).foldl Fips202.rnd (Keccak.abs (laneOf s l)) := by
  induction n generalizing k with
  | zero => intro s; rfl
  | succ n ih =>
    intro s
    unfold loopAsm
    rw [ih (k + 1) (by omega), List.range'_succ, List.foldl_cons, ← laneOf_eq, Keccak.rnd_of_lane k (by omega) (lanesAt 0 (laneR s l)) _ fun x y => by
      rw [round_lane checkAsm, Nat.add_zero, hrc k (by omega)], laneOf_eq]

open Verif.Keccak (roundConstants) in
theorem loopC_spec (rc : Nat → U64) (hrc : ∀ c < 24, rc c = roundConstants.getD c 0) (l : Fin 2) (n k : Nat) (hk : k + 2 * n = 24) : ∀ s : Nat → V2,
    Keccak.abs (laneOf (loopC rc n k s) l) = (List.range' k (2 * n)).foldl Fips202.rnd (Keccak.abs (laneOf s l)) := by
  induction n generalizing k with
  | zero => intro s; rfl
  | succ n ih =>
    intro s
    unfold loopC
    rw [ih (k + 2) (by omega), show 2 * (n + 1) = 2 * n + 1 + 1 by omega, List.range'_succ, List.range'_succ, List.foldl_cons, List.foldl_cons, ← laneOf_eq,
      Keccak.rnd_of_lane (k + 1) (by omega) (lanesAt 25 (laneR (run (fun j => rc (k + j)) roundA s) l)) _ fun x y => by
        rw [round_lane checkE, hrc (k + 1) (by omega)],
      Keccak.rnd_of_lane k (by omega) (lanesAt 0 (laneR s l)) _ fun x y => by rw [round_lane checkA, Nat.add_zero, hrc k (by omega)], laneOf_eq]

theorem laneOf_congr {s t : Nat → V2} (h : ∀ i < 25, s i = t i) (l : Fin 2) : laneOf s l = laneOf t l := by
  unfold laneOf
  congr 1
  funext i
  rw [h i.1 i.2]

open Verif.Keccak (roundConstants) in
/-- **Both versions of `KeccakF1600_StatePermutex2` are KECCAK-f[1600] in each of the two lanes.** -/
theorem f1600x2_abs (sha3 : Bool) (rc : Nat → U64) (hrc : ∀ c < 24, rc c = roundConstants.getD c 0) (R s : Nat → V2) (l : Fin 2) :
    Keccak.abs (laneOf (f1600x2 sha3 rc R s) l) = Fips202.keccakF (Keccak.abs (laneOf s l)) := by
  have h1 : ∀ r, laneOf (storeState s r) l = laneOf r l := fun r => laneOf_congr (fun i hi => by unfold storeState; rw [if_pos hi]) l
  have h2 : laneOf (loadState R s) l = laneOf s l := laneOf_congr (fun i hi => by unfold loadState; rw [if_pos hi]) l
  unfold f1600x2
  rw [h1, Fips202.keccakF, List.range_eq_range', ← h2]
  cases sha3 with
  | true => exact loopAsm_spec rc hrc l 24 0 (by omega) _
  | false => exact loopC_spec rc hrc l 12 0 (by omega) _

open Verif.Keccak (roundConstants) in
theorem f1600x2_permute (sha3 : Bool) (rc : Nat → U64) (hrc : ∀ c < 24, rc c = roundConstants.getD c 0) (R s : Nat → V2) (l : Fin 2) :
    laneOf (f1600x2 sha3 rc R s) l = Keccak.permute (laneOf s l) :=
  Avx2.F1600.abs_inj (by rw [f1600x2_abs sha3 rc hrc, Keccak.abs_permute])

end Verif.Neon.F1600
