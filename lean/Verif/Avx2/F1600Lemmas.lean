import Verif.Avx2.F1600X4

/-! # `f1600x4` is four times KECCAK-f[1600] -/

namespace Verif.Avx2.F1600

open Verif.Keccak (U64 Lanes rol laneRnd lane)

/-- Rotation as the code does it. -/
def rotA (a : U64) (k : Nat) : U64 := (a >>> (64 - k)) ||| (a <<< k)

/-- The operations of one of the four lanes. -/
structure Ops (α : Type) where
  xor : α → α → α
  or : α → α → α
  andn : α → α → α
  sll : Nat → α → α
  srl : Nat → α → α
  rot8 : α → α
  rot56 : α → α
  rc : Nat → α

/-- One instruction on one lane. -/
def stepL {α : Type} (O : Ops α) (s : St α) : Ins → St α
  | .load off d => { s with reg := upd s.reg d (s.mem off) }
  | .store r off => { s with mem := upd s.mem off (s.reg r) }
  | .xorm off b d => { s with reg := upd s.reg d (O.xor (s.reg b) (s.mem off)) }
  | .xor a b d => { s with reg := upd s.reg d (O.xor (s.reg b) (s.reg a)) }
  | .or a b d => { s with reg := upd s.reg d (O.or (s.reg b) (s.reg a)) }
  | .andn a b d => { s with reg := upd s.reg d (O.andn (s.reg b) (s.reg a)) }
  | .sll k a d => { s with reg := upd s.reg d (O.sll k (s.reg a)) }
  | .srl k a d => { s with reg := upd s.reg d (O.srl k (s.reg a)) }
  | .bcast off d => { s with reg := upd s.reg d (O.rc (off / 8)) }
  | .shuf _ a d => { s with reg := upd s.reg d (O.rot8 (s.reg a)) }
  | .shufm a d => { s with reg := upd s.reg d (O.rot56 (s.reg a)) }

def runL {α : Type} (O : Ops α) (code : List Ins) (s : St α) : St α := code.foldl (stepL O) s

/-- The operations on quadwords. -/
def ops64 (rc : Nat → U64) : Ops U64 := ⟨fun a b => a ^^^ b, fun a b => a ||| b, fun a b => ~~~a &&& b, fun k a => a <<< k, fun k a => a >>> k,
  fun a => rotA a 8, fun a => rotA a 56, rc⟩

/-- Symbolic quadwords. -/
inductive E where
  | leaf (i : Nat)
  | reg (i : Nat)
  | rc (i : Nat)
  | xor (a b : E)
  | or (a b : E)
  | andn (a b : E)
  | sll (k : Nat) (a : E)
  | srl (k : Nat) (a : E)
  | rot8 (a : E)
  | rot56 (a : E)

def E.beq : E → E → Bool
  | .leaf i, .leaf j => Nat.beq i j
  | .reg i, .reg j => Nat.beq i j
  | .rc i, .rc j => Nat.beq i j
  | .xor a b, .xor c d => a.beq c && b.beq d
  | .or a b, .or c d => a.beq c && b.beq d
  | .andn a b, .andn c d => a.beq c && b.beq d
  | .sll k a, .sll l b => Nat.beq k l && a.beq b
  | .srl k a, .srl l b => Nat.beq k l && a.beq b
  | .rot8 a, .rot8 b => a.beq b
  | .rot56 a, .rot56 b => a.beq b
  | _, _ => false

theorem E.beq_eq : ∀ a b : E, a.beq b = true → a = b := by
  intro a
  induction a <;> intro b h <;> cases b <;> simp_all [E.beq] <;> grind

def opsE : Ops E := ⟨.xor, .or, .andn, .sll, .srl, .rot8, .rot56, .rc⟩

def E.eval (O : Ops U64) (leaf reg : Nat → U64) : E → U64
  | .leaf i => leaf i
  | .reg i => reg i
  | .rc i => O.rc i
  | .xor a b => O.xor (a.eval O leaf reg) (b.eval O leaf reg)
  | .or a b => O.or (a.eval O leaf reg) (b.eval O leaf reg)
  | .andn a b => O.andn (a.eval O leaf reg) (b.eval O leaf reg)
  | .sll k a => O.sll k (a.eval O leaf reg)
  | .srl k a => O.srl k (a.eval O leaf reg)
  | .rot8 a => O.rot8 (a.eval O leaf reg)
  | .rot56 a => O.rot56 (a.eval O leaf reg)

theorem upd_map {α β : Type} (g : α → β) (f : Nat → α) (k : Nat) (v : α) : (fun j => g (upd f k v j)) = upd (fun j => g (f j)) k (g v) := by
  funext j
  unfold upd
  cases Nat.beq j k <;> rfl

def St.map {α β : Type} (g : α → β) (s : St α) : St β := ⟨fun j => g (s.reg j), fun j => g (s.mem j)⟩

theorem runL_eval (O : Ops U64) (leaf reg : Nat → U64) (code : List Ins) : ∀ s : St E,
    (runL opsE code s).map (E.eval O leaf reg) = runL O code (s.map (E.eval O leaf reg)) := by
  induction code with
  | nil => intro s; rfl
  | cons i code ih =>
    intro s
    show (runL opsE code (stepL opsE s i)).map _ = runL O code (stepL O (s.map _) i)
    rw [ih]
    congr 1
    cases i <;> simp only [stepL, St.map, upd_map] <;> rfl

/-- The position of lane `5y + x` before round `c` of the body. -/
def place : Nat → Nat → Nat
  | 0, i => i
  | c + 1, i => place c (5 * ((i % 5 + 2 * (i / 5)) % 5) + i % 5)

/-- Rotation by `k`, as the code does it. -/
def Ops.rot {α : Type} (O : Ops α) (a : α) : Nat → α
  | 0 => a
  | 8 => O.rot8 a
  | 56 => O.rot56 a
  | k + 1 => O.or (O.srl (63 - k) a) (O.sll (k + 1) a)

/-- θ, ρ with the association of the code; `m` are the lanes in memory order, in their places of round `r`. -/
def laneTRA {α : Type} (O : Ops α) (r : Nat) (m : Nat → α) (x y : Fin 5) : α :=
  let C : Fin 5 → α := fun x => O.xor (O.xor (O.xor (O.xor (m x.1) (m (5 + x.1))) (m (10 + x.1))) (m (15 + x.1))) (m (20 + x.1))
  O.rot (O.xor (O.xor (C (x - 1)) (O.rot (C (x + 1)) 1)) (m (place r (5 * y.1 + x.1)))) (Keccak.rhoOff x y)

/-- One round with the association of the code. -/
def laneRndA {α : Type} (O : Ops α) (c : Nat) (m : Nat → α) (x y : Fin 5) : α :=
  let B : Fin 5 → Fin 5 → α := fun x y => laneTRA O c m (x + 3 * y) x
  let v := O.xor (O.andn (B (x + 1) y) (B (x + 2) y)) (B x y)
  match 5 * y.1 + x.1 with
  | 0 => O.xor v (O.rc c)
  | _ => v

def initE : St E := ⟨.reg, .leaf⟩

/-- The check that a round of the code is a round. -/
def checkRound (c : Nat) (code : List Ins) : Bool :=
  (List.finRange 5).all fun x => (List.finRange 5).all fun y =>
    ((runL opsE code initE).mem (32 * place (c + 1) (5 * y.1 + x.1))).beq (laneRndA opsE c (fun i => .leaf (32 * i)) x y)

theorem check0 : checkRound 0 round0 = true := by decide +kernel
theorem check1 : checkRound 1 round1 = true := by decide +kernel
theorem check2 : checkRound 2 round2 = true := by decide +kernel
theorem check3 : checkRound 3 round3 = true := by decide +kernel

/-! ## From the check to the round function -/

theorem eval_rot (O : Ops U64) (leaf reg : Nat → U64) (a : E) (k : Nat) : (opsE.rot a k).eval O leaf reg = O.rot (a.eval O leaf reg) k := by
  unfold Ops.rot
  split <;> rfl

theorem eval_laneTRA (O : Ops U64) (leaf reg : Nat → U64) (r : Nat) (m : Nat → E) (x y : Fin 5) :
    (laneTRA opsE r m x y).eval O leaf reg = laneTRA O r (fun i => (m i).eval O leaf reg) x y := by
  unfold laneTRA
  rw [eval_rot]
  show O.rot (O.xor (O.xor _ ((opsE.rot _ 1).eval O leaf reg)) _) _ = _
  rw [eval_rot]
  rfl

theorem eval_laneRndA (O : Ops U64) (leaf reg : Nat → U64) (c : Nat) (m : Nat → E) (x y : Fin 5) :
    (laneRndA opsE c m x y).eval O leaf reg = laneRndA O c (fun i => (m i).eval O leaf reg) x y := by
  unfold laneRndA
  dsimp only
  split
  · show O.xor (O.xor (O.andn _ _) _) _ = _
    rw [eval_laneTRA, eval_laneTRA, eval_laneTRA]
    rfl
  · show O.xor (O.andn _ _) _ = _
    rw [eval_laneTRA, eval_laneTRA, eval_laneTRA]

theorem round_of_check {c : Nat} {code : List Ins} (h : checkRound c code = true) (O : Ops U64) (s : St U64) (x y : Fin 5) :
    (runL O code s).mem (32 * place (c + 1) (5 * y.1 + x.1)) = laneRndA O c (fun i => s.mem (32 * i)) x y := by
  unfold checkRound at h
  rw [List.all_eq_true] at h
  have h := h x (List.mem_finRange x)
  rw [List.all_eq_true] at h
  have h := E.beq_eq _ _ (h y (List.mem_finRange y))
  have e := congrArg (fun t => St.mem t (32 * place (c + 1) (5 * y.1 + x.1))) (runL_eval O s.mem s.reg code initE)
  have e0 : initE.map (E.eval O s.mem s.reg) = s := rfl
  rw [e0] at e
  rw [← e]
  show E.eval O s.mem s.reg ((runL opsE code initE).mem _) = _
  rw [h, eval_laneRndA]
  rfl

theorem rotA_rol (a : U64) (k : Nat) (h0 : 0 < k) (h1 : k < 64) : rotA a k = rol a k := by
  apply BitVec.eq_of_getLsbD_eq
  intro i hi
  unfold rotA rol
  simp only [BitVec.getLsbD_or, BitVec.getLsbD_xor, BitVec.getLsbD_shiftLeft, BitVec.getLsbD_ushiftRight, hi, decide_true, Bool.true_and]
  by_cases h : i < k
  · simp [h]
  · rw [BitVec.getLsbD_of_ge a (64 - k + i) (by omega)]
    simp [h]

theorem rot64 (rc : Nat → U64) (a : U64) (k : Nat) (h1 : k < 64) : (ops64 rc).rot a k = if k = 0 then a else rol a k := by
  unfold Ops.rot
  split
  · rfl
  · exact rotA_rol a 8 (by omega) (by omega)
  · exact rotA_rol a 56 (by omega) (by omega)
  · rename_i k _ _
    have h1' : k + 1 < 64 := h1
    rw [if_neg (by omega), ← rotA_rol a _ (by omega) h1]
    show (a >>> (63 - k)) ||| (a <<< (k + 1)) = (a >>> (64 - (k + 1))) ||| (a <<< (k + 1))
    rw [show 64 - (k + 1) = 63 - k by omega]

/-- The rows of a column are permuted. -/
theorem column (m : Nat → U64) (c : Nat) (hc : c < 4) (x : Fin 5) :
    m x.1 ^^^ m (5 + x.1) ^^^ m (10 + x.1) ^^^ m (15 + x.1) ^^^ m (20 + x.1) =
    m (place c (5 * 0 + x.1)) ^^^ m (place c (5 * 1 + x.1)) ^^^ m (place c (5 * 2 + x.1)) ^^^ m (place c (5 * 3 + x.1)) ^^^ m (place c (5 * 4 + x.1)) := by
  have h : c = 0 ∨ c = 1 ∨ c = 2 ∨ c = 3 := by omega
  rcases h with rfl | rfl | rfl | rfl <;> fin_cases x <;> simp [place] <;> ac_rfl

theorem laneTRA_eq (rc : Nat → U64) (c : Nat) (hc : c < 4) (m : Nat → U64) (v : Lanes) (hv : ∀ x y, lane v x y = m (place c (5 * y.1 + x.1))) (x y : Fin 5) :
    laneTRA (ops64 rc) c m x y = Keccak.laneTR v x y := by
  have col : ∀ x : Fin 5, m x.1 ^^^ m (5 + x.1) ^^^ m (10 + x.1) ^^^ m (15 + x.1) ^^^ m (20 + x.1) =
      lane v x 0 ^^^ lane v x 1 ^^^ lane v x 2 ^^^ lane v x 3 ^^^ lane v x 4 := fun x => by
    rw [column m c hc x, hv, hv, hv, hv, hv]
    rfl
  have e : laneTRA (ops64 rc) c m x y = (ops64 rc).rot (((m (x - 1).1 ^^^ m (5 + (x - 1).1) ^^^ m (10 + (x - 1).1) ^^^ m (15 + (x - 1).1) ^^^ m (20 + (x - 1).1)) ^^^
      (ops64 rc).rot (m (x + 1).1 ^^^ m (5 + (x + 1).1) ^^^ m (10 + (x + 1).1) ^^^ m (15 + (x + 1).1) ^^^ m (20 + (x + 1).1)) 1) ^^^ m (place c (5 * y.1 + x.1)))
      (Keccak.rhoOff x y) := rfl
  rw [e, rot64 rc _ _ (Keccak.rhoOff_lt x y), rot64 rc _ 1 (by omega), col, col, if_neg (c := (1 : Nat) = 0) (by decide), ← hv, BitVec.xor_comm _ (lane v x y)]
  unfold Keccak.laneTR
  dsimp only
  generalize Keccak.rhoOff x y = k
  cases k with
  | zero => rfl
  | succ k => rw [if_neg (by omega)]

theorem laneRndA_eq (rc : Nat → U64) (c : Nat) (hc : c < 4) (m : Nat → U64) (v : Lanes) (hv : ∀ x y, lane v x y = m (place c (5 * y.1 + x.1))) (x y : Fin 5) :
    laneRndA (ops64 rc) c m x y = laneRnd (rc c) v x y := by
  unfold laneRndA laneRnd
  dsimp only
  rw [laneTRA_eq rc c hc m v hv, laneTRA_eq rc c hc m v hv, laneTRA_eq rc c hc m v hv]
  generalize 5 * y.1 + x.1 = n
  generalize Keccak.laneTR v _ _ = p
  generalize Keccak.laneTR v _ _ = q
  generalize Keccak.laneTR v _ _ = r
  cases n with
  | zero =>
    show (~~~p &&& q) ^^^ r ^^^ rc c = r ^^^ (~~~p &&& q) ^^^ rc c
    rw [BitVec.xor_comm r]
  | succ n =>
    show (~~~p &&& q) ^^^ r = r ^^^ (~~~p &&& q)
    exact BitVec.xor_comm _ _

/-- The lanes of the state, in their places before round `c`. -/
def lanesAt (c : Nat) (m : Nat → U64) : Lanes := Vector.ofFn fun i => m (32 * place c i.1)

theorem lane_lanesAt (c : Nat) (m : Nat → U64) (x y : Fin 5) : lane (lanesAt c m) x y = m (32 * place c (5 * y.1 + x.1)) := by
  unfold lane lanesAt
  rw [Vector.getElem_ofFn]

theorem round_lane {c : Nat} (hc : c < 4) {code : List Ins} (h : checkRound c code = true) (rc : Nat → U64) (s : St U64) (x y : Fin 5) :
    lane (lanesAt (c + 1) (runL (ops64 rc) code s).mem) x y = laneRnd (rc c) (lanesAt c s.mem) x y := by
  rw [lane_lanesAt, round_of_check h]
  exact laneRndA_eq rc c hc _ _ (fun x y => lane_lanesAt c s.mem x y) x y

theorem place4 : ∀ i < 25, place 4 i = i := by decide +kernel

theorem lanesAt4 (m : Nat → U64) : lanesAt 4 m = lanesAt 0 m := by
  unfold lanesAt
  congr 1
  funext i
  rw [place4 i.1 i.2]
  rfl

open Verif.Keccak (roundConstants) in
/-- The body is four rounds. -/
theorem body_lane (rc : Nat → U64) (k : Nat) (hk : k < 6) (hrc : ∀ c < 4, rc c = roundConstants.getD (4 * k + c) 0) (s : St U64) :
    Keccak.abs (lanesAt 0 (runL (ops64 rc) body s).mem) =
      Fips202.rnd (Fips202.rnd (Fips202.rnd (Fips202.rnd (Keccak.abs (lanesAt 0 s.mem)) (4 * k)) (4 * k + 1)) (4 * k + 2)) (4 * k + 3) := by
  have e : runL (ops64 rc) body s = runL (ops64 rc) round3 (runL (ops64 rc) round2 (runL (ops64 rc) round1 (runL (ops64 rc) round0 s))) := by
    unfold body runL
    rw [List.foldl_append, List.foldl_append, List.foldl_append]
  rw [e, ← lanesAt4]
  rw [Keccak.rnd_of_lane (4 * k + 3) (by omega) _ _ (fun x y => by rw [← hrc 3 (by omega)]; exact round_lane (by omega) check3 rc _ x y),
    Keccak.rnd_of_lane (4 * k + 2) (by omega) _ _ (fun x y => by rw [← hrc 2 (by omega)]; exact round_lane (by omega) check2 rc _ x y),
    Keccak.rnd_of_lane (4 * k + 1) (by omega) _ _ (fun x y => by rw [← hrc 1 (by omega)]; exact round_lane (by omega) check1 rc _ x y),
    Keccak.rnd_of_lane (4 * k) (by omega) _ _ (fun x y => by rw [← Nat.add_zero (4 * k), ← hrc 0 (by omega)]; exact round_lane (by omega) check0 rc _ x y)]

/-! ## The byte shuffles -/

theorem foldl_or_bit {α : Type} (g : α → U64) (l : List α) (z : U64) (b : Nat) :
    (l.foldl (fun r k => r ||| g k) z).getLsbD b = (z.getLsbD b || l.any fun k => (g k).getLsbD b) := by
  induction l generalizing z with
  | nil => simp
  | cons a l ih => rw [List.foldl_cons, ih, BitVec.getLsbD_or, List.any_cons, Bool.or_assoc]

theorem ofBytes_bit (f : Fin 32 → BitVec 8) (l : Fin 4) (b : Nat) (hb : b < 64) :
    (ofBytes f l).getLsbD b = (f ⟨8 * l.1 + b / 8, by omega⟩).getLsbD (b % 8) := by
  unfold ofBytes
  rw [foldl_or_bit (fun k : Fin 8 => (f ⟨8 * l.1 + k.1, by omega⟩).setWidth 64 <<< (8 * k.1))]
  rw [show (0 : U64).getLsbD b = false from BitVec.getLsbD_zero, Bool.false_or, Bool.eq_iff_iff, List.any_eq_true]
  constructor
  · rintro ⟨k, -, h⟩
    have hk := k.2
    rw [BitVec.getLsbD_shiftLeft, BitVec.getLsbD_setWidth] at h
    simp only [Bool.and_eq_true, Bool.not_eq_true', decide_eq_false_iff_not, decide_eq_true_eq] at h
    have : b - 8 * k.1 < 8 := by
      by_contra hc
      rw [BitVec.getLsbD_of_ge _ _ (by omega)] at h
      simp at h
    have e1 : b / 8 = k.1 := by omega
    have e2 : b % 8 = b - 8 * k.1 := by omega
    simp only [e1, e2]
    exact h.2.2
  · intro h
    refine ⟨⟨b / 8, by omega⟩, List.mem_finRange _, ?_⟩
    rw [BitVec.getLsbD_shiftLeft, BitVec.getLsbD_setWidth]
    have e2 : b - 8 * (b / 8) = b % 8 := by omega
    simp only [e2, h, Bool.and_true, Bool.and_eq_true, Bool.not_eq_true', decide_eq_false_iff_not, decide_eq_true_eq]
    omega

/-- A byte shuffle that rotates every quadword by `8 s` bits. -/
theorem pshufb_rot (t : List (BitVec 8)) (s : Nat) (hs : s < 8) (hs0 : 0 < s)
    (h : ∀ j : Fin 32, (byte (constVec t) j).msb = false ∧ 16 * (j.1 / 16) + (byte (constVec t) j).toNat % 16 = 8 * (j.1 / 8) + (j.1 % 8 + (8 - s)) % 8)
    (a : Q4) (l : Fin 4) : pshufb (constVec t) a l = rotA (a l) (8 * s) := by
  apply BitVec.eq_of_getLsbD_eq
  intro b hb
  have hl := l.2
  unfold pshufb
  rw [ofBytes_bit _ _ _ hb]
  have hj := h ⟨8 * l.1 + b / 8, by omega⟩
  dsimp only at hj ⊢
  rw [if_neg (by rw [hj.1]; decide)]
  simp only [hj.2]
  have e1 : (8 * ((8 * l.1 + b / 8) / 8) + ((8 * l.1 + b / 8) % 8 + (8 - s)) % 8) / 8 = l.1 := by omega
  have e2 : (8 * ((8 * l.1 + b / 8) / 8) + ((8 * l.1 + b / 8) % 8 + (8 - s)) % 8) % 8 = (b / 8 + (8 - s)) % 8 := by omega
  unfold byte
  simp only [e1, e2]
  rw [BitVec.getLsbD_extractLsb']
  unfold rotA
  rw [BitVec.getLsbD_or, BitVec.getLsbD_shiftLeft, BitVec.getLsbD_ushiftRight]
  have h8 : decide (b % 8 < 8) = true := decide_eq_true (by omega)
  rw [h8, Bool.true_and]
  by_cases hlt : b < 8 * s
  · have e3 : 8 * ((b / 8 + (8 - s)) % 8) + b % 8 = 64 - 8 * s + b := by omega
    simp [hlt, e3]
  · have e3 : 8 * ((b / 8 + (8 - s)) % 8) + b % 8 = b - 8 * s := by omega
    rw [BitVec.getLsbD_of_ge _ (64 - 8 * s + b) (by omega), e3]
    simp [hlt, hb]

theorem pshufb_rho8 (a : Q4) (l : Fin 4) : pshufb (constVec rho8Bytes) a l = rotA (a l) 8 :=
  pshufb_rot rho8Bytes 1 (by omega) (by omega) (by decide +kernel) a l

theorem pshufb_rho56 (a : Q4) (l : Fin 4) : pshufb (constVec rho56Bytes) a l = rotA (a l) 56 :=
  pshufb_rot rho56Bytes 7 (by omega) (by omega) (by decide +kernel) a l

/-! ## Four lanes -/

/-- The instruction does not write register 0 and shuffles only by register 0. -/
def Ins.ok : Ins → Bool
  | .load _ d | .xorm _ _ d | .xor _ _ d | .or _ _ d | .andn _ _ d | .sll _ _ d | .srl _ _ d | .bcast _ d | .shufm _ d => !Nat.beq d 0
  | .shuf m _ d => Nat.beq m 0 && !Nat.beq d 0
  | .store _ _ => true

theorem body_ok : body.all Ins.ok = true := by decide +kernel

theorem upd_zero {α : Type} (f : Nat → α) (d : Nat) (v : α) (h : (!Nat.beq d 0) = true) : upd f d v 0 = f 0 := by
  unfold upd
  cases d with
  | zero => exact absurd h (by decide)
  | succ d => rfl

theorem upd_lane (f : Nat → Q4) (k : Nat) (v : Q4) (l : Fin 4) :
    (fun j => upd f k v j l) = upd (fun j => f j l) k (v l) := upd_map (fun v => v l) f k v

theorem run_lane (rc : Nat → U64) (l : Fin 4) (code : List Ins) (hok : code.all Ins.ok = true) : ∀ s : St Q4, s.reg 0 = constVec rho8Bytes →
    (run rc (constVec rho56Bytes) code s).map (fun v => v l) = runL (ops64 rc) code (s.map fun v => v l) ∧
    (run rc (constVec rho56Bytes) code s).reg 0 = constVec rho8Bytes := by
  induction code with
  | nil => intro s h; exact ⟨rfl, h⟩
  | cons i code ih =>
    intro s h
    rw [List.all_cons, Bool.and_eq_true] at hok
    have key : (step rc (constVec rho56Bytes) s i).map (fun v => v l) = stepL (ops64 rc) (s.map fun v => v l) i ∧
        (step rc (constVec rho56Bytes) s i).reg 0 = constVec rho8Bytes := by
      have hi := hok.1
      cases i with
      | store r off => exact ⟨by simp only [step, stepL, St.map, upd_lane], h⟩
      | shuf m a d =>
        simp only [Ins.ok, Bool.and_eq_true] at hi
        have hm : m = 0 := Nat.eq_of_beq_eq_true hi.1
        refine ⟨?_, by simp only [step]; rw [upd_zero _ _ _ hi.2]; exact h⟩
        simp only [step, stepL, St.map, upd_lane]
        rw [hm, h, pshufb_rho8]
        rfl
      | shufm a d =>
        refine ⟨?_, by simp only [step]; rw [upd_zero _ _ _ hi]; exact h⟩
        simp only [step, stepL, St.map, upd_lane]
        rw [pshufb_rho56]
        rfl
      | load off d => exact ⟨by simp only [step, stepL, St.map, upd_lane], by simp only [step]; rw [upd_zero _ _ _ hi]; exact h⟩
      | xorm off b d => exact ⟨by simp only [step, stepL, St.map, upd_lane]; rfl, by simp only [step]; rw [upd_zero _ _ _ hi]; exact h⟩
      | xor a b d => exact ⟨by simp only [step, stepL, St.map, upd_lane]; rfl, by simp only [step]; rw [upd_zero _ _ _ hi]; exact h⟩
      | or a b d => exact ⟨by simp only [step, stepL, St.map, upd_lane]; rfl, by simp only [step]; rw [upd_zero _ _ _ hi]; exact h⟩
      | andn a b d => exact ⟨by simp only [step, stepL, St.map, upd_lane]; rfl, by simp only [step]; rw [upd_zero _ _ _ hi]; exact h⟩
      | sll k a d => exact ⟨by simp only [step, stepL, St.map, upd_lane]; rfl, by simp only [step]; rw [upd_zero _ _ _ hi]; exact h⟩
      | srl k a d => exact ⟨by simp only [step, stepL, St.map, upd_lane]; rfl, by simp only [step]; rw [upd_zero _ _ _ hi]; exact h⟩
      | bcast off d => exact ⟨by simp only [step, stepL, St.map, upd_lane]; rfl, by simp only [step]; rw [upd_zero _ _ _ hi]; exact h⟩
    have := ih hok.2 (step rc (constVec rho56Bytes) s i) key.2
    rw [key.1] at this
    exact this

/-- Lane `l` of the 25 vectors at `rdi`. -/
def laneOf (s : Nat → Q4) (l : Fin 4) : Lanes := Vector.ofFn fun i => s (32 * i.1) l

open Verif.Keccak (roundConstants) in
theorem loop_spec (rc : Nat → U64) (hrc : ∀ c < 24, rc c = roundConstants.getD c 0) (l : Fin 4) (n k : Nat) (hk : k + n = 6) : ∀ s : St Q4, s.reg 0 = constVec rho8Bytes →
    Keccak.abs (laneOf (loop rc n (4 * k) s).mem l) = (List.range' (4 * k) (4 * n)).foldl Fips202.rnd (Keccak.abs (laneOf s.mem l)) := by
  induction n generalizing k with
  | zero => intro s _; rfl
  | succ n ih =>
    intro s hs
    obtain ⟨h1, h2⟩ := run_lane (fun c => rc (4 * k + c)) l body body_ok s hs
    have hb := body_lane (fun c => rc (4 * k + c)) k (by omega) (fun c hc => hrc _ (by omega)) (s.map fun v => v l)
    rw [← h1] at hb
    show Keccak.abs (laneOf (loop rc n (4 * k + 4) (run (fun c => rc (4 * k + c)) (constVec rho56Bytes) body s)).mem l) = _
    have e := ih (k + 1) (by omega) _ h2
    rw [show 4 * (k + 1) = 4 * k + 4 by omega] at e
    rw [e, show 4 * (n + 1) = 4 * n + 1 + 1 + 1 + 1 by omega, List.range'_succ, List.range'_succ, List.range'_succ, List.range'_succ]
    have hl : ∀ m : Nat → Q4, lanesAt 0 (fun j => m j l) = laneOf m l := fun m => by unfold lanesAt laneOf; rfl
    simp only [St.map, hl] at hb
    rw [List.foldl_cons, List.foldl_cons, List.foldl_cons, List.foldl_cons, hb]

open Verif.Keccak (roundConstants) in
/-- **`f1600x4` is KECCAK-f[1600] on each of the four lanes.** -/
theorem f1600x4_abs (rc : Nat → U64) (hrc : ∀ c < 24, rc c = roundConstants.getD c 0) (regs : Nat → Q4) (s : Nat → Q4) (l : Fin 4) :
    Keccak.abs (laneOf (f1600x4 rc regs s) l) = Fips202.keccakF (Keccak.abs (laneOf s l)) := by
  have := loop_spec rc hrc l 6 0 (by omega) ⟨upd regs 0 (constVec rho8Bytes), s⟩ rfl
  rw [Nat.mul_zero] at this
  unfold f1600x4
  rw [this, Fips202.keccakF, List.range_eq_range']

theorem abs_inj {a b : Lanes} (h : Keccak.abs a = Keccak.abs b) : a = b := by
  apply Vector.ext
  intro i hi
  apply BitVec.eq_of_getLsbD_eq
  intro z hz
  have := congrFun (congrFun (congrFun h ⟨i % 5, by omega⟩) ⟨i / 5, by omega⟩) ⟨z, hz⟩
  unfold Keccak.abs at this
  simp only [show 5 * (i / 5) + i % 5 = i by omega] at this
  exact this

open Verif.Keccak (roundConstants) in
/-- … so it is the portable permutation on each lane. -/
theorem f1600x4_permute (rc : Nat → U64) (hrc : ∀ c < 24, rc c = roundConstants.getD c 0) (regs : Nat → Q4) (s : Nat → Q4) (l : Fin 4) :
    laneOf (f1600x4 rc regs s) l = Keccak.permute (laneOf s l) :=
  abs_inj (by rw [f1600x4_abs rc hrc, Keccak.abs_permute])

end Verif.Avx2.F1600
