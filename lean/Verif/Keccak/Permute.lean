import Verif.Keccak.Fips202
import Verif.Keccak.Spec
import Mathlib.Tactic.FinCases
import Mathlib.Data.Fintype.Basic
import Mathlib.Data.Fintype.Fin

/-! # The unrolled permutation of `fips202.c` is KECCAK-f[1600] -/

namespace Verif.Keccak
open Verif.Fips202

/-- The state array of FIPS 202 held by 25 lanes. -/
def abs (s : Lanes) : State := fun x y z => (s[5 * y.1 + x.1]'(by omega)).getLsbD z.1

theorem bit_rol (a : U64) (k : Nat) (h0 : 0 < k) (h1 : k < 64) (z : Fin 64) : (rol a k).getLsbD z.1 = a.getLsbD (z - Fin.ofNat 64 k).1 := by
  have hz := z.2
  have e : (z - Fin.ofNat 64 k).1 = (64 - k + z.1) % 64 := by
    rw [Fin.sub_def]
    simp only [Fin.ofNat]
    omega
  rw [e]
  unfold rol
  rw [BitVec.getLsbD_xor, BitVec.getLsbD_shiftLeft, BitVec.getLsbD_ushiftRight]
  by_cases h : z.1 < k
  · rw [Nat.mod_eq_of_lt (by omega)]
    simp [h, hz]
  · have e1 : (64 - k + z.1) % 64 = z.1 - k := by omega
    rw [e1, BitVec.getLsbD_of_ge a (64 - k + z.1) (by omega)]
    simp [h, hz]

/-- The rotation offsets of ρ. -/
def rhoOff (x y : Fin 5) : Nat :=
  match y.1 * 5 + x.1 with
  | 1 => 1 | 2 => 62 | 3 => 28 | 4 => 27
  | 5 => 36 | 6 => 44 | 7 => 6 | 8 => 55 | 9 => 20
  | 10 => 3 | 11 => 10 | 12 => 43 | 13 => 25 | 14 => 39
  | 15 => 41 | 16 => 45 | 17 => 15 | 18 => 21 | 19 => 8
  | 20 => 18 | 21 => 2 | 22 => 61 | 23 => 56 | 24 => 14
  | _ => 0

theorem fin_sub_zero (z : Fin 64) : z - Fin.ofNat 64 0 = z := by
  apply Fin.ext
  rw [Fin.sub_def]
  simp only [Fin.ofNat]
  omega

theorem rho_eq (A : State) (x y : Fin 5) (z : Fin 64) : rho A x y z = A x y (z - Fin.ofNat 64 (rhoOff x y)) := by
  unfold rho
  simp only [List.range, List.range.loop, List.foldl]
  rw [show rhoPos 0 = (1, 0) by decide, show rhoPos 1 = (0, 2) by decide, show rhoPos 2 = (2, 1) by decide, show rhoPos 3 = (1, 2) by decide,
    show rhoPos 4 = (2, 3) by decide, show rhoPos 5 = (3, 3) by decide, show rhoPos 6 = (3, 0) by decide, show rhoPos 7 = (0, 1) by decide,
    show rhoPos 8 = (1, 3) by decide, show rhoPos 9 = (3, 1) by decide, show rhoPos 10 = (1, 4) by decide, show rhoPos 11 = (4, 4) by decide,
    show rhoPos 12 = (4, 0) by decide, show rhoPos 13 = (0, 3) by decide, show rhoPos 14 = (3, 4) by decide, show rhoPos 15 = (4, 3) by decide,
    show rhoPos 16 = (3, 2) by decide, show rhoPos 17 = (2, 2) by decide, show rhoPos 18 = (2, 0) by decide, show rhoPos 19 = (0, 4) by decide,
    show rhoPos 20 = (4, 2) by decide, show rhoPos 21 = (2, 4) by decide, show rhoPos 22 = (4, 1) by decide, show rhoPos 23 = (1, 1) by decide]
  fin_cases x <;> fin_cases y <;> first | rfl | (exact (congrArg _ (fin_sub_zero z)).symm)

theorem bit_not (a : U64) (z : Fin 64) : (~~~a).getLsbD z.1 = (a.getLsbD z.1 ^^ true) := by
  rw [BitVec.getLsbD_not]; simp [z.2]

theorem theta_eq (A : State) (x y : Fin 5) (z : Fin 64) : theta A x y z =
    (A x y z ^^ ((A (x - 1) 0 z ^^ A (x - 1) 1 z ^^ A (x - 1) 2 z ^^ A (x - 1) 3 z ^^ A (x - 1) 4 z) ^^
      (A (x + 1) 0 (z - 1) ^^ A (x + 1) 1 (z - 1) ^^ A (x + 1) 2 (z - 1) ^^ A (x + 1) 3 (z - 1) ^^ A (x + 1) 4 (z - 1)))) := rfl

theorem bit_chi (a b c : U64) (z : Fin 64) : (a ^^^ (~~~b &&& c)).getLsbD z.1 = (a.getLsbD z.1 ^^ ((b.getLsbD z.1 ^^ true) && c.getLsbD z.1)) := by
  rw [BitVec.getLsbD_xor, BitVec.getLsbD_and, bit_not]

/-! ## Lanes -/

/-- The lane `(x, y)`. -/
def lane (s : Lanes) (x y : Fin 5) : U64 := s[5 * y.1 + x.1]'(by omega)

/-- θ, then ρ, on lanes. -/
def laneTR (s : Lanes) (x y : Fin 5) : U64 :=
  let C : Fin 5 → U64 := fun x => lane s x 0 ^^^ lane s x 1 ^^^ lane s x 2 ^^^ lane s x 3 ^^^ lane s x 4
  let t := lane s x y ^^^ (C (x - 1) ^^^ rol (C (x + 1)) 1)
  match rhoOff x y with
  | 0 => t
  | k + 1 => rol t (k + 1)

/-- One round on lanes. -/
def laneRnd (rc : U64) (s : Lanes) (x y : Fin 5) : U64 :=
  let B : Fin 5 → Fin 5 → U64 := fun x y => laneTR s (x + 3 * y) x
  let c := B x y ^^^ (~~~B (x + 1) y &&& B (x + 2) y)
  match 5 * y.1 + x.1 with
  | 0 => c ^^^ rc
  | _ => c

theorem halfA_lane (rc : U64) (s : Lanes) (x y : Fin 5) : lane (halfA rc s) x y = laneRnd rc s x y := by
  fin_cases x <;> fin_cases y <;> rfl

theorem halfE_lane (rc : U64) (s : Lanes) (x y : Fin 5) : lane (halfE rc s) x y = laneRnd rc s x y := by
  fin_cases x <;> fin_cases y <;> rfl

theorem rhoOff_lt (x y : Fin 5) : rhoOff x y < 64 := by
  fin_cases x <;> fin_cases y <;> decide

theorem laneTR_bit (s : Lanes) (x y : Fin 5) (z : Fin 64) : (laneTR s x y).getLsbD z.1 = rho (theta (abs s)) x y z := by
  rw [rho_eq]
  have key : ∀ z : Fin 64, (lane s x y ^^^ ((lane s (x-1) 0 ^^^ lane s (x-1) 1 ^^^ lane s (x-1) 2 ^^^ lane s (x-1) 3 ^^^ lane s (x-1) 4) ^^^
      rol (lane s (x+1) 0 ^^^ lane s (x+1) 1 ^^^ lane s (x+1) 2 ^^^ lane s (x+1) 3 ^^^ lane s (x+1) 4) 1)).getLsbD z.1 = theta (abs s) x y z := by
    intro z
    rw [theta_eq]
    simp only [BitVec.getLsbD_xor, bit_rol _ 1 (by omega) (by omega)]
    rfl
  have hl := rhoOff_lt x y
  unfold laneTR
  dsimp only
  split
  · rename_i h
    rw [h, key]
    exact congrArg _ (fin_sub_zero z).symm
  · rename_i k h
    rw [h, bit_rol _ _ (by omega) (by omega), key]

theorem laneRnd_bit (rc : U64) (s : Lanes) (x y : Fin 5) (z : Fin 64) : (laneRnd rc s x y).getLsbD z.1 =
    (chi (pi (rho (theta (abs s)))) x y z ^^ (if x = 0 ∧ y = 0 then rc.getLsbD z.1 else false)) := by
  unfold laneRnd chi pi
  dsimp only
  split
  · rename_i h
    rw [if_pos ⟨Fin.ext (by simp; omega), Fin.ext (by simp; omega)⟩, BitVec.getLsbD_xor, bit_chi, laneTR_bit, laneTR_bit, laneTR_bit]
  · rename_i h
    rw [if_neg (by rintro ⟨rfl, rfl⟩; exact h rfl), Bool.xor_false, bit_chi, laneTR_bit, laneTR_bit, laneTR_bit]

/-- The bits of round constant `ir`. -/
theorem roundConstants_bits : ∀ ir < 24, ∀ z : Fin 64, ((roundConstants.getD ir 0).getLsbD z.1) =
    (List.range 7).any (fun j => decide (z.1 = 2 ^ j - 1) && rc (j + 7 * ir)) := by
  decide +kernel

theorem rnd_of_lane (ir : Nat) (h : ir < 24) (s s' : Lanes) (hs : ∀ x y, lane s' x y = laneRnd (roundConstants.getD ir 0) s x y) :
    abs s' = rnd (abs s) ir := by
  funext x y z
  show (lane s' x y).getLsbD z.1 = _
  rw [hs, laneRnd_bit, roundConstants_bits ir h]
  unfold rnd iota
  split <;> simp

theorem doubleRound_abs (k : Nat) (h : k < 12) (s : Lanes) :
    abs (halfE (roundConstants.getD (2 * k + 1) 0) (halfA (roundConstants.getD (2 * k) 0) s)) = rnd (rnd (abs s) (2 * k)) (2 * k + 1) := by
  rw [rnd_of_lane (2 * k + 1) (by omega) _ _ (halfE_lane _ _), rnd_of_lane (2 * k) (by omega) _ _ (halfA_lane _ _)]

/-- The permutation computes KECCAK-f[1600]. -/
theorem abs_permute (s : Lanes) : abs (permute s) = keccakF (abs s) := by
  have : ∀ n ≤ 12, abs ((List.range n).foldl (fun s k => halfE (roundConstants.getD (2 * k + 1) 0) (halfA (roundConstants.getD (2 * k) 0) s)) s) =
      (List.range (2 * n)).foldl rnd (abs s) := by
    intro n
    induction n with
    | zero => intro _; rfl
    | succ n ih =>
      intro hn
      rw [List.range_succ, List.foldl_append, List.foldl_cons, List.foldl_nil, doubleRound_abs n (by omega), ih (by omega),
        show 2 * (n + 1) = 2 * n + 1 + 1 by omega, List.range_succ, List.range_succ, List.foldl_append, List.foldl_append]
      rfl
  exact this 12 (by omega)

end Verif.Keccak
