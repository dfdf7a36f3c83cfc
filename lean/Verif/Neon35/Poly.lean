import Verif.Neon35.Sym5
import Verif.Neon35.Sym7
import Verif.Neon.Poly
import Verif.Dilithium35.Model

/-!
# polyvecl_pointwise_acc_montgomery of dilithium3/aarch64 and dilithium5/aarch64
-/

namespace Verif.Neon35

open Verif.Neon hiding vecW vecW_at pointwiseAccN pointwiseAccN_eq accT
open Verif.Avx2 (W32 VPoly wq wqinv ti smul mont64 toInt_bound32 smul_toInt mont64_toInt mul_bound32 toInt_add64_of mont_range)
open Verif.Dilithium (CSem Q Bnd res F Rinv montgomeryReduce rd mont_cast mul_bnd)
open Verif.Dilithium35 (Mode)

/-- The routine as assembled for the parameter set. -/
def accAsm : Mode → List Instr
  | .three => pointwiseAccAsm5
  | .five => pointwiseAccAsm7

/-- `n` polynomials one after the other (`polyvecl`). -/
def vecW (n : Nat) [NeZero n] (u : Fin n → VPoly) (k : Nat) : W32 := rd 0 (u (Fin.ofNat n (k / 256))) (k % 256)

instance (md : Mode) : NeZero md.L := ⟨by cases md <;> decide⟩

/-- `polyvecl_pointwise_acc_montgomery` (dilithium3/aarch64/polyvec.c:182-189; dilithium5: the same lines). -/
def pointwiseAccN (md : Mode) (M : Mach) (u v : Fin md.L → VPoly) : VPoly := fun i =>
  (run ((((M.arr 256 (256 * md.L) (vecW md.L u)).arr (256 + 256 * md.L) (256 * md.L) (vecW md.L v)).arr (256 + 512 * md.L) 4 mconst).args
    [0, 256, 256 + 256 * md.L, 256 + 512 * md.L]) (accAsm md)).mem i.1

theorem accAsm_three : accAsm .three = pointwiseAccAsm5 := by unfold accAsm; rfl
theorem accAsm_five : accAsm .five = pointwiseAccAsm7 := by unfold accAsm; rfl

theorem acc_out (md : Mode) (S : Mach) (a : Nat) (h : a < 256) :
    (run (S.args [0, 256, 256 + 256 * md.L, 256 + 512 * md.L]) (accAsm md)).mem a = (accT md.L a).d (envM S) := by
  cases md
  · have e := plain_out S 705 (by decide) [0, 256, 1536, 2816] (by decide) pointwiseAccAsm5 (accT 5) acc5_sym a (by omega)
    rw [accAsm_three, show Mode.three.L = 5 from rfl, show 256 + 256 * 5 = 1536 from rfl, show 256 + 512 * 5 = 2816 from rfl]
    exact e
  · have e := plain_out S 961 (by decide) [0, 256, 2048, 3840] (by decide) pointwiseAccAsm7 (accT 7) acc7_sym a (by omega)
    rw [accAsm_five, show Mode.five.L = 7 from rfl, show 256 + 256 * 7 = 2048 from rfl, show 256 + 512 * 7 = 3840 from rfl]
    exact e

/-- The sum of the first `n + 1` quadwords. -/
def accW (f : Nat → BitVec 64) : Nat → BitVec 64
  | 0 => f 0
  | n + 1 => accW f n + f (n + 1)

theorem accV_ev (env : Nat → W32) (b a n : Nat) : ((accV b a n).ev env).2 = accW (fun k => smul (env (256 + 256 * k + a)) (env (b + 256 * k + a))) n := by
  induction n with
  | zero => rfl
  | succ n ih =>
    show ((accV b a n).ev env).2 + smul _ _ = _
    rw [ih]
    rfl

theorem accW_congr (f g : Nat → BitVec 64) (n : Nat) (h : ∀ k, k ≤ n → f k = g k) : accW f n = accW g n := by
  induction n with
  | zero => exact h 0 (le_refl _)
  | succ n ih =>
    show accW f n + f (n + 1) = accW g n + g (n + 1)
    rw [ih fun k hk => h k (by omega), h (n + 1) (le_refl _)]

theorem accW_toInt (f : Nat → BitVec 64) (B : Int) (n : Nat) (hf : ∀ k, k ≤ n → -B ≤ (f k).toInt ∧ (f k).toInt ≤ B) (hB : (n + 1) * B ≤ 9223372036854775807) :
    (accW f n).toInt = ∑ k ∈ Finset.range (n + 1), (f k).toInt ∧ -((n + 1) * B) ≤ (accW f n).toInt ∧ (accW f n).toInt ≤ (n + 1) * B := by
  induction n with
  | zero =>
    have := hf 0 (le_refl _)
    refine ⟨by simp [accW], ?_⟩
    show -((((0 : Nat) : Int) + 1) * B) ≤ (f 0).toInt ∧ (f 0).toInt ≤ (((0 : Nat) : Int) + 1) * B
    rw [show ((0 : Nat) : Int) + 1 = 1 from rfl, one_mul]
    exact this
  | succ n ih =>
    have h1 := hf (n + 1) (le_refl _)
    have e : (((n + 1 : Nat) : Int) + 1) * B = (n + 1) * B + B := by push_cast; ring
    rw [e] at hB ⊢
    obtain ⟨a, b⟩ := ih (fun k hk => hf k (by omega)) (by omega)
    generalize ((n : Int) + 1) * B = X at *
    have s : (accW f (n + 1)).toInt = (accW f n).toInt + (f (n + 1)).toInt := toInt_add64_of _ _ (by omega) (by omega)
    rw [s, Finset.sum_range_succ, a]
    refine ⟨rfl, ?_⟩
    rw [← a]
    omega

theorem vecW_at (n : Nat) [NeZero n] (u : Fin n → VPoly) (k : Fin n) (i : Fin 256) : vecW n u (256 * k.1 + i.1) = u k i := by
  have := i.2
  have := k.2
  unfold vecW
  rw [show (256 * k.1 + i.1) / 256 = k.1 by omega, show (256 * k.1 + i.1) % 256 = i.1 by omega, rd_lt]
  exact congrFun (congrArg u (Fin.ext (Nat.mod_eq_of_lt k.2))) i

/-- The product of two entries at a position. -/
def term (md : Mode) (u v : Fin md.L → VPoly) (i : Fin 256) (k : Nat) : BitVec 64 := smul (u (Fin.ofNat md.L k) i) (v (Fin.ofNat md.L k) i)

theorem L_bd (md : Mode) : 1 ≤ md.L ∧ md.L ≤ 7 := by cases md <;> decide

theorem pointwiseAccN_eq (md : Mode) (M : Mach) (u v : Fin md.L → VPoly) (i : Fin 256) :
    pointwiseAccN md M u v i = mont64 wq wqinv (accW (term md u v i) (md.L - 1)) := by
  have hi := i.2
  have hL := L_bd md
  unfold pointwiseAccN
  rw [acc_out md _ _ hi]
  unfold accT
  rw [if_pos hi]
  generalize hS : (((M.arr 256 (256 * md.L) (vecW md.L u)).arr (256 + 256 * md.L) (256 * md.L) (vecW md.L v)).arr (256 + 512 * md.L) 4 mconst) = S
  have eu : ∀ k : Fin md.L, envM S (256 + 256 * k.1 + i.1) = u k i := fun k => by
    have := k.2
    rw [envM_mem _ _ (by omega), ← hS, arr_out _ _ _ _ _ (by omega), arr_out _ _ _ _ _ (by omega), arr_in _ _ _ _ _ (by omega) (by omega),
      show 256 + 256 * k.1 + i.1 - 256 = 256 * k.1 + i.1 by omega, vecW_at]
  have ev : ∀ k : Fin md.L, envM S (256 + 256 * md.L + 256 * k.1 + i.1) = v k i := fun k => by
    have := k.2
    rw [envM_mem _ _ (by omega), ← hS, arr_out _ _ _ _ _ (by omega), arr_in _ _ _ _ _ (by omega) (by omega),
      show 256 + 256 * md.L + 256 * k.1 + i.1 - (256 + 256 * md.L) = 256 * k.1 + i.1 by omega, vecW_at]
  rw [mTerm_ev]
  · rw [accV_ev]
    refine congrArg _ (accW_congr _ _ _ fun k hk => ?_)
    have ek : (Fin.ofNat md.L k).1 = k := Nat.mod_eq_of_lt (by omega)
    have a := eu (Fin.ofNat md.L k)
    have b := ev (Fin.ofNat md.L k)
    rw [ek] at a b
    rw [a, b]
    rfl
  · rw [envM_mem _ _ (by omega), ← hS, arr_in _ _ _ _ _ (by omega) (by omega), Nat.sub_self, ← mconst0]
  · rw [envM_mem _ _ (by omega), ← hS, arr_in _ _ _ _ _ (by omega) (by omega), Nat.add_sub_cancel_left, ← mconst1]

theorem pointwiseAccN_int (C : CSem) (md : Mode) (M : Mach) (u v : Fin md.L → VPoly) (B : Int) (m : ∀ k i, -B ≤ ti (u k) i * ti (v k) i ∧ ti (u k) i * ti (v k) i ≤ B)
    (hB : 7 * B ≤ 2147483647 * Q) (i : Fin 256) :
    (pointwiseAccN md M u v i).toInt = montgomeryReduce C (∑ k, ti (u k) i * ti (v k) i) ∧ -(2147483647 * Q) ≤ ∑ k, ti (u k) i * ti (v k) i ∧
      ∑ k, ti (u k) i * ti (v k) i ≤ 2147483647 * Q := by
  have hL := L_bd md
  have hB0 : 0 ≤ B := by have := m 0 i; omega
  have t : ∀ k, (term md u v i k).toInt = ti (u (Fin.ofNat md.L k)) i * ti (v (Fin.ofNat md.L k)) i := fun k => smul_toInt _ _
  have hLB : ((md.L - 1 : Nat) : Int) + 1 = (md.L : Int) := by omega
  have hmul : (md.L : Int) * B ≤ 7 * B := Int.mul_le_mul_of_nonneg_right (by omega) hB0
  simp only [Q] at *
  obtain ⟨e, b⟩ := accW_toInt (term md u v i) B (md.L - 1) (fun k _ => by rw [t]; exact m _ i) (by rw [hLB]; omega)
  rw [show md.L - 1 + 1 = md.L by omega] at e
  have e2 : ∑ k ∈ Finset.range md.L, (term md u v i k).toInt = ∑ k : Fin md.L, ti (u k) i * ti (v k) i := by
    rw [Finset.sum_range]
    refine Finset.sum_congr rfl fun k _ => ?_
    rw [t, show Fin.ofNat md.L k.1 = k from Fin.ext (Nat.mod_eq_of_lt k.2)]
  rw [hLB] at b
  rw [pointwiseAccN_eq, mont64_toInt C _ (by omega) (by omega)]
  rw [e2] at e
  rw [e] at b
  rw [e]
  exact ⟨rfl, by omega, by omega⟩

theorem pointwiseAccN_res (C : CSem) (md : Mode) (M : Mach) (u v : Fin md.L → VPoly) (A B : Int) (hu : ∀ k, Bnd A (ti (u k))) (hv : ∀ k, Bnd B (ti (v k)))
    (h : 7 * (A * B) ≤ 2147483647 * Q) :
    res (ti (pointwiseAccN md M u v)) = Rinv • ∑ k, res (ti (u k)) * res (ti (v k)) ∧ Bnd Q (ti (pointwiseAccN md M u v)) := by
  have key := pointwiseAccN_int C md M u v (A * B) (fun k i => mul_bnd (hu k i) (hv k i)) h
  constructor
  · funext i
    have := key i
    simp only [Q] at this
    show (((pointwiseAccN md M u v i).toInt : Int) : F) = _
    rw [this.1, mont_cast _ (by simp only [Q]; omega) (by simp only [Q]; omega)]
    simp only [Pi.smul_apply, Finset.sum_apply, smul_eq_mul, Pi.mul_apply, res]
    push_cast
    ring
  · intro i
    have := key i
    simp only [Q] at this
    show -Q ≤ (pointwiseAccN md M u v i).toInt ∧ (pointwiseAccN md M u v i).toInt ≤ Q
    rw [this.1]
    exact mont_range C _ (by simp only [Q]; omega) (by simp only [Q]; omega)

end Verif.Neon35
