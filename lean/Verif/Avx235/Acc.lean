import Verif.Avx2.NttInt
import Verif.Dilithium35.Model

/-! # `pointwise_acc_avx` of dilithium3/avx2 and dilithium5/avx2: 5 and 7 products -/

namespace Verif.Avx235

open Verif.Avx2
open Verif.Dilithium (CSem Q F Rinv Bnd res rd rd_lt mul_bnd)
open Verif.Dilithium35 (Mode)

/-- Loop body of `pointwise_acc_avx` (pointwise.S:149-194 of dilithium3, 149-198 of dilithium5) with `n` products: two vectors.  The macros are those
of dilithium2 (the files differ in the number of `pointwise`/`acc` lines only). -/
def pwaBody (n rdi rsi rdx : Nat) : List Instr :=
  pwa_pointwise rsi rdx 0 ++
  [.mov 6 2,
   .mov 7 3,
   .mov 8 4,
   .mov 9 5] ++
  ((List.range (n - 1)).flatMap fun k => pwa_pointwise rsi rdx (1024 * (k + 1)) ++ pwa_acc) ++
  [.muldq 0 2 6,
   .muldq 0 3 7,
   .muldq 0 4 8,
   .muldq 0 5 9,
   .muldq 1 6 6,
   .muldq 1 7 7,
   .muldq 1 8 8,
   .muldq 1 9 9,
   .subq 6 2 2,
   .subq 7 3 3,
   .subq 8 4 4,
   .subq 9 5 5,
   .srlq32 2 2,
   .shdup 4 4,
   .blendd 170 3 2 2,
   .blendd 170 5 4 4,
   .store 2 (rdi + (0)),
   .store 4 (rdi + (8))]

/-- `pointwise_acc_avx` (pointwise.S:141-201 of dilithium3, 141-205 of dilithium5): sixteen iterations, pointers advanced by 64 bytes each. -/
def pointwiseAccAvx (n rdi rsi rdx rcx : Nat) : List Instr :=
  pwConsts rcx ++ (List.range 16).flatMap fun i => pwaBody n (rdi + 16 * i) (rsi + 16 * i) (rdx + 16 * i)

/-- Vector `k` of an array of `n`. -/
def vecAt {n : Nat} (u : Fin n → VPoly) (k : Nat) : VPoly := if h : k < n then u ⟨k, h⟩ else fun _ => 0

/-- `polyvecl_pointwise_acc_montgomery` (polyvec.c:185-187 of dilithium3, 225-227 of dilithium5) calling `pointwise_acc_avx(w->vec, u->vec->vec, v->vec->vec, qdata.vec)`. -/
def pointwiseAccL {n : Nat} (M : Mach) (u v : Fin n → VPoly) : VPoly := fun i =>
  (run (((M.arr 256 (256 * n) (fun x => rd 0 (vecAt u (x / 256)) (x % 256))).arr (256 + 256 * n) (256 * n)
    (fun x => rd 0 (vecAt v (x / 256)) (x % 256))).arr (256 + 512 * n) 624 tab)
    (pointwiseAccAvx n 0 256 (256 + 256 * n) (256 + 512 * n))).mem i.1

/-- The sum of the first `n + 1` products, as a term. -/
def accTerm (i : Nat) : Nat → V
  | 0 => .mul (.x (10000 + i)) (.x (20000 + i))
  | n + 1 => .qadd (accTerm i n) (.mul (.x (10000 + 256 * (n + 1) + i)) (.x (20000 + 256 * (n + 1) + i)))

/-- The symbolic run for `n` products. -/
def AccSym (n : Nat) : Prop := symRun (·) (110 + 64 * n) (pointwiseAccAvx n 0 256 (256 + 256 * n) (256 + 512 * n)) (rowsX 16 (7000 + ·))
    (rowsX 32 (·) ++ rowsX (32 * n) (10000 + ·) ++ rowsX (32 * n) (20000 + ·) ++ rowsX 78 tabCode) (outIs fun i => pwTerm (accTerm i (n - 1))) = some true

set_option maxRecDepth 100000

theorem acc_sym5 : AccSym 5 := by unfold AccSym; decide +kernel
theorem acc_sym7 : AccSym 7 := by unfold AccSym; decide +kernel

/-- Values of the variables. -/
def envA {n : Nat} (M : Mach) (u v : Fin n → VPoly) (c : Nat) : W32 :=
  if c < 1000 then M.mem c else if c < 10000 then envT M c
  else if c < 20000 then rd 0 (vecAt u ((c - 10000) / 256)) ((c - 10000) % 256) else rd 0 (vecAt v ((c - 20000) / 256)) ((c - 20000) % 256)

/-- The sum of the first `k + 1` products in 64 bits. -/
def accSum {n : Nat} (u v : Fin n → VPoly) (i : Fin 256) : Nat → BitVec 64
  | 0 => smul (vecAt u 0 i) (vecAt v 0 i)
  | k + 1 => accSum u v i k + smul (vecAt u (k + 1) i) (vecAt v (k + 1) i)

theorem accTerm_ev {n : Nat} (M : Mach) (u v : Fin n → VPoly) (i : Fin 256) (k : Nat) (hk : k < 8) :
    ((accTerm i.1 k).ev (envA M u v)).2 = accSum u v i k := by
  have key : ∀ k, k < 8 → envA M u v (10000 + 256 * k + i.1) = vecAt u k i ∧ envA M u v (20000 + 256 * k + i.1) = vecAt v k i := fun k hk => by
    have hi := i.2
    have f1 : 10000 + 256 * k + i.1 - 10000 = 256 * k + i.1 := by rw [Nat.add_assoc, Nat.add_sub_cancel_left]
    have f2 : 20000 + 256 * k + i.1 - 20000 = 256 * k + i.1 := by rw [Nat.add_assoc, Nat.add_sub_cancel_left]
    have e1 : (256 * k + i.1) / 256 = k := by omega
    have e2 : (256 * k + i.1) % 256 = i.1 := by omega
    unfold envA
    rw [if_neg (by omega), if_neg (by omega), if_pos (by omega), if_neg (by omega), if_neg (by omega), if_neg (by omega), f1, f2, e1, e2, rd_lt _ _ _ hi,
      rd_lt _ _ _ hi]
    exact ⟨rfl, rfl⟩
  induction k with
  | zero =>
    have := key 0 hk
    norm_num at this
    simp only [accTerm, accSum, V.ev, this.1, this.2]
  | succ k ih =>
    have := key (k + 1) hk
    have e := ih (by omega)
    simp only [accTerm, accSum, V.ev, this.1, this.2, e]

theorem pointwiseAccL_eq {n : Nat} (hs : AccSym n) (hn : n ≤ 8) (M : Mach) (u v : Fin n → VPoly) (i : Fin 256) :
    pointwiseAccL M u v i = mont64 wq wqinv (accSum u v i (n - 1)) := by
  have hd : Desc (envA M u v) (110 + 64 * n) (rowsX 16 (7000 + ·)) (rowsX 32 (·) ++ rowsX (32 * n) (10000 + ·) ++ rowsX (32 * n) (20000 + ·) ++ rowsX 78 tabCode)
      (((M.arr 256 (256 * n) (fun x => rd 0 (vecAt u (x / 256)) (x % 256))).arr (256 + 256 * n) (256 * n)
        (fun x => rd 0 (vecAt v (x / 256)) (x % 256))).arr (256 + 512 * n) 624 tab) := by
    refine ⟨rowsX_length _ _, by simp only [List.length_append, rowsX_length]; omega, fun r hr j => ?_, fun m hm j => ?_⟩
    · rw [lane_rowsX _ _ _ _ hr, arr_reg, arr_reg, arr_reg]
      simp only [V.d, V.ev]
      unfold envA
      rw [if_neg (by omega), if_pos (by omega), envT_reg]
    · rw [lane_append, lane_append, lane_append]
      simp only [List.length_append, rowsX_length]
      by_cases c1 : m < 32
      · rw [if_pos (by omega), if_pos (by omega), if_pos c1, lane_rowsX _ _ _ _ c1, arr_out _ _ _ _ _ (by omega), arr_out _ _ _ _ _ (by omega), arr_out _ _ _ _ _ (by omega)]
        simp only [V.d, V.ev]; unfold envA; rw [if_pos (by omega)]
      · by_cases c2 : m < 32 + 32 * n
        · rw [if_pos (by omega), if_pos (by omega), if_neg c1, lane_rowsX _ _ _ _ (by omega), arr_out _ _ _ _ _ (by omega), arr_out _ _ _ _ _ (by omega),
            arr_in _ _ _ _ _ (by omega) (by omega)]
          simp only [V.d, V.ev]; unfold envA; rw [if_neg (by omega), if_neg (by omega), if_pos (by omega)]
          rw [show 10000 + (8 * (m - 32) + j.1) - 10000 = 8 * m + j.1 - 256 by omega]
        · by_cases c3 : m < 32 + 32 * n + 32 * n
          · rw [if_pos (by omega), if_neg (by omega), lane_rowsX _ _ _ _ (by omega), arr_out _ _ _ _ _ (by omega), arr_in _ _ _ _ _ (by omega) (by omega)]
            simp only [V.d, V.ev]; unfold envA; rw [if_neg (by omega), if_neg (by omega), if_neg (by omega)]
            rw [show 20000 + (8 * (m - (32 + 32 * n)) + j.1) - 20000 = 8 * m + j.1 - (256 + 256 * n) by omega]
          · rw [if_neg (by omega), lane_rowsX _ _ _ _ (by omega), arr_in _ _ _ _ _ (by omega) (by omega)]
            generalize hx : m - (32 + 32 * n + 32 * n) = x
            have ht := envT_tab M (8 * x + j.1) (by omega)
            have hc : 3000 ≤ tabCode (8 * x + j.1) ∧ tabCode (8 * x + j.1) < 10000 := by
              have k1 : (8 * x + j.1) - 32 < 296 → kap ((8 * x + j.1) - 32) < 256 := kap_lt _
              have k2 : (8 * x + j.1) - 328 < 296 → kap ((8 * x + j.1) - 328) < 256 := kap_lt _
              unfold tabCode; split <;> [omega; split <;> omega]
            simp only [V.d, V.ev]
            unfold envA
            rw [if_neg (by omega), if_pos (by omega), ht]
            exact congrArg tab (by omega)
  have := sym_out (·) _ (fun _ => rfl) (110 + 64 * n) (by omega) _ _ _ _ hd _ hs i.1 i.2
  unfold pointwiseAccL
  rw [this, pwTerm_ev M _ (fun c h1 h2 => by unfold envA; rw [if_neg (by omega), if_pos (by omega)]), accTerm_ev M u v i (n - 1) (by omega)]

theorem accSum_int {n : Nat} (u v : Fin n → VPoly) (i : Fin 256) (Z : Int) (h : ∀ k, -Z ≤ (vecAt u k i).toInt * (vecAt v k i).toInt ∧
    (vecAt u k i).toInt * (vecAt v k i).toInt ≤ Z) (hZ : Z ≤ 1000000000000000000) (k : Nat) (hk : k < 8) :
    (accSum u v i k).toInt = ∑ j ∈ Finset.range (k + 1), (vecAt u j i).toInt * (vecAt v j i).toInt ∧
    -((k + 1) * Z) ≤ (accSum u v i k).toInt ∧ (accSum u v i k).toInt ≤ (k + 1) * Z := by
  induction k with
  | zero =>
    have := h 0
    simp only [accSum, smul_toInt, zero_add, Finset.sum_range_one]
    refine ⟨trivial, by push_cast; omega, by push_cast; omega⟩
  | succ k ih =>
    obtain ⟨e, b1, b2⟩ := ih (by omega)
    have hh := h (k + 1)
    rw [Finset.sum_range_succ, ← e]
    simp only [accSum]
    have hs := smul_toInt (vecAt u (k + 1) i) (vecAt v (k + 1) i)
    generalize (vecAt u (k + 1) i).toInt * (vecAt v (k + 1) i).toInt = x at *
    have hz0 : 0 ≤ Z := by omega
    have hkz : ((k : Int) + 1) * Z ≤ 7 * Z := Int.mul_le_mul_of_nonneg_right (by omega) hz0
    have a := toInt_add64_of (accSum u v i k) (smul (vecAt u (k + 1) i) (vecAt v (k + 1) i)) (by omega) (by omega)
    rw [a, hs]
    push_cast
    have er : ((k : Int) + 1 + 1) * Z = (k + 1) * Z + Z := by ring
    refine ⟨by omega, by omega, by omega⟩

theorem sum_range_fin {n : Nat} (u v : Fin n → VPoly) (i : Fin 256) :
    ∑ j ∈ Finset.range n, (vecAt u j i).toInt * (vecAt v j i).toInt = ∑ k, ti (u k) i * ti (v k) i := by
  rw [Finset.sum_range]
  refine Finset.sum_congr rfl fun k _ => ?_
  unfold vecAt ti
  rw [dif_pos k.2, dif_pos k.2]

theorem accSym (md : Mode) : AccSym md.L := by cases md <;> [exact acc_sym5; exact acc_sym7]

/-- **`pointwise_acc_avx`**: `2^-32` times the sum of the products. -/
theorem pointwiseAccL_res (C : CSem) (md : Mode) (M : Mach) (u v : Fin md.L → VPoly) (A B : Int) (hu : ∀ k, Bnd A (ti (u k))) (hv : ∀ k, Bnd B (ti (v k)))
    (h : 7 * (A * B) ≤ 2147483647 * Q) :
    res (ti (pointwiseAccL M u v)) = Rinv • ∑ k, res (ti (u k)) * res (ti (v k)) ∧ Bnd Q (ti (pointwiseAccL M u v)) := by
  have hL : 0 < md.L ∧ md.L ≤ 7 := by cases md <;> decide
  have hAB : 0 ≤ A * B := by
    have := mul_bnd (hu ⟨0, hL.1⟩ 0) (hv ⟨0, hL.1⟩ 0)
    omega
  simp only [Q] at h
  have m : ∀ i k, -(A * B) ≤ (vecAt u k i).toInt * (vecAt v k i).toInt ∧ (vecAt u k i).toInt * (vecAt v k i).toInt ≤ A * B := fun i k => by
    unfold vecAt
    by_cases hk : k < md.L
    · rw [dif_pos hk, dif_pos hk]
      exact mul_bnd (hu _ i) (hv _ i)
    · rw [dif_neg hk, dif_neg hk]
      simp
      exact hAB
  have key : ∀ i, (accSum u v i (md.L - 1)).toInt = ∑ k, ti (u k) i * ti (v k) i ∧ -(7 * (A * B)) ≤ ∑ k, ti (u k) i * ti (v k) i ∧
      ∑ k, ti (u k) i * ti (v k) i ≤ 7 * (A * B) := fun i => by
    obtain ⟨e, b1, b2⟩ := accSum_int u v i (A * B) (m i) (by omega) (md.L - 1) (by omega)
    rw [show md.L - 1 + 1 = md.L by omega, sum_range_fin] at e
    have hz : (((md.L - 1 : Nat) : Int) + 1) * (A * B) ≤ 7 * (A * B) := Int.mul_le_mul_of_nonneg_right (by omega) hAB
    exact ⟨e, by omega, by omega⟩
  have ki : ∀ i, (pointwiseAccL M u v i).toInt = Dilithium.montgomeryReduce C (∑ k, ti (u k) i * ti (v k) i) := fun i => by
    obtain ⟨e, b1, b2⟩ := key i
    rw [pointwiseAccL_eq (accSym md) (by omega), mont64_toInt C _ (by rw [e]; omega) (by rw [e]; omega), e]
  constructor
  · funext i
    obtain ⟨-, b1, b2⟩ := key i
    show (((pointwiseAccL M u v i).toInt : Int) : F) = _
    rw [ki, Dilithium.mont_cast _ (by simp only [Q]; omega) (by simp only [Q]; omega)]
    simp only [Pi.smul_apply, Finset.sum_apply, smul_eq_mul, Pi.mul_apply, res]
    push_cast
    ring
  · intro i
    obtain ⟨-, b1, b2⟩ := key i
    show -Q ≤ (pointwiseAccL M u v i).toInt ∧ (pointwiseAccL M u v i).toInt ≤ Q
    rw [ki]
    exact mont_range C _ (by simp only [Q]; omega) (by simp only [Q]; omega)

end Verif.Avx235
