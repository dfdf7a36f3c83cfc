import Verif.Neon.PolySym
import Verif.Neon.NttInt
import Verif.Avx2.PolyInt
import Verif.Dilithium.BitSpec

/-!
# The coefficient-wise functions of the aarch64 poly.c and polyvec.c that call assembly

Each function sets up memory as the C call does (`M` is whatever the machine held before), runs the assembly, and reads the result.
-/

namespace Verif.Neon

open Verif.Avx2 (W32 VPoly wq wqinv ti smul mont64 lo32 hi32 toInt_bound32 toInt_add_of toInt_sub_of ofInt_toInt toI32_id smul_toInt lo32_toInt mont64_toInt mul_bound32
  toInt_add64_of toNat_of_nonneg toInt_of_nat)
open Verif.Dilithium hiding W32 toI32_id

/-- `montgomery_const` (aarch64/poly.c:45-47, polyvec.c:40-42). -/
def mconst : Nat → W32 := tabW [8380417, 58728449, 0, 0]

/-- `poly_reduce` (aarch64/poly.c:60-67). -/
def reduceN (M : Mach) (a : VPoly) : VPoly := fun i => (run (((M.arr 0 256 (rd 0 a)).arr 256 4 mconst).args [0, 256]) polyReduceAsm).mem i.1
/-- `poly_caddq` (aarch64/poly.c:77-84). -/
def caddqN (M : Mach) (a : VPoly) : VPoly := fun i => (run (((M.arr 0 256 (rd 0 a)).arr 256 4 mconst).args [0, 256]) polyCaddqAsm).mem i.1
/-- `poly_pointwise_montgomery(c, a, b)` (aarch64/poly.c:208-215), `c` apart. -/
def pointwiseN (M : Mach) (a b : VPoly) : VPoly := fun i =>
  (run ((((M.arr 256 256 (rd 0 a)).arr 512 256 (rd 0 b)).arr 768 4 mconst).args [0, 256, 512, 768]) polyPointwiseAsm).mem i.1
/-- `poly_pointwise_montgomery(b, a, b)`: the output over the second input. -/
def pointwiseN' (M : Mach) (a b : VPoly) : VPoly := fun i =>
  (run ((((M.arr 256 256 (rd 0 a)).arr 0 256 (rd 0 b)).arr 512 4 mconst).args [0, 256, 0, 512]) polyPointwiseAsm).mem i.1
/-- Four polynomials one after the other (`polyvecl`). -/
def vecW (u : Fin 4 → VPoly) (n : Nat) : W32 := rd 0 (u (Fin.ofNat 4 (n / 256))) (n % 256)
/-- `polyvecl_pointwise_acc_montgomery` (aarch64/polyvec.c:180-187). -/
def pointwiseAccN (M : Mach) (u v : Fin 4 → VPoly) : VPoly := fun i =>
  (run ((((M.arr 256 1024 (vecW u)).arr 1280 1024 (vecW v)).arr 2304 4 mconst).args [0, 256, 1280, 2304]) pointwiseAccAsm).mem i.1
/-- `poly_power2round(a1, a0, a1)` (aarch64/poly.c:229-236), as called by sign.c: the high part over the input. -/
def power2roundN (M : Mach) (a : VPoly) : VPoly × VPoly :=
  (fun i => (run ((M.arr 0 256 (rd 0 a)).args [0, 256, 0]) polyPower2roundAsm).mem i.1,
   fun i => (run ((M.arr 0 256 (rd 0 a)).args [0, 256, 0]) polyPower2roundAsm).mem (256 + i.1))
/-- Word `n` of a byte string (little endian). -/
def leWord (C : CSem) (b : Bytes) (n : Nat) : W32 := at8 C b (4 * n + 3) ++ at8 C b (4 * n + 2) ++ at8 C b (4 * n + 1) ++ at8 C b (4 * n)
/-- `polyt1_unpack` (aarch64/poly.c:733-740). -/
def t1UnpackN (C : CSem) (M : Mach) (b : Bytes) : VPoly := fun i => (run ((M.arr 256 80 (leWord C b)).args [0, 256]) unpack10).mem i.1

/-! ## Reading the symbolic runs -/

/-- Values of the variables. -/
def envM (S : Mach) (c : Nat) : W32 := if c < 7000 then S.mem c else if c < 7200 then S.reg ((c - 7000) / 4) (Fin.ofNat 4 ((c - 7000) % 4)) else S.w (c - 7200)

theorem plain_out (S : Mach) (n : Nat) (hn : 4 * n < 7000) (args : List Nat) (ha : args.length ≤ 32) (p : List Instr) (f : Nat → V)
    (hb : symRun id n p (plain n args) (allIs f) = some true) (a : Nat) (h : a < 4 * n) : (run (S.args args) p).mem a = (f a).d (envM S) := by
  have d : Desc (envM S) n (plain n args) (S.args args) := by
    refine start_desc _ n S _ args ha (rowsX_length _ _) (fun r hr j => ?_) (fun r _ => ?_) fun a ha j => ?_
    · have := j.2
      unfold envM
      rw [if_neg (by omega), if_pos (by omega), show (7000 + (4 * r + j.1) - 7000) / 4 = r by omega, show (7000 + (4 * r + j.1) - 7000) % 4 = j.1 by omega]
      congr 1
      exact Fin.ext (Nat.mod_eq_of_lt j.2)
    · unfold envM
      rw [if_neg (by omega), if_neg (by omega), show 7200 + r - 7200 = r by omega]
    · have := j.2
      rw [lane_rowsX _ _ _ _ ha]
      show _ = envM S _
      unfold envM
      rw [if_pos (by omega)]
  obtain ⟨t', e, h'⟩ := sym_sound id _ (fun _ => rfl) n (allIs f) p _ _ d true hb
  unfold allIs at e
  rw [List.all_eq_true] at e
  have e2 := e (a / 4) (List.mem_range.2 (by rw [h'.lenM]; omega))
  rw [List.all_eq_true] at e2
  have e3 := V.eq_of_beq _ _ (e2 (a % 4) (List.mem_range.2 (by omega)))
  have := h'.mem (a / 4) (by omega) ⟨a % 4, by omega⟩
  simp only [show 4 * (a / 4) + a % 4 = a by omega] at this e3
  rw [this, e3]

theorem mconst0 : mconst 0 = wq := by decide
theorem mconst1 : mconst 1 = wqinv := by decide

theorem envM_mem (S : Mach) (c : Nat) (h : c < 7000) : envM S c = S.mem c := by unfold envM; rw [if_pos h]

theorem rd_lt (a : VPoly) (i : Fin 256) : rd 0 a i.1 = a i := by simp [rd, i.2]

theorem mTerm_ev (env : Nat → W32) (k : Nat) (A : V) (h0 : env k = wq) (h1 : env (k + 1) = wqinv) : (mTerm k A).d env = mont64 wq wqinv (A.ev env).2 := by
  show hi32 ((A.ev env).2 - smul (lo32 (A.ev env).2 * env (k + 1)) (env k)) = _
  unfold mont64
  rw [h0, h1]
  have e : smul (lo32 (A.ev env).2 * wqinv) wq = smul wq (lo32 (smul wqinv (lo32 (A.ev env).2))) := by
    generalize lo32 (A.ev env).2 = x
    have e1 : lo32 (smul wqinv x) = x * wqinv := by
      apply BitVec.eq_of_toInt_eq
      rw [lo32_toInt, smul_toInt, BitVec.toInt_mul, Int.mul_comm]
      rfl
    rw [e1]
    apply BitVec.eq_of_toInt_eq
    rw [smul_toInt, smul_toInt, Int.mul_comm]
  rw [e]

theorem reduceN_eq (M : Mach) (a : VPoly) : reduceN M a = fun i => a i - srs 23 (a i) * wq := by
  funext i
  have hi := i.2
  show (run (Mach.args _ _) _).mem _ = _
  rw [plain_out _ 65 (by omega) _ (by simp) _ _ reduce_sym _ (by omega), if_pos hi]
  show envM _ i.1 - srs 23 (envM _ i.1) * envM _ 256 = _
  rw [envM_mem _ _ (by omega), envM_mem _ _ (by omega), arr_out _ _ _ _ i.1 (by omega), arr_in _ _ _ _ i.1 (by omega) (by omega), arr_in _ _ _ _ 256 (by omega) (by omega), Nat.sub_zero, rd_lt,
    Nat.sub_self, mconst0]

theorem caddqN_eq (M : Mach) (a : VPoly) : caddqN M a = fun i => a i - (a i).sshiftRight 31 * wq := by
  funext i
  have hi := i.2
  show (run (Mach.args _ _) _).mem _ = _
  rw [plain_out _ 65 (by omega) _ (by simp) _ _ caddq_sym _ (by omega), if_pos hi]
  show envM _ i.1 - (envM _ i.1).sshiftRight 31 * envM _ 256 = _
  rw [envM_mem _ _ (by omega), envM_mem _ _ (by omega), arr_out _ _ _ _ i.1 (by omega), arr_in _ _ _ _ i.1 (by omega) (by omega), arr_in _ _ _ _ 256 (by omega) (by omega), Nat.sub_zero, rd_lt,
    Nat.sub_self, mconst0]

theorem pointwiseN_eq (M : Mach) (a b : VPoly) (i : Fin 256) : pointwiseN M a b i = mont64 wq wqinv (smul (a i) (b i)) := by
  have hi := i.2
  show (run (Mach.args _ _) _).mem _ = _
  rw [plain_out _ 193 (by omega) _ (by simp) _ _ pointwise_sym _ (by omega)]
  unfold pwT
  rw [if_pos hi, mTerm_ev]
  · show mont64 _ _ (smul (envM _ _) (envM _ _)) = _
    rw [envM_mem _ _ (by omega), envM_mem _ _ (by omega), arr_out _ _ _ _ (256 + i.1) (by omega), arr_out _ _ _ _ (256 + i.1) (by omega), arr_in _ _ _ _ (256 + i.1) (by omega) (by omega),
      arr_out _ _ _ _ (512 + i.1) (by omega), arr_in _ _ _ _ (512 + i.1) (by omega) (by omega), Nat.add_sub_cancel_left, Nat.add_sub_cancel_left, rd_lt, rd_lt]
  · rw [envM_mem _ _ (by omega), arr_in _ _ _ _ _ (by omega) (by omega), ← mconst0]
  · rw [envM_mem _ _ (by omega), arr_in _ _ _ _ _ (by omega) (by omega), ← mconst1]

theorem pointwiseN'_eq (M : Mach) (a b : VPoly) (i : Fin 256) : pointwiseN' M a b i = mont64 wq wqinv (smul (a i) (b i)) := by
  have hi := i.2
  show (run (Mach.args _ _) _).mem _ = _
  rw [plain_out _ 129 (by omega) _ (by simp) _ _ pointwise'_sym _ (by omega)]
  unfold pwT'
  rw [if_pos hi, mTerm_ev]
  · show mont64 _ _ (smul (envM _ _) (envM _ _)) = _
    rw [envM_mem _ _ (by omega), envM_mem _ _ (by omega), arr_out _ _ _ _ (256 + i.1) (by omega), arr_out _ _ _ _ (256 + i.1) (by omega), arr_in _ _ _ _ (256 + i.1) (by omega) (by omega),
      arr_out _ _ _ _ i.1 (by omega), arr_in _ _ _ _ i.1 (by omega) (by omega), Nat.add_sub_cancel_left, Nat.sub_zero, rd_lt, rd_lt]
  · rw [envM_mem _ _ (by omega), arr_in _ _ _ _ _ (by omega) (by omega), ← mconst0]
  · rw [envM_mem _ _ (by omega), arr_in _ _ _ _ _ (by omega) (by omega), ← mconst1]

theorem vecW_at (u : Fin 4 → VPoly) (k : Fin 4) (i : Fin 256) : vecW u (256 * k.1 + i.1) = u k i := by
  have := i.2
  have := k.2
  unfold vecW
  rw [show (256 * k.1 + i.1) / 256 = k.1 by omega, show (256 * k.1 + i.1) % 256 = i.1 by omega, rd_lt]
  exact congrFun (congrArg u (Fin.ext (Nat.mod_eq_of_lt k.2))) i

theorem pointwiseAccN_eq (M : Mach) (u v : Fin 4 → VPoly) (i : Fin 256) :
    pointwiseAccN M u v i = mont64 wq wqinv (smul (u 0 i) (v 0 i) + smul (u 1 i) (v 1 i) + smul (u 2 i) (v 2 i) + smul (u 3 i) (v 3 i)) := by
  have hi := i.2
  show (run (Mach.args _ _) _).mem _ = _
  rw [plain_out _ 577 (by omega) _ (by simp) _ _ pointwiseAcc_sym _ (by omega)]
  unfold accT
  rw [if_pos hi]
  generalize hS : (((M.arr 256 1024 (vecW u)).arr 1280 1024 (vecW v)).arr 2304 4 mconst) = S
  have eu : ∀ k : Fin 4, envM S (256 + (256 * k.1 + i.1)) = u k i := fun k => by
    have := k.2
    rw [envM_mem _ _ (by omega), ← hS, arr_out _ _ _ _ _ (by omega), arr_out _ _ _ _ _ (by omega), arr_in _ _ _ _ _ (by omega) (by omega), Nat.add_sub_cancel_left, vecW_at]
  have ev : ∀ k : Fin 4, envM S (1280 + (256 * k.1 + i.1)) = v k i := fun k => by
    have := k.2
    rw [envM_mem _ _ (by omega), ← hS, arr_out _ _ _ _ _ (by omega), arr_in _ _ _ _ _ (by omega) (by omega), Nat.add_sub_cancel_left, vecW_at]
  have s : ∀ b n m, envM S (b + (256 * m + i.1)) = envM S (n + i.1) ∨ b + 256 * m ≠ n := fun b n m => by
    by_cases h : b + 256 * m = n
    · left; exact congrArg _ (by omega)
    · right; exact h
  rw [mTerm_ev]
  · show mont64 _ _ (smul (envM S (256 + i.1)) (envM S (1280 + i.1)) + smul (envM S (512 + i.1)) (envM S (1536 + i.1)) + smul (envM S (768 + i.1)) (envM S (1792 + i.1)) +
      smul (envM S (1024 + i.1)) (envM S (2048 + i.1))) = _
    rw [← eu 0, ← eu 1, ← eu 2, ← eu 3, ← ev 0, ← ev 1, ← ev 2, ← ev 3]
    rw [show 256 + i.1 = 256 + (256 * (0 : Fin 4).1 + i.1) by simp, show 512 + i.1 = 256 + (256 * (1 : Fin 4).1 + i.1) by simp; omega,
      show 768 + i.1 = 256 + (256 * (2 : Fin 4).1 + i.1) by simp; omega, show 1024 + i.1 = 256 + (256 * (3 : Fin 4).1 + i.1) by simp; omega,
      show 1280 + i.1 = 1280 + (256 * (0 : Fin 4).1 + i.1) by simp, show 1536 + i.1 = 1280 + (256 * (1 : Fin 4).1 + i.1) by simp; omega,
      show 1792 + i.1 = 1280 + (256 * (2 : Fin 4).1 + i.1) by simp; omega, show 2048 + i.1 = 1280 + (256 * (3 : Fin 4).1 + i.1) by simp; omega]
  · rw [envM_mem _ _ (by omega), ← hS, arr_in _ _ _ _ _ (by omega) (by omega), ← mconst0]
  · rw [envM_mem _ _ (by omega), ← hS, arr_in _ _ _ _ _ (by omega) (by omega), ← mconst1]

theorem p2_mem (S : Mach) (n : Nat) (hn : n < 512) :
    (run (S.args [0, 256, 0]) polyPower2roundAsm).mem n = if n < 256 then srs 13 (S.mem n - 1) else S.mem (n - 256) - srs 13 (S.mem (n - 256) - 1) <<< 13 := by
  rw [plain_out _ 128 (by omega) _ (by simp) _ _ power2round_sym _ (by omega)]
  have t : ∀ env m, (p2hi (V.x m)).d env = srs 13 (env m - 1) := fun _ _ => rfl
  have t' : ∀ env m, (p2lo (V.x m)).d env = env m - srs 13 (env m - 1) <<< 13 := fun _ _ => rfl
  split
  · rw [t, envM_mem _ _ (by omega)]
  · rw [t', envM_mem _ _ (by omega)]

theorem power2roundN_eq (M : Mach) (a : VPoly) :
    power2roundN M a = (fun i => srs 13 (a i - 1), fun i => a i - srs 13 (a i - 1) <<< 13) := by
  unfold power2roundN
  rw [Prod.mk.injEq]
  constructor <;> funext i <;> have hi := i.2
  · rw [p2_mem _ _ (by omega), if_pos hi, arr_in _ _ _ _ i.1 (by omega) (by omega), Nat.sub_zero, rd_lt]
  · rw [p2_mem _ _ (by omega), if_neg (by omega), Nat.add_sub_cancel_left, arr_in _ _ _ _ i.1 (by omega) (by omega), Nat.sub_zero, rd_lt]

/-! ## The same as integers -/

variable {C : CSem}

theorem reduceN_int (M : Mach) (a : VPoly) (h : ∀ i, ti a i ≤ 2143289343) : ti (reduceN M a) = polyReduce C (ti a) := by
  funext i
  rw [reduceN_eq]
  show (a i - srs 23 (a i) * wq).toInt = reduce32 C (a i).toInt
  have h' : (a i).toInt ≤ 2143289343 := h i
  obtain ⟨t, e, -, -, ht⟩ := reduce32_spec (C := C) (a i).toInt (toInt_bound32 _).1 h'
  rw [red_word, e, ht]

theorem caddqN_int (M : Mach) (a : VPoly) : ti (caddqN M a) = polyCaddq C (ti a) := by
  funext i
  rw [caddqN_eq]
  show (a i - (a i).sshiftRight 31 * wq).toInt = caddq C (a i).toInt
  generalize a i = x
  have hx := toInt_bound32 x
  rw [caddq_spec _ hx.1 hx.2]
  have e := Avx2.toInt_sra x 31
  by_cases h : x.toInt < 0
  · have e2 : x.sshiftRight 31 = -1#32 := by
      apply BitVec.eq_of_toInt_eq
      rw [e]; show _ = (-1 : Int); norm_num; omega
    rw [if_pos h, e2, show x - -1#32 * wq = x + 8380417#32 by rw [show (-1#32 * wq : W32) = -8380417#32 by decide, BitVec.sub_eq_add_neg, BitVec.neg_neg]]
    have hq : (8380417#32 : W32).toInt = 8380417 := by decide
    rw [toInt_add_of _ _ (by rw [hq]; omega) (by rw [hq]; omega), hq]
  · have e2 : x.sshiftRight 31 = 0#32 := by
      apply BitVec.eq_of_toInt_eq
      rw [e]; show _ = (0 : Int); norm_num; omega
    rw [if_neg h, e2]
    simp

theorem pointwiseN_clean (M : Mach) (a b : VPoly) : ti (pointwiseN M a b) = polyPointwise C (ti a) (ti b) := by
  funext i
  have h := mul_bound32 (a i) (b i)
  show (pointwiseN M a b i).toInt = montgomeryReduce C (C.i64 ((a i).toInt * (b i).toInt))
  rw [pointwiseN_eq, mont64_toInt C _ (by rw [smul_toInt]; omega) (by rw [smul_toInt]; omega), smul_toInt, C.i64_id _ (by omega) (by omega)]

theorem pointwiseN'_eq' (M : Mach) (a b : VPoly) : pointwiseN' M a b = pointwiseN M a b := by
  funext i; rw [pointwiseN_eq, pointwiseN'_eq]

/-- The inner product is the one of the AVX2 code, word for word. -/
theorem pointwiseAccN_avx (M : Mach) (M' : Avx2.Mach) (u v : Fin 4 → VPoly) : pointwiseAccN M u v = Avx2.pointwiseAccC M' u v := by
  funext i; rw [pointwiseAccN_eq, Avx2.pointwiseAccC_eq]

theorem power2roundN_int (M : Mach) (a : VPoly) (h : ∀ i, 0 ≤ ti a i ∧ ti a i < Q) :
    ti (power2roundN M a).1 = (polyPower2round C (ti a)).1 ∧ ti (power2roundN M a).2 = (polyPower2round C (ti a)).2 := by
  rw [power2roundN_eq]
  have key : ∀ x : W32, 0 ≤ x.toInt → x.toInt < Q → srs 13 (x - 1) = (x + 4095#32) >>> 13 ∧ srs 13 (x - 1) <<< 13 = (x + 4095#32) &&& BitVec.ofInt 32 (-8192) := by
    intro x h1 h2
    obtain ⟨e, hl⟩ := toNat_of_nonneg x h1
    simp only [Q] at h2
    have hn : (x + 4095#32).toNat = x.toNat + 4095 := by
      rw [BitVec.toNat_add]; show (x.toNat + 4095) % 4294967296 = _; omega
    have e1 : (x - 1).toInt = x.toInt - 1 := by
      have := toInt_sub_of x 1 (by show _ ≤ _ - (1 : Int); omega) (by show _ - (1 : Int) ≤ _; omega)
      rw [this]; rfl
    have k1 : srs 13 (x - 1) = (x + 4095#32) >>> 13 := by
      apply BitVec.eq_of_toInt_eq
      have t : srs 13 (x - 1) = BitVec.ofInt 32 (((x - 1).toInt + 4096) / 8192) := rfl
      rw [t, ofInt_toInt, e1, toI32_id _ (by omega) (by omega), toInt_of_nat ((x + 4095#32) >>> 13) (by rw [Avx2.toNat_srl, hn]; omega), Avx2.toNat_srl, hn]
      push_cast
      omega
    refine ⟨k1, ?_⟩
    apply BitVec.eq_of_toNat_eq
    rw [k1, Avx2.and_mask, BitVec.toNat_shiftLeft, Avx2.toNat_srl, hn, Nat.shiftLeft_eq]
    omega
  constructor <;> funext i <;> obtain ⟨k1, k2⟩ := key (a i) (h i).1 (h i).2
  · show (srs 13 (a i - 1)).toInt = _
    rw [k1]
    exact (Avx2.power2round_lane _ (h i).1 (h i).2).1
  · show (a i - srs 13 (a i - 1) <<< 13).toInt = _
    rw [k2]
    exact (Avx2.power2round_lane _ (h i).1 (h i).2).2

/-! ## Ten-bit fields -/

theorem leWord_bit (b : Bytes) (n t : Nat) (ht : t < 32) : (leWord C b n).getLsbD t = (at8 C b (4 * n + t / 8)).getLsbD (t % 8) := by
  unfold leWord
  rw [BitVec.getLsbD_append, BitVec.getLsbD_append, BitVec.getLsbD_append]
  by_cases h1 : t < 8
  · rw [if_pos h1, show t / 8 = 0 by omega, show t % 8 = t by omega, Nat.add_zero]
  · rw [if_neg h1]
    by_cases h2 : t < 16
    · rw [if_pos (by omega), show t / 8 = 1 by omega, show t % 8 = t - 8 by omega]
    · rw [if_neg (by omega)]
      by_cases h3 : t < 24
      · rw [if_pos (by omega), show t / 8 = 2 by omega, show t % 8 = t - 8 - 8 by omega]
      · rw [if_neg (by omega), show t / 8 = 3 by omega, show t % 8 = t - 8 - 8 - 8 by omega]

theorem ubf_bit (l n : Nat) (a : W32) (t : Nat) (ht : t < 32) : (ubf l n a).getLsbD t = (decide (t < n) && a.getLsbD (l + t)) := by
  unfold ubf
  rw [BitVec.getLsbD_ofNat, Nat.testBit_mod_two_pow, Nat.testBit_div_two_pow, BitVec.getLsbD]
  simp [ht, Nat.add_comm]

theorem t1UnpackN_int (M : Mach) (b : Bytes) (hb : 320 ≤ b.length) : ti (t1UnpackN C M b) = polyt1Unpack C b := by
  funext i
  have hi := i.2
  have f1 := polyt1_field (C := C) b hb i
  have f2 : Spec.IsField 10 b i.1 (ti (t1UnpackN C M b) i) := by
    refine field_of_bits 10 (by omega) b i.1 _ fun t ht => ?_
    show ((run ((M.arr 256 80 (leWord C b)).args [0, 256]) unpack10).mem i.1).getLsbD t = _
    rw [plain_out _ 84 (by omega) _ (by simp) _ _ unpack10_sym _ (by omega)]
    generalize hS : M.arr 256 80 (leWord C b) = S
    have em : ∀ n < 80, envM S (256 + n) = leWord C b n := fun n hn => by
      rw [envM_mem _ _ (by omega), ← hS, arr_in _ _ _ _ _ (by omega) (by omega), Nat.add_sub_cancel_left]
    have eb : ∀ n < 80, ∀ t < 32, (leWord C b n).getLsbD t = Spec.bitAt b (32 * n + t) := fun n hn t ht => by
      rw [leWord_bit _ _ _ ht]
      unfold at8 Spec.bitAt
      rw [show (32 * n + t) / 8 = 4 * n + t / 8 by omega, show (32 * n + t) % 8 = t % 8 by omega, List.getD_eq_getElem?_getD, List.getElem?_eq_getElem (by omega),
        getElem!_pos b _ (by omega)]
      rfl
    unfold unT
    rw [if_pos hi]
    dsimp only
    by_cases h22 : 10 * i.1 % 32 ≤ 22
    · rw [if_pos h22]
      show (ubf _ 10 (envM S _)).getLsbD t = _
      rw [ubf_bit _ _ _ _ ht, em _ (by omega)]
      by_cases h10 : t < 10
      · rw [eb _ (by omega) _ (by omega)]
        congr 2; omega
      · simp [h10]
    · rw [if_neg h22]
      show ((ubf 0 _ (envM S (256 + (10 * i.1 / 32 + 1)))) <<< (32 - 10 * i.1 % 32) ||| envM S (256 + 10 * i.1 / 32) >>> (10 * i.1 % 32)).getLsbD t = _
      rw [em _ (by omega), em _ (by omega), BitVec.getLsbD_or, BitVec.getLsbD_shiftLeft, BitVec.getLsbD_ushiftRight]
      by_cases c : t < 32 - 10 * i.1 % 32
      · rw [eb _ (by omega) _ (by omega)]
        have : t < 10 := by omega
        simp only [c, this, decide_true, Bool.not_true, Bool.and_false, Bool.false_and, Bool.false_or, Bool.true_and]
        congr 1; omega
      · rw [BitVec.getLsbD_of_ge (leWord C b _) _ (by omega), ubf_bit _ _ _ _ (by omega), Bool.or_false]
        by_cases h10 : t < 10
        · rw [eb _ (by omega) _ (by omega)]
          have : t - (32 - 10 * i.1 % 32) < 10 * i.1 % 32 - 22 := by omega
          simp only [ht, c, h10, this, decide_true, decide_false, Bool.not_false, Bool.true_and]
          congr 1; omega
        · have : ¬ t - (32 - 10 * i.1 % 32) < 10 * i.1 % 32 - 22 := by omega
          simp [h10, this]
  obtain ⟨a1, a2, a3⟩ := f1
  obtain ⟨b1, b2, b3⟩ := f2
  have e : (ti (t1UnpackN C M b) i).toNat = (polyt1Unpack C b i).toNat := by
    apply Nat.eq_of_testBit_eq
    intro t
    by_cases h : t < 10
    · rw [a3 t h, b3 t h]
    · rw [Nat.testBit_lt_two_pow, Nat.testBit_lt_two_pow]
      · exact lt_of_lt_of_le (show _ < 2 ^ 10 by omega) (Nat.pow_le_pow_right (by omega) (by omega))
      · exact lt_of_lt_of_le (show _ < 2 ^ 10 by omega) (Nat.pow_le_pow_right (by omega) (by omega))
  omega

/-! ## `poly_freeze` -/

/-- `poly_freeze` (aarch64/poly.c:94-101), on a memory whose 288 words from the polynomial on are `f`: 288 words are rewritten, not 256. -/
theorem freeze_overrun (M : Mach) (f : Nat → W32) (n : Nat) (hn : n < 288) :
    (run (((M.arr 0 288 f).arr 288 4 mconst).args [0, 288]) polyFreezeAsm).mem n = (f n - srs 23 (f n) * wq) - (f n - srs 23 (f n) * wq).sshiftRight 31 * wq := by
  rw [plain_out _ 73 (by omega) _ (by simp) _ _ freeze_sym _ (by omega), if_pos hn]
  have t : ∀ env, (caddqT 288 (redT 288 (.x n))).d env = (env n - srs 23 (env n) * env 288) - (env n - srs 23 (env n) * env 288).sshiftRight 31 * env 288 := fun _ => rfl
  rw [t, envM_mem _ _ (by omega), envM_mem _ _ (by omega), arr_out _ _ _ _ n (by omega), arr_in _ _ _ _ n (by omega) (by omega), arr_in _ _ _ _ 288 (by omega) (by omega), Nat.sub_zero,
    Nat.sub_self, mconst0]

end Verif.Neon
