import Verif.Avx2.NttInt
import Verif.Dilithium.Refine

/-!
# Property C89: the AVX2 assembly of Dilithium2's number-theoretic transform

On x86-64 with AVX2 the Rust wrapper uses the hand-written assembly in pqclean/crypto_sign/dilithium2/avx2.  The routines are straight-line
machine code (`Verif/Avx2/NttAsm.lean`, run by `Verif/Avx2/Simd.lean`).  `M : Mach` is the rest of the machine when a routine is called:
arbitrary registers and memory.  `ti a` are the coefficients read as signed integers.
-/

namespace Verif.Props
open Verif.Avx2
open Verif.Dilithium
open Verif.Dilithium.Spec (Rq toRq std IsNtt matMul modpm root)

variable {C : CSem}

/-- The place of evaluation point `n` in the output of the AVX2 transform: each block of 64 is an 8 by 8 matrix, transposed. -/
def avxOrder (n : Fin 256) : Fin 256 := ⟨64 * (n.1 / 64) + 8 * (n.1 % 8) + n.1 % 64 / 8, by omega⟩

theorem permP_apply {α : Type} (a : Fin 256 → α) (i : Fin 256) : permP a i = a (avxOrder i) := by
  unfold permP avxOrder
  congr 1
  apply Fin.ext
  show 64 * (i.1 / 64) + (8 * (i.1 % 8) + i.1 % 64 / 8) = 64 * (i.1 / 64) + 8 * (i.1 % 8) + i.1 % 64 / 8
  omega

/-- C89: the forward transform.  For coefficients of absolute value at most `B`, `B + 8q < 2^31`, the output is, integer for integer, the output
of the portable `ntt`, in the order `avxOrder`; so it lists the values at the odd powers of 1753. -/
theorem C89_ntt (M : Mach) (a : VPoly) (B : Int) (hB : B + 8 * 8380417 < 2 ^ 31) (ha : ∀ i, -B ≤ ti a i ∧ ti a i ≤ B) :
    (∀ n, ti (nttC M a) n = polyNtt C (ti a) (avxOrder n)) ∧
    (∀ n, evalAt (root (avxOrder n)) (toRq (ti a)) = (ti (nttC M a) n : ZMod 8380417)) := by
  have e : ti (nttC M a) = permP (polyNtt C (ti a)) := nttC_clean M a B (by simp only [Q]; omega) ha
  have h1 : ∀ n, ti (nttC M a) n = polyNtt C (ti a) (avxOrder n) := fun n => by rw [e, permP_apply]
  refine ⟨h1, fun n => ?_⟩
  have r := (polyNtt_res (C := C) (A := B) (a := ti a) ha (by simp only [Q]; omega)).1
  rw [h1 n]
  exact (isNtt_iff _ _).2 r.symm (avxOrder n)

/-- C89: the pointwise product is the portable one on every input, integer for integer (in the order of the inputs), also when the output is
written over the second input. -/
theorem C89_pointwise (M : Mach) (a b : VPoly) :
    ti (pointwiseC M a b) = polyPointwise C (ti a) (ti b) ∧ pointwiseC' M a b = pointwiseC M a b :=
  ⟨pointwiseC_clean M a b, pointwiseC'_eq' M a b⟩

/-- C89: the reordering routine puts a polynomial into `avxOrder`. -/
theorem C89_nttunpack (M : Mach) (a : VPoly) (i : Fin 256) : nttunpackC M a i = a (avxOrder i) := by
  rw [nttunpackC_eq]
  exact permP_apply a i

/-- C89: the product of two polynomials.  Transform, multiply pointwise, transform back: the negacyclic product modulo `q`. -/
theorem C89_product (M1 M2 M3 M4 : Mach) (a b : VPoly) (A B : Int) (ha : ∀ i, -A ≤ ti a i ∧ ti a i ≤ A) (hb : ∀ i, -B ≤ ti b i ∧ ti b i ≤ B)
    (hA : A + 8 * 8380417 < 2 ^ 31) (hB : B + 8 * 8380417 < 2 ^ 31) (hAB : (A + 8 * 8380417) * (B + 8 * 8380417) < 2 ^ 31 * 8380417) :
    toRq (ti (invnttC M4 (pointwiseC M3 (nttC M1 a) (nttC M2 b)))) = negaMul (toRq (ti a)) (toRq (ti b)) ∧
    ∀ i, |ti (invnttC M4 (pointwiseC M3 (nttC M1 a) (nttC M2 b))) i| ≤ 6176131 := by
  let C := wrapSem
  obtain ⟨r1, b1⟩ := polyNtt_res (C := C) (A := A) (a := ti a) ha (by simp only [Q]; omega)
  obtain ⟨r2, b2⟩ := polyNtt_res (C := C) (A := B) (a := ti b) hb (by simp only [Q]; omega)
  have p := polyPointwise_res (C := C) b1 b2 (by simp only [Q]; exact hAB)
  rw [r1, r2] at p
  obtain ⟨s, -⟩ := polyInvntt_res (C := C) p.2 (X := fNtt (res (ti a)) * fNtt (res (ti b))) p.1
  have e1 : ti (nttC M1 a) = permP (polyNtt C (ti a)) := nttC_clean M1 a A (by simp only [Q]; omega) ha
  have e2 : ti (nttC M2 b) = permP (polyNtt C (ti b)) := nttC_clean M2 b B (by simp only [Q]; omega) hb
  have e3 : ti (permP (pointwiseC M3 (nttC M1 a) (nttC M2 b))) = polyPointwise C (polyNtt C (ti a)) (polyNtt C (ti b)) := by
    rw [ti_permP, pointwiseC_clean (C := C), e1, e2]
    conv_rhs => rw [← permP_permP (polyPointwise C (polyNtt C (ti a)) (polyNtt C (ti b)))]
    rfl
  have q := invnttC_res (oob := C.oob) C M4 (permP (pointwiseC M3 (nttC M1 a) (nttC M2 b))) (by rw [e3]; exact p.2)
  rw [permP_permP, e3] at q
  refine ⟨?_, fun i => abs_le.2 (q.2 i)⟩
  apply fNtt_inj
  have : fNtt (negaMul (toRq (ti a)) (toRq (ti b))) = fNtt (res (ti a)) * fNtt (res (ti b)) := fNtt_mul _ _
  rw [this, ← s]
  exact congrArg fNtt q.1

/-- C89: the inverse transform alone.  If `P` lists (in the order of the AVX2 transform, up to the Montgomery factor `2^-32`) the values of the
polynomial `p` at the odd powers of 1753, `invntt_tomont` returns `p` modulo `q`. -/
theorem C89_invntt (M : Mach) (P : VPoly) (p : Rq) (hP : ∀ i, -8380417 ≤ ti P i ∧ ti P i ≤ 8380417)
    (h : ∀ n, (ti P n : ZMod 8380417) * 2 ^ 32 = evalAt (root (avxOrder n)) p) :
    toRq (ti (invnttC M P)) = p ∧ ∀ i, |ti (invnttC M P) i| ≤ 6176131 := by
  let C := wrapSem
  have hb : Bnd Q (ti (permP P)) := fun i => hP _
  have hr : res (ti (permP P)) = Rinv • fNtt p := by
    funext n
    have hn := h (avxOrder n)
    have ho : avxOrder (avxOrder n) = n := (by decide +kernel : ∀ n : Fin 256, avxOrder (avxOrder n) = n) n
    rw [ho, ← rho_eq_root, ← fNtt_eval] at hn
    have ev : ti (permP P) n = ti P (avxOrder n) := by rw [ti_permP, permP_apply]
    show (ti (permP P) n : ZMod 8380417) = Rinv * fNtt p n
    rw [← hn, ev]
    have := R_Rinv
    push_cast at this
    calc (ti P (avxOrder n) : ZMod 8380417) = ti P (avxOrder n) * (4294967296 * Rinv) := by rw [this, mul_one]
      _ = _ := by ring
  have q := invnttC_res (oob := C.oob) C M (permP P) hb
  rw [permP_permP] at q
  obtain ⟨a, b⟩ := polyInvntt_res (C := C) hb hr
  refine ⟨fNtt_inj ?_, fun i => abs_le.2 (q.2 i)⟩
  rw [← a]
  exact congrArg fNtt q.1

/-- C89: the row-by-vector product (four products, one reduction at the end): `2^-32` times the sum of products modulo `q`, of absolute value at
most `q`. -/
theorem C89_pointwise_acc (M : Mach) (u v : Fin 4 → VPoly) (A B : Int) (hu : ∀ k i, -A ≤ ti (u k) i ∧ ti (u k) i ≤ A)
    (hv : ∀ k i, -B ≤ ti (v k) i ∧ ti (v k) i ≤ B) (h : 4 * (A * B) < 2 ^ 31 * 8380417 - 8380417) (i : Fin 256) :
    (8380417 : Int) ∣ ti (pointwiseAccC M u v) i * 2 ^ 32 - ∑ k, ti (u k) i * ti (v k) i ∧ |ti (pointwiseAccC M u v) i| ≤ 8380417 := by
  have h' : 4 * (A * B) ≤ 2147483647 * Q := by simp only [Q]; omega
  have hAB : A * B ≤ 2000000000000000000 := by omega
  have q := pointwiseAccC_res wrapSem M u v A B hu hv h'
  refine ⟨?_, abs_le.2 (q.2 i)⟩
  refine (ZMod.intCast_eq_intCast_iff_dvd_sub _ _ 8380417).1 (Eq.symm ?_)
  have hi : ((ti (pointwiseAccC M u v) i : Int) : F) = Rinv * ∑ k, (ti (u k) i : F) * (ti (v k) i : F) := by
    have := congrFun q.1 i
    simp only [res, Pi.smul_apply, Finset.sum_apply, Pi.mul_apply, smul_eq_mul] at this
    exact this
  have := R_Rinv
  push_cast at this ⊢
  rw [hi]
  generalize (∑ k, (ti (u k) i : F) * (ti (v k) i : F)) = S
  have e : (Rinv * S : F) * 2 ^ 32 = (4294967296 * Rinv) * S := by ring
  exact e.trans (by rw [this, one_mul])

/-! The routines write only to their output. -/

/-- The dwords an instruction writes. -/
def storeAddr : Instr → Option Nat
  | .store _ a => some a
  | _ => none

theorem run_frame (p : List Instr) (s : Mach) (x : Nat) (h : ∀ i ∈ p, ∀ a, storeAddr i = some a → ¬ (a ≤ x ∧ x < a + 8)) : (run s p).mem x = s.mem x := by
  induction p generalizing s with
  | nil => rfl
  | cons i p ih =>
    show (run (exec s i) p).mem x = _
    rw [ih _ fun j hj => h j (List.mem_cons_of_mem _ hj)]
    cases i <;> try rfl
    rename_i r a
    show (if h : a ≤ x ∧ x < a + 8 then _ else s.mem x) = _
    rw [dif_neg (h _ (List.mem_cons_self) a rfl)]

/-- All writes are to the first 256 dwords. -/
def writesLow (p : List Instr) : Bool := p.all fun i => match storeAddr i with | some a => decide (a + 8 ≤ 256) | none => true

theorem frame_low {p : List Instr} (hp : writesLow p = true) (s : Mach) (x : Nat) (hx : 256 ≤ x) : (run s p).mem x = s.mem x := by
  refine run_frame p s x fun i hi a ha => ?_
  have := List.all_eq_true.1 hp i hi
  rw [ha] at this
  simp only [decide_eq_true_eq] at this
  omega

/-- C89: the routines, with their output in the first 256 dwords of memory and their other operands wherever, write nothing else. -/
theorem C89_frame (M : Mach) (x : Nat) (hx : 256 ≤ x) :
    (run M (nttAvx 0 256)).mem x = M.mem x ∧ (run M (invnttAvx 0 256)).mem x = M.mem x ∧ (run M (nttunpackAvx 0)).mem x = M.mem x ∧
    (run M (pointwiseAvx 0 256 512 768)).mem x = M.mem x ∧ (run M (pointwiseAccAvx 0 256 1280 2304)).mem x = M.mem x :=
  ⟨frame_low (by decide +kernel) M x hx, frame_low (by decide +kernel) M x hx, frame_low (by decide +kernel) M x hx, frame_low (by decide +kernel) M x hx,
   frame_low (by decide +kernel) M x hx⟩

-- `X · X^255 = -1`, computed by the machine code.
example (M : Mach) : toRq (ti (invnttC M (pointwiseC M (nttC M fun i => if i = 1 then 1 else 0) (nttC M fun i => if i = 255 then 1 else 0)))) 0 = -1 := by
  rw [(C89_product M M M M _ _ 1 1 (fun i => by unfold ti; by_cases h : i = 1 <;> simp [h]) (fun i => by unfold ti; by_cases h : i = 255 <;> simp [h]) (by decide) (by decide) (by decide)).1]
  unfold negaMul toRq ti
  rw [Finset.sum_eq_single (1 : Fin 256)]
  · rw [Finset.sum_eq_single (255 : Fin 256)]
    · simp
    · intro b _ hb; simp [hb]
    · simp
  · intro b _ hb; simp [hb]
  · simp

-- The bounds of key generation: matrix entries below `q`, transformed secrets at most `2 + 8q`.
example : 4 * (8380417 * (2 + 8 * 8380417)) < 2 ^ 31 * 8380417 - (8380417 : Int) := by decide
-- The order really differs from the portable one.
example : avxOrder 1 = 8 ∧ avxOrder 9 = 9 ∧ avxOrder 200 = 193 := by decide

end Verif.Props
