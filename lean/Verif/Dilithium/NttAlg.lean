import Verif.Dilithium.NttLemmas

/-! # The NTT of ntt.c modulo `q`: evaluation at the 256 roots of `X^256 + 1`, and its inverse -/

namespace Verif.Dilithium
open Finset

/-- The integers modulo `q`. -/
abbrev F := ZMod 8380417

theorem cast_eq_of_dvd (x y : Int) (h : (8380417 : Int) ∣ x - y) : (x : F) = (y : F) := by
  rw [ZMod.intCast_eq_intCast_iff_dvd_sub]
  exact (Int.dvd_neg.mpr h).trans (by simp)

/-- The inverse of `2^32` modulo `q`. -/
def Rinv : F := ((8265825 : Int) : F)

theorem R_Rinv : ((4294967296 : Int) : F) * Rinv = 1 := by
  have := cast_eq_of_dvd (4294967296 * 8265825) 1 (by decide)
  rw [Int.cast_mul, Int.cast_one] at this
  exact this

theorem mont_cast {C : CSem} (a : Int) (h1 : -2147483648 * Q ≤ a) (h2 : a ≤ 2147483648 * Q) : ((montgomeryReduce C a : Int) : F) = (a : F) * Rinv := by
  have := cast_eq_of_dvd _ _ (mont_mod (C := C) a h1 h2)
  rw [Int.cast_mul] at this
  rw [← this, mul_assoc, R_Rinv, mul_one]

/-- `zetas[n]` without its Montgomery factor. -/
def Z (n : Nat) : F := ((zetas.getD n 0 : Int) : F) * Rinv

/-- The root of the modulus of node `n` in the factorisation tree: node 1 is `X^256 + 1`, the children of `n` are at `2n` and `2n+1`. -/
def rho (n : Nat) : F := if n = 1 then -1 else if n % 2 = 0 then Z (n / 2) else -Z (n / 2)

theorem zeta_table : ∀ n < 256, n ≠ 0 →
    (8380417 : Int) ∣ (zetas.getD n 0) ^ 2 - (if n = 1 then -1 * 4294967296 ^ 2 else if n % 2 = 0 then zetas.getD (n / 2) 0 * 4294967296
      else -zetas.getD (n / 2) 0 * 4294967296) := by decide +kernel

theorem Z_sq (n : Nat) (h : n < 256) (h0 : n ≠ 0) : Z n ^ 2 = rho n := by
  have := cast_eq_of_dvd _ _ (zeta_table n h h0)
  unfold rho Z
  have hR := R_Rinv
  generalize ((4294967296 : Int) : F) = R at *
  split at this
  · rename_i h1
    rw [if_pos h1]
    push_cast at this
    rw [mul_pow, this]
    have hR' : ((4294967296 : F)) * Rinv = 1 := by have := R_Rinv; push_cast at this; exact this
    linear_combination (-(4294967296 : F) * Rinv - 1) * hR'
  · rename_i h1
    have hR' : ((4294967296 : F)) * Rinv = 1 := by have := R_Rinv; push_cast at this; exact this
    rw [if_neg h1]
    split at this
    · rename_i h2
      rw [if_pos h2]
      push_cast at this
      rw [mul_pow, this]
      linear_combination (((zetas.getD (n / 2) 0 : Int) : F)) * Rinv * hR'
    · rename_i h2
      rw [if_neg h2]
      push_cast at this
      rw [mul_pow, this]
      linear_combination (-((zetas.getD (n / 2) 0 : Int) : F)) * Rinv * hR'

theorem zeta_inv_table : ∀ m ∈ [1, 2, 4, 8, 16, 32, 64, 128], ∀ b < m,
    (8380417 : Int) ∣ (zetas.getD (m + b) 0) * (-zetas.getD (2 * m - 1 - b) 0) - 4294967296 ^ 2 := by decide +kernel

theorem Z_inv (m : Nat) (hm : m ∈ [1, 2, 4, 8, 16, 32, 64, 128]) (b : Nat) (hb : b < m) : Z (m + b) * (-Z (2 * m - 1 - b)) = 1 := by
  have := cast_eq_of_dvd _ _ (zeta_inv_table m hm b hb)
  push_cast at this
  have hR' : ((4294967296 : F)) * Rinv = 1 := by have := R_Rinv; push_cast at this; exact this
  unfold Z
  linear_combination (Rinv ^ 2) * this + ((4294967296 : F) * Rinv + 1) * hR'

theorem zeta_bound_table : ∀ k < 256, -4108315 ≤ zetas.getD k 0 ∧ zetas.getD k 0 ≤ 4108315 := by decide +kernel

theorem zetas_length : zetas.length = 256 := by decide +kernel

theorem zeta_eq (oob : Int) (k : Nat) (h : k < 256) : zeta oob k = zetas.getD k 0 := by
  unfold zeta
  rw [List.getD_eq_getElem _ _ (by rw [zetas_length]; exact h), List.getD_eq_getElem _ _ (by rw [zetas_length]; exact h)]

/-! ## Layers modulo `q` -/

/-- The forward pair update modulo `q`. -/
def fBf (k : Nat) (lo hi : F) : F × F := (lo + Z k * hi, lo - Z k * hi)
/-- The inverse pair update modulo `q`. -/
def fIbf (k : Nat) (lo hi : F) : F × F := (lo + hi, -Z k * (lo - hi))

/-- One forward layer modulo `q`. -/
def fwd (len : Nat) (A : Fin 256 → F) : Fin 256 → F := pairLayer 0 len (fun b => fBf (128 / len + b)) A
/-- One inverse layer modulo `q`. -/
def bwd (len : Nat) (A : Fin 256 → F) : Fin 256 → F := pairLayer 0 len (fun b => fIbf (256 / len - 1 - b)) A

section
variable {α : Type} (oob : α) (len : Nat) (g : Nat → α → α → α × α) (A : Fin 256 → α) (b j : Nat)

theorem block_lt {len b j : Nat} (hlen : IsLen len) (hb : b < 128 / len) (hj : j < len) : 2 * len * b + len + j < 256 := by
  simp only [IsLen, List.mem_cons, List.not_mem_nil, or_false] at hlen
  rcases hlen with h | h | h | h | h | h | h | h <;> subst h <;> omega

theorem pairLayer_lo (hlen : IsLen len) (hb : b < 128 / len) (hj : j < len) :
    rd oob (pairLayer oob len g A) (2 * len * b + j) = (g b (rd oob A (2 * len * b + j)) (rd oob A (2 * len * b + len + j))).1 := by
  have hlt := block_lt hlen hb hj
  have hpos : 0 < 2 * len := by have := isLen_pos hlen; omega
  rw [rd_lt oob _ _ (show 2 * len * b + j < 256 by omega)]
  unfold pairLayer
  have e1 : (2 * len * b + j) % (2 * len) = j := by rw [Nat.mul_add_mod, Nat.mod_eq_of_lt (by omega)]
  have e2 : (2 * len * b + j) / (2 * len) = b := by rw [Nat.mul_add_div hpos, Nat.div_eq_of_lt (by omega)]; rfl
  simp only [e1, e2, hj, if_true]
  rw [rd_lt oob _ (2 * len * b + j) (by omega), show 2 * len * b + j + len = 2 * len * b + len + j by omega]

theorem pairLayer_hi (hlen : IsLen len) (hb : b < 128 / len) (hj : j < len) :
    rd oob (pairLayer oob len g A) (2 * len * b + len + j) = (g b (rd oob A (2 * len * b + j)) (rd oob A (2 * len * b + len + j))).2 := by
  have hlt := block_lt hlen hb hj
  have hpos : 0 < 2 * len := by have := isLen_pos hlen; omega
  rw [rd_lt oob _ _ (show 2 * len * b + len + j < 256 by omega)]
  unfold pairLayer
  have e1 : (2 * len * b + len + j) % (2 * len) = len + j := by rw [Nat.add_assoc, Nat.mul_add_mod, Nat.mod_eq_of_lt (by omega)]
  have e2 : (2 * len * b + len + j) / (2 * len) = b := by rw [Nat.add_assoc, Nat.mul_add_div hpos, Nat.div_eq_of_lt (by omega)]; rfl
  simp only [e1, e2, show ¬ len + j < len by omega, if_false]
  rw [rd_lt oob _ (2 * len * b + len + j) (by omega), show 2 * len * b + len + j - len = 2 * len * b + j by omega]

/-- Extensionality over the pairs of a layer. -/
theorem pair_ext (hlen : IsLen len) (X Y : Fin 256 → α)
    (h : ∀ b j, b < 128 / len → j < len → rd oob X (2 * len * b + j) = rd oob Y (2 * len * b + j) ∧
      rd oob X (2 * len * b + len + j) = rd oob Y (2 * len * b + len + j)) : X = Y := by
  funext i
  have hpos : 0 < 2 * len := by have := isLen_pos hlen; omega
  have hb : i.1 / (2 * len) < 128 / len := by
    have := i.2
    simp only [IsLen, List.mem_cons, List.not_mem_nil, or_false] at hlen
    rcases hlen with h | h | h | h | h | h | h | h <;> subst h <;> omega
  have hdm := Nat.div_add_mod i.1 (2 * len)
  have hml := Nat.mod_lt i.1 hpos
  have hx : ∀ W : Fin 256 → α, W i = rd oob W i.1 := fun W => by rw [rd_lt oob W i.1 i.2]
  rw [hx X, hx Y]
  by_cases hr : i.1 % (2 * len) < len
  · have := (h _ _ hb hr).1
    rwa [hdm] at this
  · have := (h _ (i.1 % (2 * len) - len) hb (by omega)).2
    rwa [show 2 * len * (i.1 / (2 * len)) + len + (i.1 % (2 * len) - len) = i.1 by omega] at this
end

theorem rd_smul (c : F) (A : Fin 256 → F) (n : Nat) : rd 0 (c • A) n = c * rd 0 A n := by
  unfold rd; split <;> simp

theorem isLen_m {len : Nat} (hlen : IsLen len) : 128 / len ∈ [1, 2, 4, 8, 16, 32, 64, 128] := by
  simp only [IsLen, List.mem_cons, List.not_mem_nil, or_false] at hlen
  rcases hlen with h | h | h | h | h | h | h | h <;> subst h <;> decide

theorem isLen_256 {len : Nat} (hlen : IsLen len) : 256 / len = 2 * (128 / len) ∧ 256 / (2 * len) = 128 / len := by
  simp only [IsLen, List.mem_cons, List.not_mem_nil, or_false] at hlen
  rcases hlen with h | h | h | h | h | h | h | h <;> subst h <;> decide

/-- Each inverse layer undoes the matching forward layer, up to a factor 2. -/
theorem bwd_fwd (len : Nat) (hlen : IsLen len) (c : F) (A : Fin 256 → F) : bwd len (c • fwd len A) = (2 * c) • A := by
  apply pair_ext 0 len hlen
  intro b j hb hj
  unfold bwd
  rw [pairLayer_lo _ _ _ _ _ _ hlen hb hj, pairLayer_hi _ _ _ _ _ _ hlen hb hj]
  simp only [rd_smul, fIbf]
  unfold fwd
  rw [pairLayer_lo _ _ _ _ _ _ hlen hb hj, pairLayer_hi _ _ _ _ _ _ hlen hb hj]
  simp only [fBf]
  have hz := Z_inv _ (isLen_m hlen) b hb
  rw [(isLen_256 hlen).1]
  constructor
  · ring
  · linear_combination 2 * c * rd 0 A (2 * len * b + len + j) * hz

/-- The polynomial's value at `x` survives in the remainder modulo each factor having `x` as a root. -/
def Inv (a : Fin 256 → F) (s : Nat) (A : Fin 256 → F) : Prop :=
  ∀ b < 256 / s, ∀ x : F, x ^ s = rho (256 / s + b) → ∑ j ∈ range s, rd 0 A (s * b + j) * x ^ j = evalAt x a

theorem inv_init (a : Fin 256 → F) : Inv a 256 a := by
  intro b hb x _
  have : b = 0 := by omega
  subst this
  unfold evalAt
  rw [Finset.sum_range]
  refine Finset.sum_congr rfl fun i _ => ?_
  rw [rd_lt 0 a _ (by omega : 256 * 0 + i.1 < 256)]
  simp

theorem inv_step (a : Fin 256 → F) (len : Nat) (hlen : IsLen len) (A : Fin 256 → F) (h : Inv a (2 * len) A) : Inv a len (fwd len A) := by
  intro b' hb' x hx
  obtain ⟨h1, h2⟩ := isLen_256 hlen
  rw [h1] at hb' hx
  have hb : b' / 2 < 128 / len := by omega
  have hn : 128 / len + b' / 2 < 256 ∧ 128 / len + b' / 2 ≠ 0 := by
    have := isLen_m hlen
    simp only [List.mem_cons, List.not_mem_nil, or_false] at this
    omega
  have hn1 : 2 * (128 / len) + b' ≠ 1 := by omega
  have hsq := Z_sq _ hn.1 hn.2
  have hI := h (b' / 2) (by rw [h2]; exact hb) x
  rw [h2] at hI
  have hdiv : (2 * (128 / len) + b') / 2 = 128 / len + b' / 2 := by omega
  unfold rho at hx
  rw [if_neg hn1, hdiv] at hx
  have hx2 : x ^ (2 * len) = rho (128 / len + b' / 2) := by
    rw [Nat.mul_comm, pow_mul, hx, ← hsq]
    split <;> ring
  rw [← hI hx2, show 2 * len = len + len by omega, Finset.sum_range_add, ← Finset.sum_add_distrib]
  refine Finset.sum_congr rfl fun j hj => ?_
  rw [Finset.mem_range] at hj
  unfold fwd
  rcases Nat.mod_two_eq_zero_or_one b' with hm | hm
  · rw [show len * b' + j = 2 * len * (b' / 2) + j by
      have : len * b' = len * (2 * (b' / 2)) := by congr 1; omega
      rw [this]; ring]
    rw [pairLayer_lo _ _ _ _ _ _ hlen hb hj]
    rw [if_pos (by omega)] at hx
    simp only [fBf]
    rw [pow_add, hx, ← Nat.two_mul, Nat.add_assoc]
    ring
  · rw [show len * b' + j = 2 * len * (b' / 2) + len + j by
      have : len * b' = len * (2 * (b' / 2) + 1) := by congr 1; omega
      rw [this]; ring]
    rw [pairLayer_hi _ _ _ _ _ _ hlen hb hj]
    rw [if_neg (by omega)] at hx
    simp only [fBf]
    rw [pow_add, hx, ← Nat.two_mul, Nat.add_assoc]
    ring

/-- The forward transform modulo `q`. -/
def fNtt (a : Fin 256 → F) : Fin 256 → F := fwd 1 (fwd 2 (fwd 4 (fwd 8 (fwd 16 (fwd 32 (fwd 64 (fwd 128 a)))))))
/-- The inverse layers modulo `q`. -/
def fInv (a : Fin 256 → F) : Fin 256 → F := bwd 128 (bwd 64 (bwd 32 (bwd 16 (bwd 8 (bwd 4 (bwd 2 (bwd 1 a)))))))

theorem fNtt_eval (a : Fin 256 → F) (i : Fin 256) : fNtt a i = evalAt (rho (256 + i.1)) a := by
  have h : Inv a 1 (fNtt a) := by
    unfold fNtt
    refine inv_step a 1 (by decide) _ (inv_step a 2 (by decide) _ (inv_step a 4 (by decide) _ (inv_step a 8 (by decide) _ (inv_step a 16 (by decide) _
      (inv_step a 32 (by decide) _ (inv_step a 64 (by decide) _ (inv_step a 128 (by decide) _ (inv_init a))))))))
  have := h i.1 (by have := i.2; omega) (rho (256 + i.1)) (by rw [pow_one])
  rw [← this]
  simp only [Finset.sum_range_one, Nat.one_mul, Nat.add_zero, pow_zero, mul_one]
  rw [rd_lt 0 _ _ i.2]

theorem fInv_fNtt (c : F) (a : Fin 256 → F) : fInv (c • fNtt a) = (256 * c) • a := by
  unfold fInv fNtt
  rw [bwd_fwd 1 (by decide), bwd_fwd 2 (by decide), bwd_fwd 4 (by decide), bwd_fwd 8 (by decide), bwd_fwd 16 (by decide), bwd_fwd 32 (by decide),
    bwd_fwd 64 (by decide), bwd_fwd 128 (by decide)]
  congr 1; ring

theorem rho_pow (n : Nat) : 1 ≤ n → ∀ k, 2 ^ k ≤ n → n < 2 ^ (k + 1) → k ≤ 8 → rho n ^ (2 ^ k) = -1 := by
  intro _ k
  induction k generalizing n with
  | zero =>
    intro h1 h2 _
    have : n = 1 := by omega
    subst this
    simp [rho]
  | succ k ih =>
    intro h1 h2 h3
    have hk : 2 ^ (k + 1) ≤ 2 ^ 8 := Nat.pow_le_pow_right (by omega) h3
    rw [pow_succ] at h1 h2
    have hpos : 1 ≤ 2 ^ k := Nat.one_le_two_pow
    have hsq : rho n ^ 2 = rho (n / 2) := by
      rw [← Z_sq (n / 2) (by rw [pow_succ] at hk; omega) (by omega)]
      unfold rho
      rw [if_neg (by omega)]
      split <;> ring
    rw [pow_succ, Nat.mul_comm, pow_mul, hsq]
    exact ih (n / 2) (by omega) (by omega) (by omega) (by omega)

theorem rho_root (i : Fin 256) : rho (256 + i.1) ^ 256 = -1 := by
  have := i.2
  exact rho_pow (256 + i.1) (by omega) 8 (by omega) (by omega) (by omega)

theorem fNtt_mul (a b : Fin 256 → F) : fNtt (negaMul a b) = fun i => fNtt a i * fNtt b i := by
  funext i
  rw [fNtt_eval, fNtt_eval, fNtt_eval, evalAt_negaMul _ (rho_root i)]

theorem fNtt_add (a b : Fin 256 → F) : fNtt (a + b) = fNtt a + fNtt b := by
  funext i
  simp only [Pi.add_apply, fNtt_eval]
  unfold evalAt
  rw [← Finset.sum_add_distrib]
  refine Finset.sum_congr rfl fun i _ => ?_
  simp [add_mul]

theorem fNtt_zero : fNtt 0 = 0 := by
  funext i
  simp [fNtt_eval, evalAt]

/-! ## From C to the field -/

/-- Residues of a coefficient array. -/
def res (a : Poly) : Fin 256 → F := fun i => (a i : F)

/-- All coefficients at most `B` in absolute value. -/
def Bnd (B : Int) (a : Poly) : Prop := ∀ i, -B ≤ a i ∧ a i ≤ B

variable {C : CSem} {oob : Int}

theorem mul_bnd {x y X Y : Int} (hx : -X ≤ x ∧ x ≤ X) (hy : -Y ≤ y ∧ y ≤ Y) : -(X * Y) ≤ x * y ∧ x * y ≤ X * Y := by
  rw [← abs_le] at *
  rw [abs_mul]
  exact mul_le_mul hx hy (abs_nonneg _) (le_trans (abs_nonneg _) hx)

theorem cBf_spec (k : Nat) (hk : k < 256) (B lo hi : Int) (hB : B + Q ≤ 2147483647) (hl : -B ≤ lo ∧ lo ≤ B) (hh : -B ≤ hi ∧ hi ≤ B) :
    (((cBf C oob k lo hi).1 : F) = (fBf k lo hi).1 ∧ ((cBf C oob k lo hi).2 : F) = (fBf k lo hi).2) ∧
    (-(B + Q) ≤ (cBf C oob k lo hi).1 ∧ (cBf C oob k lo hi).1 ≤ B + Q) ∧ (-(B + Q) ≤ (cBf C oob k lo hi).2 ∧ (cBf C oob k lo hi).2 ≤ B + Q) := by
  have hz := zeta_bound_table k hk
  unfold cBf fBf Z
  rw [zeta_eq oob k hk]
  generalize zetas.getD k 0 = z at *
  have hm := mul_bnd hz hh
  simp only [Q] at *
  rw [C.i64_id (z * hi) (by omega) (by omega)]
  have hb := mont_bound (C := C) (z * hi) (by simp only [Q]; omega) (by simp only [Q]; omega)
  have hc := mont_cast (C := C) (z * hi) (by simp only [Q]; omega) (by simp only [Q]; omega)
  generalize montgomeryReduce C (z * hi) = t at *
  simp only [Q] at *
  rw [C.i32_id (lo + t) (by omega) (by omega), C.i32_id (lo - t) (by omega) (by omega)]
  refine ⟨⟨?_, ?_⟩, ⟨by omega, by omega⟩, ⟨by omega, by omega⟩⟩ <;>
  · push_cast at *
    rw [hc]; ring

theorem cIbf_spec (k : Nat) (hk : k < 256) (B lo hi : Int) (hB : 2 * B ≤ 2147483647) (hQ : Q ≤ 2 * B) (hl : -B ≤ lo ∧ lo ≤ B) (hh : -B ≤ hi ∧ hi ≤ B) :
    (((cIbf C oob k lo hi).1 : F) = (fIbf k lo hi).1 ∧ ((cIbf C oob k lo hi).2 : F) = (fIbf k lo hi).2) ∧
    (-(2 * B) ≤ (cIbf C oob k lo hi).1 ∧ (cIbf C oob k lo hi).1 ≤ 2 * B) ∧ (-(2 * B) ≤ (cIbf C oob k lo hi).2 ∧ (cIbf C oob k lo hi).2 ≤ 2 * B) := by
  have hz := zeta_bound_table k hk
  unfold cIbf fIbf Z
  rw [zeta_eq oob k hk]
  generalize zetas.getD k 0 = z at *
  simp only [Q] at *
  rw [C.i32_id (-z) (by omega) (by omega), C.i32_id (lo - hi) (by omega) (by omega), C.i32_id (lo + hi) (by omega) (by omega)]
  have hm := mul_bnd (X := 4108315) (Y := 2 * B) (show -4108315 ≤ -z ∧ -z ≤ 4108315 by omega) (show -(2 * B) ≤ lo - hi ∧ lo - hi ≤ 2 * B by omega)
  rw [C.i64_id (-z * (lo - hi)) (by omega) (by omega)]
  have hb := mont_bound (C := C) (-z * (lo - hi)) (by simp only [Q]; omega) (by simp only [Q]; omega)
  have hc := mont_cast (C := C) (-z * (lo - hi)) (by simp only [Q]; omega) (by simp only [Q]; omega)
  generalize montgomeryReduce C (-z * (lo - hi)) = t at *
  simp only [Q] at *
  refine ⟨⟨?_, ?_⟩, ⟨by omega, by omega⟩, ⟨by omega, by omega⟩⟩
  · push_cast; ring
  · push_cast at *
    rw [hc]; ring

theorem layer_transfer (len : Nat) (hlen : IsLen len) (c : Nat → Int → Int → Int × Int) (f : Nat → F → F → F × F) (B B' : Int) (a : Poly) (ha : Bnd B a)
    (h : ∀ b < 128 / len, ∀ lo hi, (-B ≤ lo ∧ lo ≤ B) → (-B ≤ hi ∧ hi ≤ B) →
      (((c b lo hi).1 : F) = (f b lo hi).1 ∧ ((c b lo hi).2 : F) = (f b lo hi).2) ∧
      (-B' ≤ (c b lo hi).1 ∧ (c b lo hi).1 ≤ B') ∧ (-B' ≤ (c b lo hi).2 ∧ (c b lo hi).2 ≤ B')) :
    res (pairLayer oob len c a) = pairLayer 0 len f (res a) ∧ Bnd B' (pairLayer oob len c a) := by
  have hb : ∀ i : Fin 256, i.1 / (2 * len) < 128 / len := by
    intro i
    have := i.2
    simp only [IsLen, List.mem_cons, List.not_mem_nil, or_false] at hlen
    rcases hlen with h | h | h | h | h | h | h | h <;> subst h <;> omega
  have hp : ∀ i : Fin 256, i.1 % (2 * len) < len → i.1 + len < 256 := by
    intro i
    have := i.2
    simp only [IsLen, List.mem_cons, List.not_mem_nil, or_false] at hlen
    rcases hlen with h | h | h | h | h | h | h | h <;> subst h <;> omega
  have key : ∀ i, ((pairLayer oob len c a i : Int) : F) = pairLayer 0 len f (res a) i ∧ -B' ≤ pairLayer oob len c a i ∧ pairLayer oob len c a i ≤ B' := by
    intro i
    unfold pairLayer
    by_cases hr : i.1 % (2 * len) < len
    · simp only [hr, if_true]
      rw [rd_lt _ _ _ (hp i hr), rd_lt _ _ _ (hp i hr)]
      have := h _ (hb i) (a i) (a ⟨i.1 + len, hp i hr⟩) (ha _) (ha _)
      exact ⟨this.1.1, this.2.1⟩
    · simp only [hr, if_false]
      have hlt : i.1 - len < 256 := by have := i.2; omega
      rw [rd_lt _ _ _ hlt, rd_lt _ _ _ hlt]
      have := h _ (hb i) (a ⟨i.1 - len, hlt⟩) (a i) (ha _) (ha _)
      exact ⟨this.1.2, this.2.2⟩
  exact ⟨funext fun i => (key i).1, fun i => (key i).2⟩

theorem nttLayer_spec (len : Nat) (hlen : IsLen len) (B : Int) (hB : B + Q ≤ 2147483647) (a : Poly) (ha : Bnd B a) :
    ∃ a', nttLayer C oob len (a, 128 / len - 1) = (a', 128 / len + (128 / len - 1)) ∧ res a' = fwd len (res a) ∧ Bnd (B + Q) a' := by
  refine ⟨_, nttLayer_eq C oob len hlen a, ?_⟩
  apply layer_transfer len hlen _ _ B (B + Q) a ha
  intro b hb lo hi hl hh
  refine cBf_spec _ ?_ B lo hi hB hl hh
  have := isLen_m hlen
  simp only [List.mem_cons, List.not_mem_nil, or_false] at this
  omega

theorem invnttLayer_spec (len : Nat) (hlen : IsLen len) (B : Int) (hB : 2 * B ≤ 2147483647) (hQ : Q ≤ 2 * B) (a : Poly) (ha : Bnd B a) :
    ∃ a', invnttLayer C oob len (a, 256 / len) = (a', 256 / (2 * len)) ∧ res a' = bwd len (res a) ∧ Bnd (2 * B) a' := by
  refine ⟨_, invnttLayer_eq C oob len hlen a, ?_⟩
  apply layer_transfer len hlen _ _ B (2 * B) a ha
  intro b hb lo hi hl hh
  refine cIbf_spec _ ?_ B lo hi hB hQ hl hh
  have h1 := (isLen_256 hlen).1
  have := isLen_m hlen
  simp only [List.mem_cons, List.not_mem_nil, or_false] at this
  omega

/-- `ntt`: evaluation, with growth at most `8q`. -/
theorem ntt_spec (a : Poly) (B : Int) (hB : B + 8 * Q ≤ 2147483647) (ha : Bnd B a) : res (ntt C oob a) = fNtt (res a) ∧ Bnd (B + 8 * Q) (ntt C oob a) := by
  simp only [Q] at *
  unfold ntt
  simp only [List.foldl_cons, List.foldl_nil]
  obtain ⟨a1, e1, r1, b1⟩ := nttLayer_spec (C := C) (oob := oob) 128 (by decide) B (by simp only [Q]; omega) a ha
  obtain ⟨a2, e2, r2, b2⟩ := nttLayer_spec (C := C) (oob := oob) 64 (by decide) _ (by simp only [Q]; omega) a1 b1
  obtain ⟨a3, e3, r3, b3⟩ := nttLayer_spec (C := C) (oob := oob) 32 (by decide) _ (by simp only [Q]; omega) a2 b2
  obtain ⟨a4, e4, r4, b4⟩ := nttLayer_spec (C := C) (oob := oob) 16 (by decide) _ (by simp only [Q]; omega) a3 b3
  obtain ⟨a5, e5, r5, b5⟩ := nttLayer_spec (C := C) (oob := oob) 8 (by decide) _ (by simp only [Q]; omega) a4 b4
  obtain ⟨a6, e6, r6, b6⟩ := nttLayer_spec (C := C) (oob := oob) 4 (by decide) _ (by simp only [Q]; omega) a5 b5
  obtain ⟨a7, e7, r7, b7⟩ := nttLayer_spec (C := C) (oob := oob) 2 (by decide) _ (by simp only [Q]; omega) a6 b6
  obtain ⟨a8, e8, r8, b8⟩ := nttLayer_spec (C := C) (oob := oob) 1 (by decide) _ (by simp only [Q]; omega) a7 b7
  norm_num at e1 e2 e3 e4 e5 e6 e7 e8
  rw [e1, e2, e3, e4, e5, e6, e7, e8]
  refine ⟨by rw [r8, r7, r6, r5, r4, r3, r2, r1]; rfl, fun i => ?_⟩
  have := b8 i
  simp only [Q] at this ⊢
  omega

/-- The inverse layers. -/
theorem invLayers_spec (a : Poly) (ha : Bnd Q a) :
    res (invnttTomont C oob a) = (((41978 : Int) : F) * Rinv) • fInv (res a) ∧ Bnd 4211177 (invnttTomont C oob a) := by
  unfold invnttTomont
  simp only [List.foldl_cons, List.foldl_nil]
  obtain ⟨a1, e1, r1, b1⟩ := invnttLayer_spec (C := C) (oob := oob) 1 (by decide) Q (by decide) (by decide) a ha
  obtain ⟨a2, e2, r2, b2⟩ := invnttLayer_spec (C := C) (oob := oob) 2 (by decide) _ (by decide) (by decide) a1 b1
  obtain ⟨a3, e3, r3, b3⟩ := invnttLayer_spec (C := C) (oob := oob) 4 (by decide) _ (by decide) (by decide) a2 b2
  obtain ⟨a4, e4, r4, b4⟩ := invnttLayer_spec (C := C) (oob := oob) 8 (by decide) _ (by decide) (by decide) a3 b3
  obtain ⟨a5, e5, r5, b5⟩ := invnttLayer_spec (C := C) (oob := oob) 16 (by decide) _ (by decide) (by decide) a4 b4
  obtain ⟨a6, e6, r6, b6⟩ := invnttLayer_spec (C := C) (oob := oob) 32 (by decide) _ (by decide) (by decide) a5 b5
  obtain ⟨a7, e7, r7, b7⟩ := invnttLayer_spec (C := C) (oob := oob) 64 (by decide) _ (by decide) (by decide) a6 b6
  obtain ⟨a8, e8, r8, b8⟩ := invnttLayer_spec (C := C) (oob := oob) 128 (by decide) _ (by decide) (by decide) a7 b7
  norm_num at e1 e2 e3 e4 e5 e6 e7 e8
  rw [e1, e2, e3, e4, e5, e6, e7, e8]
  have hb : ∀ i, -(2145386752 : Int) ≤ a8 i ∧ a8 i ≤ 2145386752 := fun i => by
    have := b8 i; simp only [Q] at this; omega
  constructor
  · have hr : res a8 = fInv (res a) := by rw [r8, r7, r6, r5, r4, r3, r2, r1]; rfl
    rw [← hr]
    funext i
    show ((montgomeryReduce C (C.i64 (41978 * a8 i)) : Int) : F) = _
    have := hb i
    rw [C.i64_id _ (by omega) (by omega), mont_cast _ (by simp only [Q]; omega) (by simp only [Q]; omega)]
    show _ = (((41978 : Int) : F) * Rinv) * ((a8 i : Int) : F)
    push_cast; ring
  · intro i
    have := hb i
    show -4211177 ≤ montgomeryReduce C (C.i64 (41978 * a8 i)) ∧ montgomeryReduce C (C.i64 (41978 * a8 i)) ≤ 4211177
    rw [C.i64_id _ (by omega) (by omega)]
    obtain ⟨k, hk, h1, h2⟩ := mont_spec (C := C) (41978 * a8 i) (by simp only [Q]; omega) (by simp only [Q]; omega)
    simp only [Q] at hk
    omega

theorem f_factor : ((41978 : Int) : F) * Rinv * (256 * Rinv) = 1 := by
  have := cast_eq_of_dvd (41978 * 8265825 * (256 * 8265825)) 1 (by decide)
  push_cast at this
  unfold Rinv
  push_cast
  exact this

/-- `invntt_tomont` recovers `p` from `2^-32 * ntt p`, the form pointwise Montgomery products leave behind. -/
theorem invntt_spec (P : Poly) (p : Fin 256 → F) (hP : Bnd Q P) (h : res P = Rinv • fNtt p) :
    res (invnttTomont C oob P) = p ∧ Bnd 4211177 (invnttTomont C oob P) := by
  obtain ⟨h1, h2⟩ := invLayers_spec (C := C) (oob := oob) P hP
  refine ⟨?_, h2⟩
  rw [h1, h, fInv_fNtt, smul_smul, f_factor, one_smul]

end Verif.Dilithium
