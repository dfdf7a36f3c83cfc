import Verif.Saber.NormLemmas
import Verif.Saber.BitSpec
import Verif.Props.Keccak
import Verif.Keccak.Eval
import Mathlib.Data.ZMod.Basic

/-!
# Evaluating Saber in the kernel

Products of `Z[X]/(X^256+1)` by Kronecker substitution: a polynomial is evaluated at `B = 2^32`, where `B^256 = -1` modulo `B^256 + 1`, so one multiplication
of numbers gives the product of two polynomials; coefficients are recovered as digits.  Streams of SHAKE128 are numbers (`Keccak.Eval.spongeN`).
Nothing here is trusted: the theorems say that the values are those of the specification.
-/

namespace Verif.Saber.Eval

open Finset

/-- The value at `2^32` of the first `n` coefficients. -/
def ev (f : Nat → ℤ) : Nat → ℤ
  | 0 => 0
  | k + 1 => ev f k + f k * ((2 ^ (32 * k) : Nat) : ℤ)

theorem ev_eq (f : Nat → ℤ) (n : Nat) : ev f n = ∑ i : Fin n, f i.1 * (2 ^ 32) ^ i.1 := by
  induction n with
  | zero => rfl
  | succ n ih =>
    rw [Fin.sum_univ_castSucc, ev, ih, pow_mul, Nat.cast_pow, Nat.cast_pow, Nat.cast_ofNat]
    rfl

theorem ev_bounds (y : Nat → ℤ) (h : ∀ i, 0 ≤ y i ∧ y i < 2 ^ 32) (n : Nat) : 0 ≤ ev y n ∧ ev y n < (2 ^ 32) ^ n := by
  induction n with
  | zero => exact ⟨le_refl _, by norm_num [ev]⟩
  | succ n ih =>
    rw [ev, pow_succ]
    have e : ((2 ^ (32 * n) : Nat) : ℤ) = (2 ^ 32) ^ n := by rw [pow_mul]; push_cast; rfl
    rw [e]
    have hp : (0 : ℤ) < (2 ^ 32) ^ n := by positivity
    obtain ⟨h0, h1⟩ := h n
    constructor
    · have := mul_nonneg h0 hp.le
      omega
    · nlinarith [mul_le_mul_of_nonneg_right (show y n ≤ 2 ^ 32 - 1 by omega) hp.le]

theorem ev_digit (y : Nat → ℤ) (h : ∀ i, 0 ≤ y i ∧ y i < 2 ^ 32) (n k : Nat) (hk : k < n) : ev y n / (2 ^ 32) ^ k % 2 ^ 32 = y k := by
  induction n with
  | zero => omega
  | succ n ih =>
    rw [ev]
    have e : ((2 ^ (32 * n) : Nat) : ℤ) = (2 ^ 32) ^ n := by rw [pow_mul]; push_cast; rfl
    rw [e]
    have hp : (0 : ℤ) < (2 ^ 32) ^ k := by positivity
    rcases Nat.lt_succ_iff_lt_or_eq.1 hk with hlt | rfl
    · obtain ⟨d, rfl⟩ : ∃ d, n = k + 1 + d := ⟨n - k - 1, by omega⟩
      have e2 : y (k + 1 + d) * (2 ^ 32 : ℤ) ^ (k + 1 + d) = (2 ^ 32) ^ k * (2 ^ 32 * (y (k + 1 + d) * (2 ^ 32) ^ d)) := by ring
      rw [e2, Int.add_mul_ediv_left _ _ hp.ne', Int.add_mul_emod_self_left]
      exact ih hlt
    · obtain ⟨b0, b1⟩ := ev_bounds y h k
      rw [Int.add_mul_ediv_right _ _ hp.ne', Int.ediv_eq_zero_of_lt b0 b1, zero_add, Int.emod_eq_of_lt (h k).1 (h k).2]

/-- Digit `k` of a number in base `2^32`, with offset `2^31`. -/
def dg (V : Nat) (k : Nat) : ℤ := ((V >>> (32 * k) % 2 ^ 32 : Nat) : ℤ) - 2 ^ 31

/-- The coefficients of a polynomial given by a function on numbers. -/
def pf (f : Nat → ℤ) : Fin 256 → ℤ := fun i => f i.1

/-- `(2^32)^256`. -/
def Q : Nat := Nat.pow 2 8192

theorem Q_eq : (Q : ℤ) = (2 ^ 32) ^ 256 := by
  unfold Q
  rw [← pow_mul, show Nat.pow 2 8192 = 2 ^ (32 * 256) from rfl, Nat.cast_pow, Nat.cast_ofNat]

/-- A polynomial with small coefficients is determined by its value modulo `2^8192 + 1`. -/
theorem digits_of (c : Fin 256 → ℤ) (hc : ∀ i, |c i| < 2 ^ 31) (V : Nat) (hV : V < Q)
    (h : ((∑ i : Fin 256, c i * (2 ^ 32) ^ i.1 + ev (fun _ => 2 ^ 31) 256 - V) % (Q + 1)) = 0) : c = pf (dg V) := by
  set y : Nat → ℤ := fun i => if hi : i < 256 then c ⟨i, hi⟩ + 2 ^ 31 else 0 with hy
  have hyb : ∀ i, 0 ≤ y i ∧ y i < 2 ^ 32 := fun i => by
    rw [hy]; dsimp only
    split
    · have := abs_lt.1 (hc ⟨i, by assumption⟩)
      omega
    · omega
  have hyi : ∀ i : Fin 256, y i.1 = c i + 2 ^ 31 := fun i => by rw [hy]; exact dif_pos i.2
  have hsum : ∑ i : Fin 256, c i * (2 ^ 32 : ℤ) ^ i.1 + ev (fun _ => 2 ^ 31) 256 = ev y 256 := by
    rw [ev_eq, ev_eq, ← Finset.sum_add_distrib]
    refine Finset.sum_congr rfl fun i _ => ?_
    rw [hyi]; ring
  rw [hsum] at h
  obtain ⟨b0, b1⟩ := ev_bounds y hyb 256
  rw [← Q_eq] at b1
  have hV' : (V : ℤ) < Q := by exact_mod_cast hV
  have hV0 : (0 : ℤ) ≤ V := Int.natCast_nonneg V
  have hev : ev y 256 = V := by
    generalize (Q : ℤ) = N at *
    generalize ev y 256 = E at *
    obtain ⟨q, hq⟩ := Int.dvd_of_emod_eq_zero h
    have : q = 0 := by
      by_contra hne
      rcases Int.lt_or_gt_of_ne hne with h1 | h1
      · have := mul_le_mul_of_nonneg_left (show q ≤ -1 by omega) (show 0 ≤ N + 1 by omega)
        omega
      · have := mul_le_mul_of_nonneg_left (show 1 ≤ q by omega) (show 0 ≤ N + 1 by omega)
        omega
    rw [this] at hq
    omega
  funext i
  have hd := ev_digit y hyb 256 i.1 i.2
  rw [hev, hyi] at hd
  have : (((V >>> (32 * i.1) % 2 ^ 32 : Nat)) : ℤ) = (V : ℤ) / (2 ^ 32) ^ i.1 % 2 ^ 32 := by
    rw [Nat.shiftRight_eq_div_pow, pow_mul]; push_cast; rfl
  unfold pf dg
  rw [this, hd]; ring

theorem ev_negaMul (x : ℤ) (N : Nat) (hN : (N : ℤ) = x ^ 256 + 1) (a b : Fin 256 → ℤ) :
    (N : ℤ) ∣ ∑ i : Fin 256, negaMul a b i * x ^ i.1 - (∑ i : Fin 256, a i * x ^ i.1) * ∑ i : Fin 256, b i * x ^ i.1 := by
  have hx : ((x : ZMod N) ^ 256) = -1 := by
    rw [eq_neg_iff_add_eq_zero]
    have := ZMod.natCast_self N
    rw [← Int.cast_natCast, hN, Int.cast_add, Int.cast_pow, Int.cast_one] at this
    exact this
  have h := evalAt_negaMul (S := ZMod N) (x : ZMod N) hx a b
  have e : ∀ f : Fin 256 → ℤ, evalAt (x : ZMod N) f = ((∑ i : Fin 256, f i * x ^ i.1 : ℤ) : ZMod N) := fun f => by
    unfold evalAt
    rw [Int.cast_sum]
    refine Finset.sum_congr rfl fun i _ => ?_
    rw [Int.cast_mul, Int.cast_pow]
    rfl
  rw [e, e, e, ← Int.cast_mul, ← sub_eq_zero, ← Int.cast_sub, ZMod.intCast_zmod_eq_zero_iff_dvd] at h
  exact h

/-- Inner products of length 2 from one modular check. -/
theorem inner2 (u v : Fin 2 → Nat → ℤ) (V : Nat) (hV : V < Q) (hb : ∀ i, |inner (fun k => pf (u k)) (fun k => pf (v k)) i| < 2 ^ 31)
    (h : (ev (u 0) 256 * ev (v 0) 256 + ev (u 1) 256 * ev (v 1) 256 + ev (fun _ => 2 ^ 31) 256 - V) % (Q + 1) = 0) :
    inner (fun k => pf (u k)) (fun k => pf (v k)) = pf (dg V) := by
  refine digits_of _ hb V hV ?_
  have e : ∑ i : Fin 256, inner (fun k => pf (u k)) (fun k => pf (v k)) i * (2 ^ 32 : ℤ) ^ i.1
      = ∑ i : Fin 256, negaMul (pf (u 0)) (pf (v 0)) i * (2 ^ 32) ^ i.1 + ∑ i : Fin 256, negaMul (pf (u 1)) (pf (v 1)) i * (2 ^ 32) ^ i.1 := by
    rw [← Finset.sum_add_distrib]
    refine Finset.sum_congr rfl fun i _ => ?_
    have e1 : inner (fun k => pf (u k)) (fun k => pf (v k)) i = negaMul (pf (u 0)) (pf (v 0)) i + negaMul (pf (u 1)) (pf (v 1)) i := by
      unfold inner
      rw [Fin.sum_univ_two, Pi.add_apply]
    rw [← add_mul, e1]
  have hQ : ((Q + 1 : Nat) : ℤ) = (2 ^ 32) ^ 256 + 1 := by rw [Nat.cast_add, Q_eq, Nat.cast_one]
  have h0 := ev_negaMul (2 ^ 32) (Q + 1) hQ (pf (u 0)) (pf (v 0))
  have h1 := ev_negaMul (2 ^ 32) (Q + 1) hQ (pf (u 1)) (pf (v 1))
  rw [Nat.cast_add, Nat.cast_one] at h0 h1
  have h2 := Int.dvd_of_emod_eq_zero h
  rw [ev_eq (u 0), ev_eq (v 0), ev_eq (u 1), ev_eq (v 1)] at h2
  rw [e]
  refine Int.emod_eq_zero_of_dvd ?_
  have := dvd_add (dvd_add h0 h1) h2
  refine this.trans (dvd_of_eq ?_)
  unfold pf
  generalize ev (fun _ => 2 ^ 31) 256 = o
  ring

/-! ## Streams -/

/-- The number of ones among five bits. -/
def pop5 (n : Nat) : Nat := n % 2 + n / 2 % 2 + n / 4 % 2 + n / 8 % 2 + n / 16 % 2

theorem field_num (X w i : Nat) : Spec.field w (fun n => X.testBit n) i = X >>> (w * i) % 2 ^ w := by
  unfold Spec.field
  rw [← Nat.shiftRight_zero (n := X >>> (w * i))]
  generalize hY : X >>> (w * i) = Y
  have : ∀ t, X.testBit (w * i + t) = Y.testBit t := fun t => by rw [← hY, Nat.testBit_shiftRight]
  simp only [this, Nat.shiftRight_zero]
  clear hY this
  induction w with
  | zero => simp [Nat.mod_one]
  | succ w ih =>
    rw [Finset.sum_range_succ, ih, pow_succ, Nat.mod_mul, Nat.testBit_eq_decide_div_mod_eq]
    have := Nat.mod_two_eq_zero_or_one (Y / 2 ^ w)
    rcases this with h | h <;> simp [h]

open private stream_of_bits from Verif.Props.Keccak in
theorem stream_bit (M : Bytes) (N n : Nat) (h : n < 8 * N) :
    streamBit (Props.fipsShake.shake128 M) n = (Keccak.Eval.spongeN 168 0x1F N M).testBit n := by
  have h3 := Keccak.Eval.spongeN_eq Keccak.domain_shake 168 (by omega) (by omega) M N
  have hl := Keccak.Eval.unb_len N (Keccak.Eval.spongeN 168 0x1F N M)
  generalize ho : Keccak.Eval.unb N (Keccak.Eval.spongeN 168 0x1F N M) = out at h3 hl
  have hn : n / 8 < out.length := by omega
  have e := stream_of_bits _ _ out (by rw [hl]; exact h3) (n / 8) hn
  have hb := Keccak.Eval.unb_bits N (Keccak.Eval.spongeN 168 0x1F N M) n h
  rw [ho, Keccak.bitsOf_getD, List.getD_eq_getElem _ _ hn, e] at hb
  rw [← hb]
  rfl

end Verif.Saber.Eval
