import Verif.Neon.NttSpec
import Verif.Avx2.NttInt

/-! # The aarch64 transforms against ntt.c of the clean implementation -/

namespace Verif.Neon

open Verif.Avx2 (W32 VPoly wq ti isLen_fwd isLen_inv toInt_bound32 toInt_add_of toInt_sub_of ofInt_toInt pow_le_128 toI32_id)
open Verif.Dilithium hiding W32 toI32_id

theorem ofInt_sub (a b : Int) : BitVec.ofInt 32 (a - b) = BitVec.ofInt 32 a - BitVec.ofInt 32 b := by
  rw [sub_eq_add_neg, BitVec.ofInt_add, BitVec.ofInt_neg, ← BitVec.sub_eq_add_neg]

theorem q_zero : ((8380417 : Int) : F) = 0 := by
  have := cast_eq_of_dvd 8380417 0 (by decide)
  rw [this, Int.cast_zero]

/-- The product of `x` with a constant: no wrap-around and no saturation. -/
theorem bar_spec (l h x : W32) (hl : -2147483647 ≤ l.toInt) (hd : -8380417 ≤ 2 * (l.toInt * 8380417 - h.toInt * 2147483648))
    (hd' : 2 * (l.toInt * 8380417 - h.toInt * 2147483648) ≤ 8380417) :
    (((bar l h x).toInt : Int) : F) = ((h.toInt : Int) : F) * ((x.toInt : Int) : F) ∧ (-8380417 ≤ (bar l h x).toInt ∧ (bar l h x).toInt ≤ 8380417) := by
  have hx := toInt_bound32 x
  have hlb := toInt_bound32 l
  unfold bar rdmulh
  generalize hX : x.toInt = X at *
  generalize hLL : l.toInt = L at *
  generalize hH : h.toInt = H at *
  dsimp only
  have hXL : -4611686016279904256 ≤ X * L ∧ X * L ≤ 4611686016279904256 := by constructor <;> nlinarith
  have hXD : -(2147483648 * 8380417) ≤ X * (2 * (L * 8380417 - H * 2147483648)) ∧ X * (2 * (L * 8380417 - H * 2147483648)) ≤ 2147483648 * 8380417 := by
    generalize 2 * (L * 8380417 - H * 2147483648) = D at hd hd'
    constructor <;> nlinarith
  generalize hr : (2 * (X * L) + 2147483648) / 4294967296 = r
  have r1 : 4294967296 * r ≤ 2 * (X * L) + 2147483648 := by omega
  have r2 : 2 * (X * L) + 2147483648 < 4294967296 * r + 4294967296 := by omega
  rw [if_neg (by omega), if_neg (by omega)]
  have key : X * H - r * 8380417 ≤ 8380417 ∧ -8380417 ≤ X * H - r * 8380417 := by
    have e : X * (2 * (L * 8380417 - H * 2147483648)) = 8380417 * (2 * (X * L)) - 4294967296 * (X * H) := by ring
    rw [e] at hXD
    generalize X * L = p at *
    generalize X * H = s at *
    omega
  have et : (x * h - BitVec.ofInt 32 r * wq).toInt = X * H - r * 8380417 := by
    have e1 : x * h - BitVec.ofInt 32 r * wq = BitVec.ofInt 32 (X * H - r * 8380417) := by
      rw [ofInt_sub, BitVec.ofInt_mul, BitVec.ofInt_mul, ← hX, ← hH, BitVec.ofInt_toInt, BitVec.ofInt_toInt]
      rfl
    rw [e1, ofInt_toInt, toI32_id _ (by omega) (by omega)]
  rw [et]
  refine ⟨?_, key.2, key.1⟩
  rw [Int.cast_sub, Int.cast_mul, Int.cast_mul, q_zero]
  ring

/-- A layer on words against a layer modulo `q`. -/
theorem layer_res (len : Nat) (hlen : IsLen len) (w : Nat → W32 → W32 → W32 × W32) (f : Nat → F → F → F × F) (B B' : Int) (a : VPoly) (ha : Bnd B (ti a))
    (h : ∀ b < 128 / len, ∀ lo hi : W32, (-B ≤ lo.toInt ∧ lo.toInt ≤ B) → (-B ≤ hi.toInt ∧ hi.toInt ≤ B) →
      ((((w b lo hi).1.toInt : Int) : F) = (f b (lo.toInt : Int) (hi.toInt : Int)).1 ∧ (((w b lo hi).2.toInt : Int) : F) = (f b (lo.toInt : Int) (hi.toInt : Int)).2) ∧
      (-B' ≤ (w b lo hi).1.toInt ∧ (w b lo hi).1.toInt ≤ B') ∧ (-B' ≤ (w b lo hi).2.toInt ∧ (w b lo hi).2.toInt ≤ B')) :
    res (ti (pairLayer 0 len w a)) = pairLayer 0 len f (res (ti a)) ∧ Bnd B' (ti (pairLayer 0 len w a)) := by
  have hb : ∀ i : Fin 256, i.1 / (2 * len) < 128 / len := by
    intro i
    have := i.2
    simp only [IsLen, List.mem_cons, List.not_mem_nil, or_false] at hlen
    rcases hlen with h | h | h | h | h | h | h | h <;> subst h <;> omega
  have hp : ∀ i : Fin 256, i.1 % (2 * len) < len → i.1 + len < 256 := by
    intro i
    have := i.2
    simp only [IsLen, List.mem_cons, List.not_mem_nil, or_false] at hlen
    rcases hlen with h | h | h | h | h | h | h | h <;> subst h <;> omega
  have key : ∀ i, (((pairLayer 0 len w a i).toInt : Int) : F) = pairLayer 0 len f (res (ti a)) i ∧
      -B' ≤ (pairLayer 0 len w a i).toInt ∧ (pairLayer 0 len w a i).toInt ≤ B' := by
    intro i
    unfold pairLayer
    by_cases hr : i.1 % (2 * len) < len
    · simp only [hr, if_true]
      rw [rd_lt _ _ _ (hp i hr), rd_lt _ _ _ (hp i hr)]
      have := h _ (hb i) (a i) (a ⟨i.1 + len, hp i hr⟩) (ha _) (ha _)
      exact ⟨this.1.1, this.2.1⟩
    · simp only [hr, if_false]
      have hlt : i.1 - len < 256 := by have := i.2; omega
      rw [rd_lt _ _ _ hlt, rd_lt _ _ _ hlt]
      have := h _ (hb i) (a ⟨i.1 - len, hlt⟩) (a i) (ha _) (ha _)
      exact ⟨this.1.2, this.2.2⟩
  exact ⟨funext fun i => (key i).1, fun i => (key i).2⟩

/-! ## Tables -/

theorem twF_table : ∀ k < 256, k ≠ 0 → -2147483647 ≤ (twF.l k).toInt ∧ -8380417 ≤ 2 * ((twF.l k).toInt * 8380417 - (twF.h k).toInt * 2147483648) ∧
    2 * ((twF.l k).toInt * 8380417 - (twF.h k).toInt * 2147483648) ≤ 8380417 ∧ ((twF.h k).toInt - zetas.getD k 0 * 8265825) % 8380417 = 0 := by decide +kernel

theorem twI_table : ∀ k < 256, k ≠ 0 → -2147483647 ≤ (twI.l k).toInt ∧ -8380417 ≤ 2 * ((twI.l k).toInt * 8380417 - (twI.h k).toInt * 2147483648) ∧
    2 * ((twI.l k).toInt * 8380417 - (twI.h k).toInt * 2147483648) ≤ 8380417 ∧ ((twI.h k).toInt + zetas.getD k 0 * 8265825) % 8380417 = 0 := by decide +kernel

theorem barF (k : Nat) (hk : k < 256) (h0 : k ≠ 0) (x : W32) : (((bar (twF.l k) (twF.h k) x).toInt : Int) : F) = Z k * ((x.toInt : Int) : F) ∧
    (-8380417 ≤ (bar (twF.l k) (twF.h k) x).toInt ∧ (bar (twF.l k) (twF.h k) x).toInt ≤ 8380417) := by
  obtain ⟨t1, t2, t3, t4⟩ := twF_table k hk h0
  obtain ⟨r, b⟩ := bar_spec _ _ x t1 t2 t3
  refine ⟨?_, b⟩
  rw [r, cast_eq_of_dvd _ _ (Int.dvd_of_emod_eq_zero t4), Int.cast_mul]
  rfl

theorem barI (k : Nat) (hk : k < 256) (h0 : k ≠ 0) (x : W32) : (((bar (twI.l k) (twI.h k) x).toInt : Int) : F) = -Z k * ((x.toInt : Int) : F) ∧
    (-8380417 ≤ (bar (twI.l k) (twI.h k) x).toInt ∧ (bar (twI.l k) (twI.h k) x).toInt ≤ 8380417) := by
  obtain ⟨t1, t2, t3, t4⟩ := twI_table k hk h0
  obtain ⟨r, b⟩ := bar_spec _ _ x t1 t2 t3
  refine ⟨?_, b⟩
  have := cast_eq_of_dvd (twI.h k).toInt (-(zetas.getD k 0 * 8265825)) (Int.dvd_of_emod_eq_zero (by rw [sub_neg_eq_add]; exact t4))
  rw [r, this, Int.cast_neg, Int.cast_mul]
  rfl

/-! ## Forward -/

theorem fwd_pair (k : Nat) (hk : k < 256) (h0 : k ≠ 0) (B : Int) (hB : B + 8380417 ≤ 2147483647) (lo hi : W32) (hlo : -B ≤ lo.toInt ∧ lo.toInt ≤ B) :
    ((((lo + bar (twF.l k) (twF.h k) hi).toInt : Int) : F) = (fBf k (lo.toInt : Int) (hi.toInt : Int)).1 ∧
      (((lo - bar (twF.l k) (twF.h k) hi).toInt : Int) : F) = (fBf k (lo.toInt : Int) (hi.toInt : Int)).2) ∧
    (-(B + 8380417) ≤ (lo + bar (twF.l k) (twF.h k) hi).toInt ∧ (lo + bar (twF.l k) (twF.h k) hi).toInt ≤ B + 8380417) ∧
    (-(B + 8380417) ≤ (lo - bar (twF.l k) (twF.h k) hi).toInt ∧ (lo - bar (twF.l k) (twF.h k) hi).toInt ≤ B + 8380417) := by
  obtain ⟨r, c⟩ := barF k hk h0 hi
  generalize bar (twF.l k) (twF.h k) hi = t at *
  have ea := toInt_add_of lo t (by omega) (by omega)
  have es := toInt_sub_of lo t (by omega) (by omega)
  rw [ea, es]
  refine ⟨⟨?_, ?_⟩, by omega, by omega⟩
  · rw [Int.cast_add, r]; unfold fBf; rfl
  · rw [Int.cast_sub, r]; unfold fBf; rfl

theorem wLayer_res (L : Nat) (hL : L < 8) (B : Int) (hB : B + Q ≤ 2147483647) (a : VPoly) (ha : Bnd B (ti a)) :
    res (ti (wLayer L a)) = fwd (128 / 2 ^ L) (res (ti a)) ∧ Bnd (B + Q) (ti (wLayer L a)) := by
  have hlen := isLen_fwd L hL
  have e2 : 128 / (128 / 2 ^ L) = 2 ^ L := by interval_cases L <;> rfl
  unfold wLayer fwd
  refine layer_res _ hlen _ _ B _ a ha ?_
  rw [e2]
  intro b hb lo hi hlo hhi
  have hk : 2 ^ L + b < 256 := by have := pow_le_128 L hL; omega
  have h0 : 2 ^ L + b ≠ 0 := by have := pow_le_128 L hL; omega
  exact fwd_pair _ hk h0 B hB lo hi hlo

/-- **The forward transform is the number-theoretic transform**, whatever the rest of the machine. -/
theorem nttN_res (M : Mach) (a : VPoly) (B : Int) (hB : B + 8 * Q ≤ 2147483647) (ha : Bnd B (ti a)) :
    res (ti (nttN M a)) = fNtt (res (ti a)) ∧ Bnd (B + 8 * Q) (ti (nttN M a)) := by
  rw [nttN_eq]
  simp only [Q] at hB
  obtain ⟨r1, b1⟩ := wLayer_res 0 (by omega) B (by simp only [Q]; omega) a ha
  obtain ⟨r2, b2⟩ := wLayer_res 1 (by omega) _ (by simp only [Q]; omega) _ b1
  obtain ⟨r3, b3⟩ := wLayer_res 2 (by omega) _ (by simp only [Q]; omega) _ b2
  obtain ⟨r4, b4⟩ := wLayer_res 3 (by omega) _ (by simp only [Q]; omega) _ b3
  obtain ⟨r5, b5⟩ := wLayer_res 4 (by omega) _ (by simp only [Q]; omega) _ b4
  obtain ⟨r6, b6⟩ := wLayer_res 5 (by omega) _ (by simp only [Q]; omega) _ b5
  obtain ⟨r7, b7⟩ := wLayer_res 6 (by omega) _ (by simp only [Q]; omega) _ b6
  obtain ⟨r8, b8⟩ := wLayer_res 7 (by omega) _ (by simp only [Q]; omega) _ b7
  have w8 : wF 4 4 (wF 0 4 a) = wLayer 7 (wLayer 6 (wLayer 5 (wLayer 4 (wLayer 3 (wLayer 2 (wLayer 1 (wLayer 0 a))))))) := by simp only [wF]
  rw [w8]
  refine ⟨?_, fun i => ?_⟩
  · rw [r8, r7, r6, r5, r4, r3, r2, r1]; rfl
  · have := b8 i; simp only [Q] at this ⊢; omega

/-! ## Inverse -/

theorem inv_pair (k : Nat) (hk : k < 256) (h0 : k ≠ 0) (B : Int) (hB : 2 * B ≤ 2147483647) (hQ : 8380417 ≤ 2 * B) (lo hi : W32) (hlo : -B ≤ lo.toInt ∧ lo.toInt ≤ B)
    (hhi : -B ≤ hi.toInt ∧ hi.toInt ≤ B) :
    ((((lo + hi).toInt : Int) : F) = (fIbf k (lo.toInt : Int) (hi.toInt : Int)).1 ∧
      (((bar (twI.l k) (twI.h k) (lo - hi)).toInt : Int) : F) = (fIbf k (lo.toInt : Int) (hi.toInt : Int)).2) ∧
    (-(2 * B) ≤ (lo + hi).toInt ∧ (lo + hi).toInt ≤ 2 * B) ∧
    (-(2 * B) ≤ (bar (twI.l k) (twI.h k) (lo - hi)).toInt ∧ (bar (twI.l k) (twI.h k) (lo - hi)).toInt ≤ 2 * B) := by
  obtain ⟨r, c⟩ := barI k hk h0 (lo - hi)
  generalize bar (twI.l k) (twI.h k) (lo - hi) = t at *
  have ea := toInt_add_of lo hi (by omega) (by omega)
  have es := toInt_sub_of lo hi (by omega) (by omega)
  rw [ea]
  refine ⟨⟨?_, ?_⟩, by omega, by omega⟩
  · rw [Int.cast_add]; unfold fIbf; rfl
  · rw [r, es, Int.cast_sub]; unfold fIbf; rfl

theorem wInvLayer_res (L : Nat) (hL : L < 8) (B : Int) (hB : 2 * B ≤ 2147483647) (hQ : Q ≤ 2 * B) (a : VPoly) (ha : Bnd B (ti a)) :
    res (ti (wInvLayer L a)) = bwd (2 ^ L) (res (ti a)) ∧ Bnd (2 * B) (ti (wInvLayer L a)) := by
  have hlen := isLen_inv L (by omega)
  unfold wInvLayer bwd
  refine layer_res _ hlen _ _ B _ a ha ?_
  intro b hb lo hi hlo hhi
  have hb' : 256 / 2 ^ L - 1 - b < 256 ∧ 256 / 2 ^ L - 1 - b ≠ 0 := by
    clear hlo hhi ha hlen hB hQ
    interval_cases L <;> norm_num at * <;> omega
  exact inv_pair _ hb'.1 hb'.2 B hB hQ lo hi hlo hhi

/-- Where only half of the coefficients grow: after layer `L`, the differences are at most `q`. -/
theorem wInvLayer_hi (L : Nat) (hL : L < 8) (a : VPoly) (i : Fin 256) (hi : ¬ i.1 % (2 * 2 ^ L) < 2 ^ L) :
    -8380417 ≤ (wInvLayer L a i).toInt ∧ (wInvLayer L a i).toInt ≤ 8380417 := by
  unfold wInvLayer pairLayer
  rw [if_neg hi]
  have := i.2
  have hb' : 256 / 2 ^ L - 1 - i.1 / (2 * 2 ^ L) < 256 ∧ 256 / 2 ^ L - 1 - i.1 / (2 * 2 ^ L) ≠ 0 := by
    interval_cases L <;> norm_num at * <;> omega
  exact (barI _ hb'.1 hb'.2 _).2

theorem srs23 (x : W32) : (srs 23 x).toInt = (x.toInt + 4194304) / 8388608 := by
  have := toInt_bound32 x
  have e : srs 23 x = BitVec.ofInt 32 ((x.toInt + 4194304) / 8388608) := rfl
  rw [e, ofInt_toInt, toI32_id _ (by omega) (by omega)]

theorem red_word (x : W32) : (x - srs 23 x * wq).toInt = x.toInt - (x.toInt + 4194304) / 8388608 * 8380417 := by
  have := toInt_bound32 x
  have h := srs23 x
  have e1 : x - srs 23 x * wq = BitVec.ofInt 32 (x.toInt - (srs 23 x).toInt * 8380417) := by
    rw [ofInt_sub, BitVec.ofInt_mul, BitVec.ofInt_toInt, BitVec.ofInt_toInt]
    rfl
  rw [e1, h, ofInt_toInt, toI32_id _ (by omega) (by omega)]

theorem wRed_res (a : VPoly) (h : ∀ i : Fin 256, ¬ i.1 % 16 < 8 → -8380417 ≤ (a i).toInt ∧ (a i).toInt ≤ 8380417) :
    res (ti (wRed a)) = res (ti a) ∧ Bnd Q (ti (wRed a)) := by
  have key : ∀ i, (((wRed a i).toInt : Int) : F) = (((a i).toInt : Int) : F) ∧ -8380417 ≤ (wRed a i).toInt ∧ (wRed a i).toInt ≤ 8380417 := fun i => by
    unfold wRed
    split
    · have := toInt_bound32 (a i)
      rw [red_word]
      refine ⟨?_, by omega, by omega⟩
      rw [Int.cast_sub, Int.cast_mul, q_zero, mul_zero, sub_zero]
    · rename_i c
      exact ⟨rfl, h i c⟩
  exact ⟨funext fun i => (key i).1, fun i => (key i).2⟩

theorem cl_table : -2147483647 ≤ (cl 4).toInt ∧ -8380417 ≤ 2 * ((cl 4).toInt * 8380417 - (cl 5).toInt * 2147483648) ∧
    2 * ((cl 4).toInt * 8380417 - (cl 5).toInt * 2147483648) ≤ 8380417 ∧ ((cl 5).toInt - 41978 * 8265825) % 8380417 = 0 ∧
    -2147483647 ≤ (cl 6).toInt ∧ -8380417 ≤ 2 * ((cl 6).toInt * 8380417 - (cl 7).toInt * 2147483648) ∧
    2 * ((cl 6).toInt * 8380417 - (cl 7).toInt * 2147483648) ≤ 8380417 ∧ ((cl 7).toInt + zetas.getD 1 0 * 8265825 * (41978 * 8265825)) % 8380417 = 0 := by decide +kernel

theorem wFin_res (a : VPoly) (B : Int) (hB : 2 * B ≤ 2147483647) (ha : Bnd B (ti a)) :
    res (ti (wFin a)) = (((41978 : Int) : F) * Rinv) • bwd 128 (res (ti a)) ∧ Bnd Q (ti (wFin a)) := by
  obtain ⟨t1, t2, t3, t4, t5, t6, t7, t8⟩ := cl_table
  have e : (((41978 : Int) : F) * Rinv) • bwd 128 (res (ti a)) =
      pairLayer 0 128 (fun _ lo hi => (((41978 : Int) : F) * Rinv * (lo + hi), ((41978 : Int) : F) * Rinv * (-Z 1 * (lo - hi)))) (res (ti a)) := by
    funext i
    unfold bwd pairLayer fIbf
    have := i.2
    simp only [Pi.smul_apply, smul_eq_mul]
    by_cases c : i.1 % (2 * 128) < 128
    · rw [if_pos c, if_pos c]
    · rw [if_neg c, if_neg c, show 256 / 128 - 1 - i.1 / (2 * 128) = 1 by omega]
  rw [e]
  unfold wFin
  refine layer_res 128 (by decide) _ _ B _ a ha ?_
  intro b _ lo hi hlo hhi
  have ea := toInt_add_of lo hi (by omega) (by omega)
  have es := toInt_sub_of lo hi (by omega) (by omega)
  obtain ⟨r1, b1⟩ := bar_spec (cl 4) (cl 5) (lo + hi) t1 t2 t3
  obtain ⟨r2, b2⟩ := bar_spec (cl 6) (cl 7) (lo - hi) t5 t6 t7
  simp only [Q]
  refine ⟨⟨?_, ?_⟩, b1, b2⟩
  · rw [r1, ea, Int.cast_add, cast_eq_of_dvd _ _ (Int.dvd_of_emod_eq_zero t4), Int.cast_mul]; rfl
  · have := cast_eq_of_dvd (cl 7).toInt (-(zetas.getD 1 0 * 8265825 * (41978 * 8265825))) (Int.dvd_of_emod_eq_zero (by rw [sub_neg_eq_add]; exact t8))
    rw [r2, es, Int.cast_sub, this]
    unfold Z Rinv
    push_cast
    ring

theorem can_spec (x : W32) (h : -8380417 ≤ x.toInt ∧ x.toInt ≤ 8380417) :
    (((can x).toInt : Int) : F) = ((x.toInt : Int) : F) ∧ (-4190209 ≤ (can x).toInt ∧ (can x).toInt ≤ 4190209) := by
  have e1 : (wq >>> 1).toInt = 4190208 := by decide
  have e2 : (-(wq >>> 1)).toInt = -4190208 := by decide
  have em : (BitVec.allOnes 32 - 0) * wq = BitVec.ofInt 32 (-8380417) := by decide
  have ep : ((0 : W32) - BitVec.allOnes 32) * wq = BitVec.ofInt 32 8380417 := by decide
  have e0 : ((0 : W32) - 0) * wq = BitVec.ofInt 32 0 := by decide
  have key : ∀ n : Int, x + BitVec.ofInt 32 n = BitVec.ofInt 32 (x.toInt + n) := fun n => by rw [BitVec.ofInt_add, BitVec.ofInt_toInt]
  unfold can cge
  rw [e1, e2]
  by_cases c1 : 4190208 ≤ x.toInt
  · rw [if_pos c1, if_neg (by omega), em, key, ofInt_toInt, toI32_id _ (by omega) (by omega)]
    refine ⟨?_, by omega, by omega⟩
    rw [Int.cast_add, Int.cast_neg, q_zero]; ring
  · rw [if_neg c1]
    by_cases c2 : x.toInt ≤ -4190208
    · rw [if_pos c2, ep, key, ofInt_toInt, toI32_id _ (by omega) (by omega)]
      refine ⟨?_, by omega, by omega⟩
      rw [Int.cast_add, q_zero, add_zero]
    · rw [if_neg c2, e0, key, ofInt_toInt, toI32_id _ (by omega) (by omega)]
      refine ⟨?_, by omega, by omega⟩
      rw [Int.cast_add]; simp

/-- **The inverse transform is the scaled inverse number-theoretic transform**, and its results are at most `(q+1)/2`. -/
theorem invnttN_res (M : Mach) (a : VPoly) (ha : Bnd Q (ti a)) :
    res (ti (invnttN M a)) = (((41978 : Int) : F) * Rinv) • fInv (res (ti a)) ∧ Bnd 4190209 (ti (invnttN M a)) := by
  rw [invnttN_eq]
  obtain ⟨r1, b1⟩ := wInvLayer_res 0 (by omega) Q (by decide) (by decide) a ha
  obtain ⟨r2, b2⟩ := wInvLayer_res 1 (by omega) _ (by decide) (by decide) _ b1
  obtain ⟨r3, b3⟩ := wInvLayer_res 2 (by omega) _ (by decide) (by decide) _ b2
  obtain ⟨r4, b4⟩ := wInvLayer_res 3 (by omega) _ (by decide) (by decide) _ b3
  have w4 : wI 0 4 a = wInvLayer 3 (wInvLayer 2 (wInvLayer 1 (wInvLayer 0 a))) := by simp only [wI]
  obtain ⟨rr, br⟩ := wRed_res (wI 0 4 a) (fun i hi => by rw [w4]; exact wInvLayer_hi 3 (by omega) _ i (by norm_num; omega))
  obtain ⟨r5, b5⟩ := wInvLayer_res 4 (by omega) Q (by decide) (by decide) _ br
  obtain ⟨r6, b6⟩ := wInvLayer_res 5 (by omega) _ (by decide) (by decide) _ b5
  obtain ⟨r7, b7⟩ := wInvLayer_res 6 (by omega) _ (by decide) (by decide) _ b6
  have w7 : wI 4 3 (wRed (wI 0 4 a)) = wInvLayer 6 (wInvLayer 5 (wInvLayer 4 (wRed (wI 0 4 a)))) := by simp only [wI]
  obtain ⟨r8, b8⟩ := wFin_res _ _ (by decide) b7
  rw [w7]
  have key := fun i => can_spec (wFin (wInvLayer 6 (wInvLayer 5 (wInvLayer 4 (wRed (wI 0 4 a))))) i) (b8 i)
  refine ⟨?_, fun i => (key i).2⟩
  rw [show res (ti fun i => can (wFin (wInvLayer 6 (wInvLayer 5 (wInvLayer 4 (wRed (wI 0 4 a))))) i)) = res (ti (wFin (wInvLayer 6 (wInvLayer 5 (wInvLayer 4 (wRed (wI 0 4 a)))))))
    from funext fun i => (key i).1]
  rw [r8, r7, r6, r5, rr, w4, r4, r3, r2, r1]
  rfl

/-- As the clean code, modulo `q`. -/
theorem invnttN_clean (C : CSem) (oob : Int) (M : Mach) (a : VPoly) (ha : Bnd Q (ti a)) : res (ti (invnttN M a)) = res (invnttTomont C oob (ti a)) := by
  rw [(invnttN_res M a ha).1, (invLayers_spec (C := C) (oob := oob) (ti a) ha).1]

end Verif.Neon
