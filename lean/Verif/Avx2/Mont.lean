import Verif.Avx2.Simd
import Verif.Dilithium.NttLemmas

/-! # Montgomery products as the AVX2 code computes them -/

namespace Verif.Avx2
open Verif.Dilithium

/-- `hi(z*h) - hi(q*lo(zq*h))`: the butterflies (ntt.S:4-26, invntt.S:4-23). -/
def mm (q zq z h : W32) : W32 := hi32 (smul z h) - hi32 (smul q (lo32 (smul zq h)))

/-- `hi(A - q*lo(qinv*lo A))`: the pointwise products (pointwise.S). -/
def mont64 (q qinv : W32) (A : BitVec 64) : W32 := hi32 (A - smul q (lo32 (smul qinv (lo32 A))))

/-- Eight times `q`, eight times `q^-1 mod 2^32` (consts.c:11-12). -/
def wq : W32 := BitVec.ofInt 32 8380417
def wqinv : W32 := BitVec.ofInt 32 58728449

theorem toInt_bound32 (x : W32) : -2147483648 ≤ x.toInt ∧ x.toInt ≤ 2147483647 := by
  have h1 := BitVec.le_toInt x
  have h2 := BitVec.toInt_lt (x := x)
  norm_num at h1 h2
  omega

theorem mul_bound32 (x y : W32) : -4611686018427387904 ≤ x.toInt * y.toInt ∧ x.toInt * y.toInt ≤ 4611686018427387904 := by
  have h1 := toInt_bound32 x
  have h2 := toInt_bound32 y
  constructor <;> nlinarith

theorem smul_toInt (x y : W32) : (smul x y).toInt = x.toInt * y.toInt := by
  have h := mul_bound32 x y
  unfold smul
  rw [BitVec.toInt_mul, BitVec.toInt_signExtend_of_le (by omega), BitVec.toInt_signExtend_of_le (by omega)]
  rw [Int.bmod_eq_of_le (by norm_num; omega) (by norm_num; omega)]

theorem toI32_add_mul (a b : Int) : toI32 (a + 4294967296 * b) = toI32 a := by
  unfold toI32; rw [Int.add_comm]; exact Int.mul_add_bmod_self_left 4294967296 b a

theorem toI32_congr (a b : Int) (h : (4294967296 : Int) ∣ a - b) : toI32 a = toI32 b := by
  obtain ⟨c, hc⟩ := h
  have : a = b + 4294967296 * c := by omega
  rw [this, toI32_add_mul]

theorem lo32_toInt (x : BitVec 64) : (lo32 x).toInt = toI32 x.toInt := by
  unfold lo32 toI32
  rw [BitVec.toInt_setWidth]
  rw [BitVec.toInt_eq_toNat_bmod]
  norm_num
  rw [Int.bmod_bmod_of_dvd (by norm_num)]

theorem hi32_toInt (x : BitVec 64) : (hi32 x).toInt = toI32 (x.toInt / 4294967296) := by
  unfold hi32 toI32
  rw [BitVec.toInt_eq_toNat_bmod, BitVec.extractLsb'_toNat, BitVec.toInt_eq_toNat_cond]
  have hx := x.isLt
  simp only [Nat.shiftRight_eq_div_pow]
  split
  · norm_num
    refine toI32_congr _ _ ?_
    omega
  · norm_num
    refine toI32_congr _ _ ?_
    omega

theorem toI32_spec (a : Int) : (4294967296 : Int) ∣ toI32 a - a ∧ -2147483648 ≤ toI32 a ∧ toI32 a ≤ 2147483647 := by
  unfold toI32 Int.bmod
  dsimp only
  split <;> omega

theorem toI32_id (a : Int) (h1 : -2147483648 ≤ a) (h2 : a ≤ 2147483647) : toI32 a = a := by
  have := toI32_spec a
  omega

/-- What `montgomery_reduce` computes, without the overflow escape. -/
theorem montgomeryReduce_eq (C : CSem) (a : Int) (h1 : -9000000000000000000 ≤ a) (h2 : a ≤ 9000000000000000000) :
    montgomeryReduce C a = toI32 ((a - toI32 (a * 58728449) * 8380417) / 4294967296) := by
  unfold montgomeryReduce
  have e : toI32 (a * QINV % 18446744073709551616) = toI32 (a * 58728449) := toI32_congr _ _ (by unfold QINV; omega)
  have ht := toI32_spec (a * 58728449)
  simp only [e]
  rw [C.i64_id (toI32 (a * 58728449) * Q) (by unfold Q; omega) (by unfold Q; omega), C.i64_id _ (by unfold Q; omega) (by unfold Q; omega)]

theorem wq_toInt : wq.toInt = 8380417 := by decide
theorem wqinv_toInt : wqinv.toInt = 58728449 := by decide

theorem mont64_toInt (C : CSem) (A : BitVec 64) (h1 : -9000000000000000000 ≤ A.toInt) (h2 : A.toInt ≤ 9000000000000000000) :
    (mont64 wq wqinv A).toInt = montgomeryReduce C A.toInt := by
  rw [montgomeryReduce_eq C _ h1 h2]
  unfold mont64
  have e : (lo32 (smul wqinv (lo32 A))).toInt = toI32 (A.toInt * 58728449) := by
    rw [lo32_toInt, smul_toInt, lo32_toInt, wqinv_toInt]
    have := toI32_spec A.toInt
    exact toI32_congr _ _ (by omega)
  have ht := toI32_spec (A.toInt * 58728449)
  rw [hi32_toInt, BitVec.toInt_sub, smul_toInt, e, wq_toInt]
  rw [Int.bmod_eq_of_le (by norm_num; omega) (by norm_num; omega), Int.mul_comm 8380417]

theorem mm_toInt (C : CSem) (zq z h : W32) (hz : (4294967296 : Int) ∣ zq.toInt - z.toInt * 58728449) :
    (mm wq zq z h).toInt = montgomeryReduce C (z.toInt * h.toInt) := by
  have hb := mul_bound32 z h
  rw [montgomeryReduce_eq C _ (by omega) (by omega)]
  unfold mm
  have e : (lo32 (smul zq h)).toInt = toI32 (z.toInt * h.toInt * 58728449) := by
    rw [lo32_toInt, smul_toInt]
    obtain ⟨c, hc⟩ := hz
    refine toI32_congr _ _ ⟨c * h.toInt, ?_⟩
    linear_combination h.toInt * hc
  have ht := toI32_spec (z.toInt * h.toInt * 58728449)
  rw [BitVec.toInt_sub, hi32_toInt, hi32_toInt, smul_toInt, smul_toInt, e, wq_toInt]
  generalize z.toInt * h.toInt = a at *
  generalize toI32 (a * 58728449) = t at *
  show toI32 _ = _
  have h1 := toI32_spec (a / 4294967296)
  have h2 := toI32_spec (8380417 * t / 4294967296)
  obtain ⟨⟨c, hc⟩, _, _⟩ := ht
  have ha : a = 8380417 * t + 4294967296 * (-(114592 * a + 8380417 * c)) := by omega
  generalize -(114592 * a + 8380417 * c) = m at ha
  have e1 : (a - t * 8380417) / 4294967296 = m := by omega
  have e2 : a / 4294967296 = 8380417 * t / 4294967296 + m := by omega
  rw [e1]
  rw [e2] at h1 ⊢
  generalize 8380417 * t / 4294967296 = u at *
  refine toI32_congr _ _ ?_
  obtain ⟨⟨p, hp⟩, _⟩ := h1
  obtain ⟨⟨r, hr⟩, _⟩ := h2
  exact ⟨p - r, by omega⟩

theorem mont_range (C : CSem) (a : Int) (h1 : -2147483648 * Q ≤ a) (h2 : a ≤ 2147483648 * Q) : -Q ≤ montgomeryReduce C a ∧ montgomeryReduce C a ≤ Q := by
  unfold Q at *
  rw [montgomeryReduce_eq C a (by omega) (by omega)]
  have ht := toI32_spec (a * 58728449)
  rw [toI32_id _ (by omega) (by omega)]
  omega

end Verif.Avx2
