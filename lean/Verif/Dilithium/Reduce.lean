import Mathlib.Tactic.Ring
import Mathlib.Tactic.IntervalCases
import Mathlib.Data.Int.Bitwise

/-!
# C integers; `reduce.c`, `rounding.c` of pqclean/crypto_sign/dilithium2/clean

C `int32_t`/`int64_t` values are `Int`s.  Signed overflow is undefined behaviour in C: every signed operation that could overflow goes through
`C.i32` or `C.i64`, which are the identity on in-range results and *arbitrary* elsewhere.  Every theorem is proved for all such `C`, so no
conclusion depends on what an overflow would do.  Right shift of a negative value is arithmetic (implementation-defined in C; gcc, clang and
msvc agree), and conversions to narrower signed types wrap (same remark).
-/

namespace Verif.Dilithium

/-- The behaviour of signed overflow and of out-of-bounds reads: unconstrained outside the type's range, respectively arbitrary. -/
structure CSem where
  oob : Int
  oobByte : UInt8
  i32 : Int → Int
  i64 : Int → Int
  i32_id : ∀ x, -2147483648 ≤ x → x ≤ 2147483647 → i32 x = x
  i64_id : ∀ x, -9223372036854775808 ≤ x → x ≤ 9223372036854775807 → i64 x = x

/-- Two's complement wrap-around is one such behaviour. -/
def wrapSem : CSem where
  oob := 0
  oobByte := 0
  i32 x := Int.bmod x 4294967296
  i64 x := Int.bmod x 18446744073709551616
  i32_id x h1 h2 := by unfold Int.bmod; dsimp only; split <;> omega
  i64_id x h1 h2 := by unfold Int.bmod; dsimp only; split <;> omega

/-- `Q` (params.h:9). -/
abbrev Q : Int := 8380417
/-- `QINV` (reduce.h:7). -/
abbrev QINV : Int := 58728449
/-- `GAMMA2 = (Q-1)/88` (params.h:18). -/
abbrev GAMMA2 : Int := 95232
/-- `GAMMA1 = 1 << 17` (params.h:17). -/
abbrev GAMMA1 : Int := 131072
/-- `BETA` (params.h:16). -/
abbrev BETA : Int := 78
/-- `ETA` (params.h:14). -/
abbrev ETA : Int := 2

variable (C : CSem)

/-- Conversion to `int32_t` (narrowing, implementation-defined wrap). -/
def toI32 (x : Int) : Int := Int.bmod x 4294967296

/-- `montgomery_reduce` (reduce.c:15-21).  `(uint64_t)a * (uint64_t)QINV` is a product modulo 2^64. -/
def montgomeryReduce (a : Int) : Int :=
  let t := toI32 ((a * QINV) % 18446744073709551616)
  toI32 (C.i64 (a - C.i64 (t * Q)) / 4294967296)

/-- `reduce32` (reduce.c:33-39). -/
def reduce32 (a : Int) : Int :=
  let t := C.i32 (a + 4194304) / 8388608
  C.i32 (a - C.i32 (t * Q))

/-- `caddq` (reduce.c:50-53). -/
def caddq (a : Int) : Int := C.i32 (a + Int.land (a / 2147483648) Q)

/-- `freeze` (reduce.c:65-69). -/
def freeze (a : Int) : Int := caddq C (reduce32 C a)

/-- `power2round` (rounding.c:18-24): `(a1, a0)`. -/
def power2round (a : Int) : Int × Int :=
  let a1 := C.i32 (C.i32 (a + 4096) - 1) / 8192
  (a1, C.i32 (a - C.i32 (a1 * 8192)))

/-- `decompose` (rounding.c:41-51): `(a1, a0)`. -/
def decompose (a : Int) : Int × Int :=
  let a1 := C.i32 (a + 127) / 128
  let a1 := C.i32 (C.i32 (a1 * 11275) + 8388608) / 16777216
  let a1 := Int.xor a1 (Int.land (C.i32 (43 - a1) / 2147483648) a1)
  let a0 := C.i32 (a - C.i32 (C.i32 (a1 * 2) * GAMMA2))
  let a0 := C.i32 (a0 - Int.land (C.i32 ((Q - 1) / 2 - a0) / 2147483648) Q)
  (a1, a0)

/-- `make_hint` (rounding.c:64-70). -/
def makeHint (a0 a1 : Int) : Int :=
  if a0 > GAMMA2 ∨ a0 < -GAMMA2 ∨ (a0 = -GAMMA2 ∧ a1 ≠ 0) then 1 else 0

/-- `use_hint` (rounding.c:82-101). -/
def useHint (a hint : Int) : Int :=
  let (a1, a0) := decompose C a
  if hint = 0 then a1
  else if a0 > 0 then
    if a1 = 43 then 0 else C.i32 (a1 + 1)
  else if a1 = 0 then 43 else C.i32 (a1 - 1)

/-! ## Lemmas -/

theorem land_neg_one (x : Int) : Int.land (-1) x = x := by
  show Int.land (Int.negSucc 0) x = x
  cases x with
  | ofNat n =>
    show Int.ofNat (Nat.ldiff n 0) = Int.ofNat n
    congr 1
    apply Nat.eq_of_testBit_eq
    intro i
    simp [Nat.testBit_ldiff]
  | negSucc n =>
    show Int.negSucc (0 ||| n) = Int.negSucc n
    simp

theorem zero_land (x : Int) : Int.land 0 x = 0 := by
  show Int.land (Int.ofNat 0) x = 0
  cases x with
  | ofNat n => show Int.ofNat (0 &&& n) = 0; simp
  | negSucc n =>
    show Int.ofNat (Nat.ldiff 0 n) = 0
    have : Nat.ldiff 0 n = 0 := by
      apply Nat.eq_of_testBit_eq
      intro i
      simp [Nat.testBit_ldiff]
    rw [this]; rfl

theorem xor_self' (x : Int) : Int.xor x x = 0 := by
  cases x with
  | ofNat n => show Int.ofNat (n ^^^ n) = 0; simp
  | negSucc n => show Int.ofNat (n ^^^ n) = 0; simp

theorem xor_zero' (x : Int) : Int.xor x 0 = x := by
  show Int.xor x (Int.ofNat 0) = x
  cases x with
  | ofNat n => show Int.ofNat (n ^^^ 0) = _; simp
  | negSucc n => show Int.negSucc (n ^^^ 0) = _; simp

variable {C}

theorem toI32_spec (x : Int) : ∃ k, toI32 x = x - 4294967296 * k ∧ -2147483648 ≤ toI32 x ∧ toI32 x ≤ 2147483647 := by
  unfold toI32 Int.bmod
  dsimp only
  split
  · exact ⟨x / 4294967296, by omega, by omega, by omega⟩
  · exact ⟨x / 4294967296 + 1, by omega, by omega, by omega⟩

theorem toI32_id {x : Int} (h1 : -2147483648 ≤ x) (h2 : x ≤ 2147483647) : toI32 x = x := by
  unfold toI32 Int.bmod; dsimp only; split <;> omega

theorem mont_spec (a : Int) (h1 : -2147483648 * Q ≤ a) (h2 : a ≤ 2147483648 * Q) :
    ∃ k, montgomeryReduce C a * 4294967296 = a - k * Q ∧ -2147483648 ≤ k ∧ k ≤ 2147483647 := by
  unfold montgomeryReduce
  dsimp only
  obtain ⟨k, hk, hl, hu⟩ := toI32_spec ((a * QINV) % 18446744073709551616)
  generalize toI32 ((a * QINV) % 18446744073709551616) = t at *
  have hm := Int.emod_add_mul_ediv (a * QINV) 18446744073709551616
  simp only [Q, QINV] at *
  rw [C.i64_id (t * 8380417) (by omega) (by omega), C.i64_id _ (by omega) (by omega)]
  -- t = a*QINV - 2^32 * k', so a - t*Q = a*(1 - QINV*Q) + 2^32 k' Q
  have hd : ∃ d, a - t * 8380417 = 4294967296 * d := by
    refine ⟨-114592 * a + 8380417 * (k + 4294967296 * (a * 58728449 / 18446744073709551616)), ?_⟩
    rw [hk]
    omega
  obtain ⟨d, hd⟩ := hd
  rw [hd, Int.mul_ediv_cancel_left _ (by omega), toI32_id (by omega) (by omega)]
  exact ⟨t, by omega, hl, hu⟩

theorem mont_bound (a : Int) (h1 : -2147483648 * Q ≤ a) (h2 : a < 2147483648 * Q) :
    -Q < montgomeryReduce C a ∧ montgomeryReduce C a < Q := by
  obtain ⟨k, hk, hl, hu⟩ := mont_spec (C := C) a h1 (by omega)
  simp only [Q] at *
  omega

/-- The Montgomery factor: `r * 2^32 ≡ a (mod Q)`. -/
theorem mont_mod (a : Int) (h1 : -2147483648 * Q ≤ a) (h2 : a ≤ 2147483648 * Q) : Q ∣ montgomeryReduce C a * 4294967296 - a := by
  obtain ⟨k, hk, -, -⟩ := mont_spec (C := C) a h1 h2
  exact ⟨-k, by simp only [Q] at *; omega⟩

theorem reduce32_spec (a : Int) (h1 : -2147483648 ≤ a) (h2 : a ≤ 2143289343) :
    ∃ t, reduce32 C a = a - t * Q ∧ -6283009 ≤ reduce32 C a ∧ reduce32 C a ≤ 6283008 ∧ t = (a + 4194304) / 8388608 := by
  unfold reduce32
  dsimp only [Q]
  rw [C.i32_id (a + 4194304) (by omega) (by omega), C.i32_id ((a + 4194304) / 8388608 * 8380417) (by omega) (by omega),
    C.i32_id _ (by omega) (by omega)]
  exact ⟨_, rfl, by omega, by omega, rfl⟩

theorem reduce32_small (a : Int) (h1 : -4194304 ≤ a) (h2 : a < 4194304) : reduce32 C a = a := by
  obtain ⟨t, h, -, -, ht⟩ := reduce32_spec (C := C) a (by omega) (by omega)
  have : t = 0 := by omega
  rw [h, this]; simp

theorem caddq_spec (a : Int) (h1 : -2147483648 ≤ a) (h2 : a ≤ 2147483647) : caddq C a = if a < 0 then a + Q else a := by
  unfold caddq
  split
  · have : a / 2147483648 = -1 := by omega
    rw [this, land_neg_one]
    exact C.i32_id _ (by simp only [Q]; omega) (by simp only [Q]; omega)
  · have : a / 2147483648 = 0 := by omega
    rw [this, zero_land, Int.add_zero]
    exact C.i32_id _ h1 h2

theorem power2round_spec (a : Int) (h1 : 0 ≤ a) (h2 : a < Q) :
    a = (power2round C a).1 * 8192 + (power2round C a).2 ∧ -4096 < (power2round C a).2 ∧ (power2round C a).2 ≤ 4096 ∧
    0 ≤ (power2round C a).1 ∧ (power2round C a).1 < 1024 := by
  unfold power2round
  simp only [Q] at *
  rw [C.i32_id (a + 4096) (by omega) (by omega), C.i32_id (a + 4096 - 1) (by omega) (by omega),
    C.i32_id ((a + 4096 - 1) / 8192 * 8192) (by omega) (by omega), C.i32_id _ (by omega) (by omega)]
  omega

/-- What `decompose` computes: `a1` in `0..43`, with the wrap-around case `a ≥ Q - γ2` mapped to `a1 = 0`, `a0 = a - Q`. -/
theorem decompose_spec (a : Int) (h1 : 0 ≤ a) (h2 : a < Q) :
    0 ≤ (decompose C a).1 ∧ (decompose C a).1 ≤ 43 ∧
    ((a = (decompose C a).1 * 190464 + (decompose C a).2 ∧ -GAMMA2 < (decompose C a).2 ∧ (decompose C a).2 ≤ GAMMA2 ∧ a ≤ Q - 1 - GAMMA2) ∨
     ((decompose C a).1 = 0 ∧ (decompose C a).2 = a - Q ∧ Q - 1 - GAMMA2 < a)) := by
  unfold decompose
  simp only [Q, GAMMA2] at *
  rw [C.i32_id (a + 127) (by omega) (by omega), C.i32_id ((a + 127) / 128 * 11275) (by omega) (by omega),
    C.i32_id ((a + 127) / 128 * 11275 + 8388608) (by omega) (by omega)]
  have hv : 0 ≤ ((a + 127) / 128 * 11275 + 8388608) / 16777216 ∧ ((a + 127) / 128 * 11275 + 8388608) / 16777216 ≤ 44 := by omega
  have hlo : a - 190464 * (((a + 127) / 128 * 11275 + 8388608) / 16777216) ≤ 95232 := by omega
  have hhi : -95232 < a - 190464 * (((a + 127) / 128 * 11275 + 8388608) / 16777216) := by omega
  generalize ((a + 127) / 128 * 11275 + 8388608) / 16777216 = v at *
  rw [C.i32_id (43 - v) (by omega) (by omega)]
  by_cases h44 : v = 44
  · subst h44
    have e : (43 - 44 : Int) / 2147483648 = -1 := by omega
    rw [e, land_neg_one, xor_self', C.i32_id (0 * 2) (by omega) (by omega), C.i32_id (0 * 2 * 95232) (by omega) (by omega),
      C.i32_id (a - 0 * 2 * 95232) (by omega) (by omega), C.i32_id ((8380417 - 1) / 2 - (a - 0 * 2 * 95232)) (by omega) (by omega)]
    have e2 : ((8380417 - 1) / 2 - (a - 0 * 2 * 95232)) / 2147483648 = -1 := by omega
    rw [e2, land_neg_one, C.i32_id _ (by omega) (by omega)]
    omega
  · have e : (43 - v) / 2147483648 = 0 := by omega
    rw [e, zero_land, xor_zero', C.i32_id (v * 2) (by omega) (by omega), C.i32_id (v * 2 * 95232) (by omega) (by omega),
      C.i32_id (a - v * 2 * 95232) (by omega) (by omega), C.i32_id ((8380417 - 1) / 2 - (a - v * 2 * 95232)) (by omega) (by omega)]
    have e2 : ((8380417 - 1) / 2 - (a - v * 2 * 95232)) / 2147483648 = 0 := by omega
    rw [e2, zero_land, Int.sub_zero, C.i32_id _ (by omega) (by omega)]
    omega

end Verif.Dilithium
