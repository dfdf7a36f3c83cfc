import Verif.Dilithium.NoUb
import Verif.Dilithium.BitSpec
import Verif.Dilithium.HintSpec
import Verif.Dilithium.Toy

/-!
# Properties C56–C65, C67 and C68: Dilithium2 (the bundled `clean` C implementation)

`C : CSem` is the behaviour of undefined signed overflow and out-of-bounds reads: arbitrary.  Every statement holds for all of them.
Vocabulary: `Verif/Dilithium/Spec.lean` (the published specification) and `Verif/Basic/Negacyclic.lean` (textbook product).
-/

namespace Verif.Props

open Verif.Dilithium
open Verif.Dilithium.Spec (Rq toRq std IsNtt matMul modpm)

variable {C : CSem} {H : Shake}

/-! ## C56: modular reductions -/

/-- C56: `montgomery_reduce` on `-2^31·q ≤ a < 2^31·q`: the result `r` has `r·2^32 ≡ a (mod q)` and `-q < r < q`. -/
theorem C56_montgomery (a : Int) (h1 : -2 ^ 31 * 8380417 ≤ a) (h2 : a < 2 ^ 31 * 8380417) :
    (8380417 : Int) ∣ montgomeryReduce C a * 2 ^ 32 - a ∧ -8380417 < montgomeryReduce C a ∧ montgomeryReduce C a < 8380417 :=
  ⟨mont_mod a h1 (le_of_lt h2), mont_bound a h1 h2⟩

/-- C56: the documented domain of `montgomery_reduce` includes the end point `2^31·q`, where the documented strict bound `r < q` fails. -/
theorem C56_montgomery_endpoint : montgomeryReduce C (2 ^ 31 * 8380417) = 8380417 := by
  obtain ⟨k, hk, hl, hu⟩ := mont_spec (C := C) (2 ^ 31 * 8380417) (by decide) (by decide)
  simp only [Q] at *
  omega

/-- C56: `reduce32` on every `int32_t` `a ≤ 2^31 - 2^22 - 1`: congruent to `a`, within `-6283009 … 6283008`. -/
theorem C56_reduce32 (a : Int) (h1 : -2 ^ 31 ≤ a) (h2 : a ≤ 2 ^ 31 - 2 ^ 22 - 1) :
    (8380417 : Int) ∣ reduce32 C a - a ∧ -6283009 ≤ reduce32 C a ∧ reduce32 C a ≤ 6283008 := by
  obtain ⟨t, e, b1, b2, -⟩ := reduce32_spec (C := C) a h1 h2
  exact ⟨⟨-t, by simp only [Q] at *; omega⟩, b1, b2⟩

/-- C56: the upper bound 6283007 given in the comment of `reduce32` is exceeded by one at the largest admissible input. -/
theorem C56_reduce32_endpoint : reduce32 C (2 ^ 31 - 2 ^ 22 - 1) = 6283008 := by
  obtain ⟨t, e, b1, b2, ht⟩ := reduce32_spec (C := C) (2 ^ 31 - 2 ^ 22 - 1) (by decide) (by decide)
  rw [e, ht]; decide

/-- C56: `caddq` on every `int32_t` adds `q` exactly to the negative values. -/
theorem C56_caddq (a : Int) (h1 : -2 ^ 31 ≤ a) (h2 : a < 2 ^ 31) : caddq C a = if a < 0 then a + 8380417 else a :=
  caddq_spec a h1 (by omega)

/-- C56: `freeze` returns the standard representative. -/
theorem C56_freeze (a : Int) (h1 : -2 ^ 31 ≤ a) (h2 : a ≤ 2 ^ 31 - 2 ^ 22 - 1) : freeze C a = a % 8380417 := by
  obtain ⟨t, e, b1, b2, ht⟩ := reduce32_spec (C := C) a h1 h2
  unfold freeze
  rw [caddq_spec _ (by omega) (by omega)]
  simp only [Q] at *
  split <;> omega

example : montgomeryReduce wrapSem (-2 ^ 31 * 8380417) = 0 ∧ montgomeryReduce wrapSem 123456789012345 = -3424520 ∧
    freeze wrapSem (-2 ^ 31) = 6283521 := by decide +kernel

/-! ## C57: rounding -/

/-- C57: `power2round` is the specification's `Power2Round`, `a = a1·2^13 + a0` with `-2^12 < a0 ≤ 2^12`. -/
theorem C57_power2round (a : Int) (h1 : 0 ≤ a) (h2 : a < 8380417) :
    power2round C a = Spec.power2Round a ∧
    a = (power2round C a).1 * 2 ^ 13 + (power2round C a).2 ∧ -2 ^ 12 < (power2round C a).2 ∧ (power2round C a).2 ≤ 2 ^ 12 ∧
    0 ≤ (power2round C a).1 ∧ (power2round C a).1 < 2 ^ 10 :=
  ⟨power2round_eq a h1 h2, power2round_spec a h1 h2⟩

/-- C57: `decompose` is the specification's `Decompose`: `a ≡ a1·α + a0 (mod q)` with `0 ≤ a1 < 44` and `-α/2 < a0 ≤ α/2`, except that the
top interval has `a1 = 0` and `a0 = a - q` (so `-α/2 ≤ a0 < 0`). -/
theorem C57_decompose (a : Int) (h1 : 0 ≤ a) (h2 : a < 8380417) :
    decompose C a = Spec.decompose a ∧ 0 ≤ (decompose C a).1 ∧ (decompose C a).1 < 44 ∧
    (8380417 : Int) ∣ a - ((decompose C a).1 * 190464 + (decompose C a).2) ∧ -95232 ≤ (decompose C a).2 ∧ (decompose C a).2 ≤ 95232 ∧
    ((decompose C a).2 = -95232 → a = 8380417 - 95232) ∧
    (8380417 - 1 - 95232 < a → (decompose C a).1 = 0 ∧ (decompose C a).2 = a - 8380417) := by
  obtain ⟨b1, b2, h⟩ := decompose_spec (C := C) a h1 h2
  simp only [Q, GAMMA2] at *
  refine ⟨decompose_eq a h1 h2, b1, by omega, ?_, by omega, by omega, by omega, by omega⟩
  rcases h with ⟨e, -⟩ | ⟨e1, e2, -⟩
  · exact ⟨0, by omega⟩
  · exact ⟨1, by omega⟩

/-- C57: high bits and low bits are determined by these conditions: no other pair in the ranges represents `a`. -/
theorem C57_decompose_unique (a a1 a0 : Int) (h1 : 0 ≤ a) (h2 : a ≤ 8380417 - 1 - 95232) (b1 : 0 ≤ a1) (b2 : a1 < 44)
    (c1 : -95232 < a0) (c2 : a0 ≤ 95232) (e : (8380417 : Int) ∣ a - (a1 * 190464 + a0)) : decompose C a = (a1, a0) := by
  obtain ⟨d1, d2, h⟩ := decompose_spec (C := C) a h1 (by simp only [Q]; omega)
  obtain ⟨k, hk⟩ := e
  simp only [Q, GAMMA2] at *
  have : k = 0 := by omega
  refine Prod.ext ?_ ?_ <;> simp only <;> omega

example : power2round wrapSem 5000 = (1, -3192) ∧ decompose wrapSem 8380416 = (0, -1) ∧ decompose wrapSem (8380417 - 95232) = (0, -95232) ∧
    decompose wrapSem 4000000 = (21, 256) := by decide +kernel

/-! ## C58: hints -/

/-- C58: if `a ≡ w1·α + v (mod q)` with `|v| < α`, the hint made from the perturbed low part `v` and the high bits `w1` leads the verifier,
who only knows `a`, back to `w1`; and the hint is 0 exactly when the high bits of `a` already are `w1`. -/
theorem C58_useHint_makeHint (a w1 v : Int) (h1 : 0 ≤ a) (h2 : a < 8380417) (hw1 : 0 ≤ w1) (hw2 : w1 < 44) (hv : |v| < 190464)
    (h : (8380417 : Int) ∣ a - (w1 * 190464 + v)) :
    useHint C a (makeHint v w1) = w1 ∧ (makeHint v w1 = 0 ↔ (decompose C a).1 = w1) ∧ (makeHint v w1 = 0 ∨ makeHint v w1 = 1) :=
  have hv' := abs_lt.1 hv
  ⟨(useHint_makeHint a w1 v h1 h2 hw1 (by omega) hv'.1 hv'.2 h).1, (useHint_makeHint a w1 v h1 h2 hw1 (by omega) hv'.1 hv'.2 h).2,
    makeHint_01 _ _⟩

/-- C58: `use_hint` is the specification's `UseHint`. -/
theorem C58_useHint (a h : Int) (h1 : 0 ≤ a) (h2 : a < 8380417) (hh : h = 0 ∨ h = 1) : useHint C a h = Spec.useHint h a :=
  useHint_eq a h h1 h2 hh

/-- C58: the specification's lemma (Dilithium 3.1, Lemma 1), for the code: for `|z| ≤ γ2`, `UseHint(MakeHint(z, r), r)` are the high bits of `r + z`. -/
theorem C58_spec_lemma (r z : Int) (h1 : 0 ≤ r) (h2 : r < 8380417) (hz : |z| ≤ 95232) :
    useHint C r (Spec.makeHint z r) = Spec.highBits ((r + z) % 8380417) := by
  have hz' := abs_le.1 hz
  have hm : Spec.makeHint z r = 0 ∨ Spec.makeHint z r = 1 := by unfold Spec.makeHint; split <;> simp
  rw [useHint_eq r _ h1 h2 hm]
  unfold Spec.useHint Spec.makeHint
  by_cases e : Spec.highBits r = Spec.highBits ((r + z) % 8380417)
  · simp [e]
  · simp only [ne_eq, e, not_false_eq_true, if_true]
    have d1 := decompose_spec (C := wrapSem) r h1 h2
    have d2 := decompose_spec (C := wrapSem) ((r + z) % 8380417) (by omega) (by simp only [Q]; omega)
    rw [decompose_eq r h1 h2] at d1
    rw [decompose_eq _ (by omega) (by simp only [Q]; omega)] at d2
    unfold Spec.highBits Spec.lowBits at *
    generalize Spec.decompose r = x at *
    generalize Spec.decompose ((r + z) % 8380417) = y at *
    simp only [Q, GAMMA2] at *
    have hq : (r + z) % 8380417 = r + z ∨ (r + z) % 8380417 = r + z + 8380417 ∨ (r + z) % 8380417 = r + z - 8380417 := by omega
    obtain ⟨x1, x2, hx⟩ := d1
    obtain ⟨y1, y2, hy⟩ := d2
    have hx0 : x.1 = 43 ∨ x.1 = 0 ∨ (0 < x.1 ∧ x.1 < 43) := by omega
    rcases hq with hq | hq | hq <;> rw [hq] at hy <;> rcases hx with hx | hx <;> rcases hy with hy | hy <;>
      rcases hx0 with h0 | h0 | h0 <;> split <;> omega

example : useHint wrapSem 4090208 (makeHint (-100000) 22) = 22 ∧ makeHint (-100000) 22 = 1 ∧ (decompose wrapSem 4090208).1 = 21 ∧
    ((8380417 : Int) ∣ 4090208 - (22 * 190464 + -100000)) := by decide +kernel

/-! ## C59: NTT -/

/-- C59: for coefficients of absolute value below `2^31 - 8q`, `ntt` computes the values at the odd powers of 1753, without overflow: the
coefficients grow by at most `8q`. -/
theorem C59_ntt (a : Poly) (B : Int) (hB : B + 8 * 8380417 < 2 ^ 31) (ha : ∀ i, -B ≤ a i ∧ a i ≤ B) :
    IsNtt (toRq a) (polyNtt C a) ∧ ∀ i, -(B + 8 * 8380417) ≤ polyNtt C a i ∧ polyNtt C a i ≤ B + 8 * 8380417 := by
  obtain ⟨r, b⟩ := polyNtt_res (C := C) (A := B) (a := a) ha (by simp only [Q]; omega)
  exact ⟨(isNtt_iff _ _).2 r.symm, b⟩

/-- C59: the product.  For `a`, `b` with the stated bounds, transforming, multiplying pointwise and transforming back gives the negacyclic
product modulo `q`, with coefficients of absolute value below `q`. -/
theorem C59_product (a b : Poly) (A B : Int) (ha : ∀ i, -A ≤ a i ∧ a i ≤ A) (hb : ∀ i, -B ≤ b i ∧ b i ≤ B)
    (hA : A + 8 * 8380417 < 2 ^ 31) (hB : B + 8 * 8380417 < 2 ^ 31) (hAB : (A + 8 * 8380417) * (B + 8 * 8380417) < 2 ^ 31 * 8380417) :
    toRq (polyInvntt C (polyPointwise C (polyNtt C a) (polyNtt C b))) = negaMul (toRq a) (toRq b) ∧
    ∀ i, -8380417 < polyInvntt C (polyPointwise C (polyNtt C a) (polyNtt C b)) i ∧
      polyInvntt C (polyPointwise C (polyNtt C a) (polyNtt C b)) i < 8380417 := by
  obtain ⟨r1, b1⟩ := polyNtt_res (C := C) (A := A) (a := a) ha (by simp only [Q]; omega)
  obtain ⟨r2, b2⟩ := polyNtt_res (C := C) (A := B) (a := b) hb (by simp only [Q]; omega)
  have p := polyPointwise_res (C := C) b1 b2 (by simp only [Q]; exact hAB)
  rw [r1, r2] at p
  obtain ⟨s, t⟩ := polyInvntt_res (C := C) p.2 (X := fNtt (res a) * fNtt (res b)) p.1
  refine ⟨?_, t⟩
  apply fNtt_inj
  have : fNtt (negaMul (toRq a) (toRq b)) = fNtt (res a) * fNtt (res b) := fNtt_mul _ _
  rw [this]
  exact s

/-- C59: the inverse transform alone.  If `P` lists (up to the Montgomery factor `2^-32`) the values of the polynomial `p` at the odd powers of
1753, `invntt_tomont` returns `p` modulo `q`. -/
theorem C59_invntt (P : Poly) (p : Rq) (hP : ∀ i, -8380417 ≤ P i ∧ P i ≤ 8380417)
    (h : ∀ n, (P n : ZMod 8380417) * 2 ^ 32 = evalAt (Spec.root n) p) :
    toRq (polyInvntt C P) = p ∧ ∀ i, -8380417 < polyInvntt C P i ∧ polyInvntt C P i < 8380417 := by
  have hr : res P = Rinv • fNtt p := by
    funext n
    have hn := h n
    rw [← rho_eq_root, ← fNtt_eval] at hn
    show (P n : ZMod 8380417) = Rinv * fNtt p n
    rw [← hn]
    have := R_Rinv
    push_cast at this
    calc (P n : ZMod 8380417) = P n * (4294967296 * Rinv) := by rw [this, mul_one]
      _ = _ := by ring
  obtain ⟨a, b⟩ := polyInvntt_res (C := C) hP hr
  exact ⟨fNtt_inj a, b⟩

-- The signer multiplies a challenge (coefficients at most 1) by `t0` (at most 2^12), the key generator a matrix entry (below q) by a secret.
example : (4096 + 8 * 8380417 : Int) * (1 + 8 * 8380417) < 2 ^ 31 * 8380417 := by decide
-- Concretely: `X · X^255 = -1`.
example : toRq (polyInvntt wrapSem (polyPointwise wrapSem (polyNtt wrapSem fun i => if i = 1 then 1 else 0)
    (polyNtt wrapSem fun i => if i = 255 then 1 else 0))) 0 = -1 := by
  rw [(C59_product (C := wrapSem) _ _ 1 1 (fun i => by split <;> decide) (fun i => by split <;> decide) (by decide) (by decide) (by decide)).1]
  unfold negaMul toRq
  rw [Finset.sum_eq_single (1 : Fin 256)]
  · rw [Finset.sum_eq_single (255 : Fin 256)]
    · simp
    · intro b _ hb; simp [hb]
    · simp
  · intro b _ hb; simp [hb]
  · simp

/-! ## C60: packings -/

/-- C60: the five coefficient formats.  Unpacking a packing (wherever it lies in a longer buffer) returns the coefficients. -/
theorem C60_polynomials (a : Poly) (rest : Bytes) :
    ((∀ i, -2 ≤ a i ∧ a i ≤ 2) → polyetaUnpack C (polyetaPack C a ++ rest) = a) ∧
    ((∀ i, 0 ≤ a i ∧ a i < 2 ^ 10) → polyt1Unpack C (polyt1Pack a ++ rest) = a) ∧
    ((∀ i, -2 ^ 12 < a i ∧ a i ≤ 2 ^ 12) → polyt0Unpack C (polyt0Pack C a ++ rest) = a) ∧
    ((∀ i, -2 ^ 17 < a i ∧ a i ≤ 2 ^ 17) → polyzUnpack C (polyzPack C a ++ rest) = a) ∧
    (polyetaPack C a).length = 96 ∧ (polyt1Pack a).length = 320 ∧ (polyt0Pack C a).length = 416 ∧ (polyzPack C a).length = 576 ∧
    (polyw1Pack a).length = 192 :=
  ⟨fun h => polyeta_un_pk a rest fun i => by have := h i; omega, polyt1_un_pk a rest, polyt0_un_pk a rest, polyz_un_pk a rest,
    polyetaPack_len a, polyt1Pack_len a, polyt0Pack_len a, polyzPack_len a, polyw1Pack_len a⟩

/-- C60: packing an unpacking returns the bytes, for every buffer. -/
theorem C60_bytes (b : Bytes) :
    (96 ≤ b.length → polyetaPack C (polyetaUnpack C b) = b.take 96) ∧ (320 ≤ b.length → polyt1Pack (polyt1Unpack C b) = b.take 320) ∧
    (416 ≤ b.length → polyt0Pack C (polyt0Unpack C b) = b.take 416) ∧ (576 ≤ b.length → polyzPack C (polyzUnpack C b) = b.take 576) :=
  ⟨polyeta_pk_un b, polyt1_pk_un b, polyt0_pk_un b, polyz_pk_un b⟩

/-- C60: the layout.  Each format is the sequence of little-endian bit fields of its (offset) coefficients: 3 bits of `2 - a`, 10 bits of `a`,
13 bits of `2^12 - a`, 18 bits of `2^17 - a`, 6 bits of `a`. -/
theorem C60_layout (b : Bytes) (i : Fin 256) :
    (96 ≤ b.length → Spec.IsField 3 b i.1 (2 - polyetaUnpack C b i)) ∧ (320 ≤ b.length → Spec.IsField 10 b i.1 (polyt1Unpack C b i)) ∧
    (416 ≤ b.length → Spec.IsField 13 b i.1 (2 ^ 12 - polyt0Unpack C b i)) ∧ (576 ≤ b.length → Spec.IsField 18 b i.1 (2 ^ 17 - polyzUnpack C b i)) ∧
    (∀ a : Poly, (∀ i, 0 ≤ a i ∧ a i < 2 ^ 6) → Spec.IsField 6 (polyw1Pack a) i.1 (a i)) :=
  ⟨fun h => polyeta_field b h i, fun h => polyt1_field b h i, fun h => polyt0_field b h i, fun h => polyz_field b h i, fun a h => polyw1_field a h i⟩

/-- C60: public keys, both directions. -/
theorem C60_pk :
    (∀ (rho : Bytes) (t1 : Fin 4 → Poly), rho.length = 32 → (∀ k i, 0 ≤ t1 k i ∧ t1 k i < 2 ^ 10) →
      unpackPk C (packPk rho t1) = (rho, t1) ∧ (packPk rho t1).length = 1312) ∧
    ∀ pk : Bytes, pk.length = 1312 → packPk (unpackPk C pk).1 (unpackPk C pk).2 = pk :=
  ⟨fun rho t1 h ht => ⟨unpackPk_packPk rho t1 h ht, packPk_len rho t1 h⟩, fun pk h => packPk_unpackPk pk h⟩

/-- C60: secret keys, both directions. -/
theorem C60_sk :
    (∀ f : SkFields, f.rho.length = 32 → f.key.length = 32 → f.tr.length = 64 → (∀ k i, -2 ≤ f.s1 k i ∧ f.s1 k i ≤ 2) →
      (∀ k i, -2 ≤ f.s2 k i ∧ f.s2 k i ≤ 2) → (∀ k i, -2 ^ 12 < f.t0 k i ∧ f.t0 k i ≤ 2 ^ 12) →
      unpackSk C (packSk C f) = f ∧ (packSk C f).length = 2560) ∧
    ∀ sk : Bytes, sk.length = 2560 → packSk C (unpackSk C sk) = sk := by
  refine ⟨fun f h1 h2 h3 h4 h5 h6 => ?_, fun sk h => packSk_unpackSk sk h⟩
  have ok : SkOk f := ⟨h1, h2, h3, fun k i => by have := h4 k i; omega, fun k i => by have := h5 k i; omega, h6⟩
  exact ⟨unpackSk_packSk f ok, packSk_len f ok⟩

/-- C60: signatures. -/
theorem C60_sig (c : Bytes) (z h : Fin 4 → Poly) (hc : c.length = 32) (hz : ∀ k i, -2 ^ 17 < z k i ∧ z k i ≤ 2 ^ 17)
    (hh : ∀ k i, h k i = 0 ∨ h k i = 1) (hw : Spec.ones h ≤ 80) :
    unpackSig C (packSig C c z h) = some (c, z, h) ∧ (packSig C c z h).length = 2420 :=
  ⟨unpackSig_packSig c z h hc hz hh (by rw [← ones_eq_wt h hh]; exact hw), packSig_len c z h hc⟩

example : unpackSig wrapSem (packSig wrapSem (List.replicate 32 7) (fun _ i => (i.1 : Int) * 3 - 100) (fun k i => if i.1 = 5 * k.1 then 1 else 0))
    = some (List.replicate 32 7, fun _ i => (i.1 : Int) * 3 - 100, fun k i => if i.1 = 5 * k.1 then 1 else 0) := by
  refine (C60_sig (C := wrapSem) (List.replicate 32 7) (fun _ i => (i.1 : Int) * 3 - 100) (fun k i => if i.1 = 5 * k.1 then 1 else 0)
    List.length_replicate (fun k i => by have := i.2; omega) (fun k i => by split <;> simp) ?_).1
  unfold Spec.ones; decide +kernel

/-! ## C61: canonical signatures -/

/-- C61: the decoder accepts a 2420-byte string exactly when its last 84 bytes are a canonical hint encoding, and then returns the hint they denote. -/
theorem C61_accepts (sig : Bytes) (hl : sig.length = 2420) :
    (unpackSig C sig = none ↔ ¬ Spec.CanonicalHint (sig.drop 2336)) ∧
    ∀ c z h, unpackSig C sig = some (c, z, h) → Spec.CanonicalHint (sig.drop 2336) ∧ Spec.DenotesHint (sig.drop 2336) h ∧ c = sig.take 32 := by
  have hb : (sig.drop 2336).length = 84 := by rw [List.length_drop]; omega
  constructor
  · unfold unpackSig
    rw [Option.map_eq_none_iff, unpackHint_none _ hb]
  · intro c z h hu
    unfold unpackSig at hu
    simp only [Option.map_eq_some_iff, Prod.mk.injEq] at hu
    obtain ⟨h', hh, rfl, -, rfl⟩ := hu
    obtain ⟨a, b⟩ := (unpackHint_iff _ hb h').1 hh
    exact ⟨a, b, rfl⟩

/-- C61: an accepted string is the encoding of what it decodes to. -/
theorem C61_reencode (sig c : Bytes) (z h : Fin 4 → Poly) (hl : sig.length = 2420) (hu : unpackSig C sig = some (c, z, h)) :
    packSig C c z h = sig ∧ (∀ k i, h k i = 0 ∨ h k i = 1) ∧ Spec.ones h ≤ 80 := by
  obtain ⟨a, -, -, d, e⟩ := packSig_unpackSig sig c z h hl hu
  exact ⟨a, d, by rw [ones_eq_wt h d]; exact e⟩

/-- C61: no two different strings decode to the same `(c, z, h)`. -/
theorem C61_injective (sig sig' : Bytes) (hl : sig.length = 2420) (hl' : sig'.length = 2420) (h : unpackSig C sig ≠ none)
    (e : unpackSig C sig = unpackSig C sig') : sig = sig' := by
  cases hu : unpackSig C sig with
  | none => exact absurd hu h
  | some x =>
    obtain ⟨c, z, hh⟩ := x
    rw [← (C61_reencode sig c z hh hl hu).1, (C61_reencode sig' c z hh hl' (e ▸ hu)).1]

-- A repeated index is refused, as is a non-zero byte after the last index.
example : unpackHint wrapSem ([3, 3] ++ List.replicate 78 0 ++ [2, 2, 2, 2]) = none ∧
    unpackHint wrapSem ([3, 4, 9] ++ List.replicate 77 0 ++ [2, 2, 2, 2]) = none ∧
    (unpackHint wrapSem ([3, 4] ++ List.replicate 78 0 ++ [2, 2, 2, 2])).isSome = true := by decide +kernel

/-! ## C62: completeness -/

/-- C62: every signature output under a generated key pair is accepted, and has 2420 bytes. -/
theorem C62_verify_sign (coins pk sk m sig : Bytes) (hk : keypairDet C H coins = some (pk, sk)) (hs : signature C H m sk = some sig) :
    verify C H sig m pk = some true ∧ sig.length = 2420 := verify_signature hk hs

/-- C62: the attached form opens to the message. -/
theorem C62_open_sign (coins pk sk m sm : Bytes) (hk : keypairDet C H coins = some (pk, sk)) (hs : cryptoSign C H m sk = some sm) :
    cryptoOpen C H sm pk = some (some m) := open_sign hk hs

/-- C62: keys have their advertised sizes. -/
theorem C62_sizes (coins pk sk : Bytes) (hk : keypairDet C H coins = some (pk, sk)) : pk.length = 1312 ∧ sk.length = 2560 := by
  obtain ⟨f, mat, t1, ok⟩ := keypairDet_ok hk
  refine ⟨by rw [ok.pk_eq]; exact packPk_len _ _ ok.rho_len, ?_⟩
  rw [ok.sk_eq]
  refine packSk_len f ⟨ok.rho_len, ok.key_len, by rw [ok.tr_eq]; exact shake256_len _ _, ?_, ?_, ok.t0_range⟩
  · intro k i; have := ok.s1_range k i; omega
  · intro k i; have := ok.s2_range k i; omega

/-- C62 is not vacuous: for the toy hash every coin string gives a key pair, and every message is signed. -/
example (coins m : Bytes) : ∃ pk sk sig, keypairDet wrapSem toyH coins = some (pk, sk) ∧ signature wrapSem toyH m sk = some sig ∧
    verify wrapSem toyH sig m pk = some true := by
  obtain ⟨pk, sk, hk⟩ := toy_keypair coins
  obtain ⟨sig, hs⟩ := toy_signs coins pk sk m hk
  exact ⟨pk, sk, sig, hk, hs, (C62_verify_sign coins pk sk m sig hk hs).1⟩

/-! ## C63: rejection -/

/-- C63: verification answers "no" on a signature of the wrong length, with a non-canonical hint encoding, or with a coefficient of `z` of
absolute value at least `γ1 - β`. -/
theorem C63_reject (sig m pk : Bytes)
    (h : sig.length ≠ 2420 ∨ ¬ Spec.CanonicalHint (sig.drop 2336) ∨ ∃ k : Fin 4, ∃ i, 131072 - 78 ≤ |polyzUnpack C (sig.drop (32 + k.1 * 576)) i|) :
    verify C H sig m pk = some false := by
  by_cases hl : sig.length = 2420
  · rcases h with h | h | ⟨k, i, h⟩
    · exact absurd hl h
    · exact verify_reject (Or.inr (Or.inl ((C61_accepts sig hl).1.2 h)))
    · cases hu : unpackSig C sig with
      | none => exact verify_reject (Or.inr (Or.inl hu))
      | some x =>
        obtain ⟨c, z, hh⟩ := x
        refine verify_reject (Or.inr (Or.inr ⟨c, z, hh, hu, k, i, ?_⟩))
        unfold unpackSig at hu
        simp only [Option.map_eq_some_iff, Prod.mk.injEq] at hu
        obtain ⟨h', -, -, rfl, -⟩ := hu
        exact h
  · exact verify_reject (Or.inl hl)

/-- C63: opening anything shorter than a signature fails, and so does opening anything whose signature part does not verify. -/
theorem C63_open (sm pk : Bytes) :
    (sm.length < 2420 → cryptoOpen C H sm pk = some none) ∧
    ∀ m, cryptoOpen C H sm pk = some (some m) → m = sm.drop 2420 ∧ verify C H (sm.take 2420) m pk = some true := by
  constructor
  · intro h
    unfold cryptoOpen
    rw [if_pos h]
  · intro m h
    unfold cryptoOpen at h
    split at h
    · cases h
    · simp only [Option.bind_eq_bind, Option.bind_eq_some_iff, Option.pure_def, Option.some.injEq] at h
      obtain ⟨ok, hv, h⟩ := h
      cases ok with
      | false => simp at h
      | true =>
        simp only [if_true, Option.some.injEq] at h
        subst h
        exact ⟨rfl, hv⟩

example : ¬ Spec.CanonicalHint ([3, 3] ++ List.replicate 78 0 ++ [2, 2, 2, 2]) := by
  rw [← unpackHint_none (C := wrapSem) _ (by decide)]
  decide +kernel

/-! ## C64: the challenge -/

/-- C64: every challenge has exactly 39 non-zero coefficients, all of them `±1`. -/
theorem C64_challenge (seed : Bytes) (c : Poly) (h : polyChallenge C H seed = some c) :
    (∀ j, c j = 0 ∨ c j = 1 ∨ c j = -1) ∧ (Finset.univ.filter fun i => c i ≠ 0).card = 39 := polyChallenge_spec H seed c h

/-- C64: the challenge is the specification's `SampleInBall` of the hash output, and exists exactly when that does. -/
theorem C64_sampleInBall (seed : Bytes) (c : Poly) (hl : seed.length = 32) :
    polyChallenge C H seed = some c ↔ Spec.SampleInBall (H.shake256 seed) c := by
  rw [polyChallenge_iff, List.take_of_length_le (by omega)]

example (seed : Bytes) : ∃ c, polyChallenge wrapSem toyH seed = some c := toy_challenge seed

/-! ## C65: samplers -/

/-- C65: `poly_uniform` returns the first 256 values below `q` among the 23-bit little-endian candidates of the stream, and it returns
exactly when there are that many. -/
theorem C65_uniform (seed : Bytes) (nonce : UInt16) (p : Poly) :
    (polyUniform C H seed nonce = some p ↔ ∃ m, ((((List.range m).map fun k =>
      (((stream128 H seed nonce (3 * k)).toNat + 256 * (stream128 H seed nonce (3 * k + 1)).toNat + 65536 * (stream128 H seed nonce (3 * k + 2)).toNat) % 2 ^ 23 : Int)).filter
        fun t => decide (t < 8380417)).take 256) = List.ofFn p) ∧
    (polyUniform C H seed nonce = some p → ∀ i, 0 ≤ p i ∧ p i < 8380417) := by
  refine ⟨?_, fun h i => polyUniform_range H seed nonce p h i⟩
  rw [polyUniform_iff]
  unfold accUniform cand
  simp only [List.range_eq_range', Int.reducePow, Nat.cast_ofNat, Int.natCast_emod, Nat.cast_add, Nat.cast_mul]

/-- C65: `poly_uniform_eta` returns `2 - (t mod 5)` for the first 256 nibbles `t < 15` of the stream, low nibble first. -/
theorem C65_eta (seed : Bytes) (nonce : UInt16) (p : Poly) :
    (polyUniformEta C H seed nonce = some p ↔ ∃ m, (((((List.range m).map fun k =>
      if k % 2 = 0 then (stream256 H seed nonce (k / 2)).toNat % 16 else (stream256 H seed nonce (k / 2)).toNat / 16).filter
        fun t => decide (t < 15)).map fun t => 2 - ((t % 5 : Nat) : Int)).take 256) = List.ofFn p) ∧
    (polyUniformEta C H seed nonce = some p → ∀ i, -2 ≤ p i ∧ p i ≤ 2) := by
  refine ⟨?_, fun h i => polyUniformEta_range H seed nonce p h i⟩
  rw [polyUniformEta_iff]
  unfold accEta nib
  simp only [List.range_eq_range']

/-- C65: `poly_uniform_gamma1` reads 18-bit fields of the stream: coefficient `i` is `2^17` minus field `i`, so it lies in `(-2^17, 2^17]`. -/
theorem C65_gamma1 (seed : Bytes) (nonce : UInt16) (i : Fin 256) :
    Spec.IsField 18 (squeeze (stream256 H seed nonce) 0 680) i.1 (2 ^ 17 - polyUniformGamma1 C H seed nonce i) ∧
    -2 ^ 17 < polyUniformGamma1 C H seed nonce i ∧ polyUniformGamma1 C H seed nonce i ≤ 2 ^ 17 :=
  ⟨polyz_field _ (by rw [squeeze_length]; omega) i, polyzUnpack_range _ i⟩

/-- C65: one call of a rejection sampler on any buffer returns at most the requested number of coefficients. -/
theorem C65_length (len : Nat) (b : Bytes) : (rejUniform len b).length ≤ len ∧ (rejEta len b).length ≤ len := by
  constructor
  · fun_induction rejUniform len b <;> simp_all
  · fun_induction rejEta len b <;> simp_all; omega

example (seed : Bytes) (nonce : UInt16) : polyUniform wrapSem toyH seed nonce = some (fun _ => 1) ∧ polyUniformEta wrapSem toyH seed nonce = some toyS :=
  ⟨toy_uniform seed nonce, toy_eta seed nonce⟩

/-! ## C67: the algorithms are those of the specification -/

/-- C67: key generation.  With the seeds and samples named, and `A` the matrix whose NTT was sampled, the keys are the encodings of
`(rho, t1)` and `(rho, K, tr, s1, s2, t0)` for `(t1, t0) = Power2Round(A·s1 + s2)`. -/
theorem C67_keygen (coins : Bytes) (mat : Mat) (s1 s2 : Vec) (A : Fin 4 → Fin 4 → Rq) (rho rhoprime key : Bytes)
    (hseed : shake256 H 128 (coins.take 32) = rho ++ rhoprime ++ key) (lr : rho.length = 32) (lp : rhoprime.length = 64) (lk : key.length = 32)
    (hmat : ∀ i j, polyUniform C H rho (UInt16.ofNat (i.1 * 256 + j.1)) = some (mat i j))
    (hs1 : ∀ j : Fin 4, polyUniformEta C H rhoprime (UInt16.ofNat j.1) = some (s1 j))
    (hs2 : ∀ j : Fin 4, polyUniformEta C H rhoprime (UInt16.ofNat (4 + j.1)) = some (s2 j)) (hA : ∀ i j, IsNtt (A i j) (mat i j)) :
    ∃ pk sk, keypairDet C H coins = some (pk, sk) ∧
      pk = packPk rho (fun k i => (Spec.power2Round (Spec.tOf A s1 s2 k i)).1) ∧
      sk = packSk C { rho := rho, tr := shake256 H 64 pk, key := key, s1 := s1, s2 := s2,
                      t0 := fun k i => (Spec.power2Round (Spec.tOf A s1 s2 k i)).2 } := by
  have e1 : matrixExpand C H rho = some mat := forVec_const _ _ fun i => forVec_const _ _ fun j => hmat i j
  have e2 : vecUniformEta C H rhoprime 0 = some s1 := forVec_const _ _ fun i => by rw [UInt16.zero_add]; exact hs1 i
  have e3 : vecUniformEta C H rhoprime 4 = some s2 := forVec_const _ _ fun i => by
    rw [← hs2 i, UInt16.ofNat_add]; rfl
  exact ⟨_, _, keypair_eq rho rhoprime key hseed lr lp lk e1 e2 e3 hA, rfl, rfl⟩

/-- C67: signing.  For a secret key holding `(rho, K, tr, s1, s2, t0)`, the signature is the encoding of `(c~, z, h)` of the first attempt
that meets the specification's conditions; an attempt draws `y` from the mask seed and its number, and derives everything else from it. -/
theorem C67_sign (m sig : Bytes) (f : SkFields) (mat : Mat) (A : Fin 4 → Fin 4 → Rq) (lr : f.rho.length = 32) (lk : f.key.length = 32)
    (lt : f.tr.length = 64) (h1 : ∀ k i, -2 ≤ f.s1 k i ∧ f.s1 k i ≤ 2) (h2 : ∀ k i, -2 ≤ f.s2 k i ∧ f.s2 k i ≤ 2)
    (h0 : ∀ k i, -2 ^ 12 < f.t0 k i ∧ f.t0 k i ≤ 2 ^ 12) (hmat : matrixExpand C H f.rho = some mat) (hA : ∀ i j, IsNtt (A i j) (mat i j))
    (mu rhoprime : Bytes) (hmu : mu = shake256 H 64 (f.tr ++ m)) (hrp : rhoprime = shake256 H 64 (f.key ++ List.replicate 32 0 ++ mu))
    (y w : Nat → Vec) (hy : ∀ n, y n = fun k => polyUniformGamma1 C H rhoprime (4 * UInt16.ofNat n + UInt16.ofNat k.1)) (hw : ∀ n, w n = Spec.wOf A (y n))
    (ct : Nat → Bytes) (hct : ∀ n, ct n = shake256 H 32 (mu ++ vecPackW1 fun k i => Spec.highBits (w n k i))) :
    signature C H m (packSk C f) = some sig ↔
    ∃ n, (∀ j < n, ∃ c, polyChallenge C H (ct j) = some c ∧ ¬ Spec.Accept (w j) (y j) c f.s1 f.s2 f.t0) ∧
      ∃ c, polyChallenge C H (ct n) = some c ∧ Spec.Accept (w n) (y n) c f.s1 f.s2 f.t0 ∧
        sig = packSig C (ct n) (Spec.zOf (y n) c f.s1) (Spec.hOf (Spec.rOf (w n) c f.s2) c f.t0) := by
  have ok : SkOk f := ⟨lr, lk, lt, fun k i => by have := h1 k i; omega, fun k i => by have := h2 k i; omega, h0⟩
  have hm := fun i j => matrixExpand_bnd hmat i j
  have h0' : ∀ k, Bnd 4096 (f.t0 k) := fun k i => by have := h0 k i; omega
  have hsg : signature C H m (packSk C f) = signLoop C H ⟨mu, rhoprime, mat, vecNtt C f.s1, vecNtt C f.s2, vecNtt C f.t0⟩ 0 := by
    unfold signature signCtx
    rw [unpackSk_packSk f ok]
    simp only [hmat, Option.bind_eq_bind, Option.bind_some, Option.pure_def]
    rw [← hmu, ← hrp]
  have hno : ∀ n : Nat, (0 : UInt16) + UInt16.ofNat n = UInt16.ofNat n := fun n => UInt16.zero_add _
  have hcase : ∀ n, (polyChallenge C H (ct n) = none ∧ signAttempt C H ⟨mu, rhoprime, mat, vecNtt C f.s1, vecNtt C f.s2, vecNtt C f.t0⟩ (UInt16.ofNat n) = none) ∨
      ∃ c, polyChallenge C H (ct n) = some c ∧
        ((Spec.Accept (w n) (y n) c f.s1 f.s2 f.t0 ∧ signAttempt C H ⟨mu, rhoprime, mat, vecNtt C f.s1, vecNtt C f.s2, vecNtt C f.t0⟩ (UInt16.ofNat n) =
          some (some (packSig C (ct n) (Spec.zOf (y n) c f.s1) (Spec.hOf (Spec.rOf (w n) c f.s2) c f.t0)))) ∨
        (¬ Spec.Accept (w n) (y n) c f.s1 f.s2 f.t0 ∧
          signAttempt C H ⟨mu, rhoprime, mat, vecNtt C f.s1, vecNtt C f.s2, vecNtt C f.t0⟩ (UInt16.ofNat n) = some none)) := by
    intro n
    cases hcp : polyChallenge C H (ct n) with
    | none => exact Or.inl ⟨rfl, signAttempt_none hm hA (hy n).symm (hw n).symm (hct n).symm hcp⟩
    | some c =>
      refine Or.inr ⟨c, rfl, ?_⟩
      have := signAttempt_eq hm hA h1 h2 h0' (hy n).symm (hw n).symm (hct n).symm hcp
      by_cases ha : Spec.Accept (w n) (y n) c f.s1 f.s2 f.t0
      · exact Or.inl ⟨ha, this.1 ha⟩
      · exact Or.inr ⟨ha, this.2 ha⟩
  rw [hsg, signLoop_iff]
  refine exists_congr fun n => and_congr ?_ ?_
  · refine forall_congr' fun j => forall_congr' fun _ => ?_
    rw [hno]
    rcases hcase j with ⟨e1, e2⟩ | ⟨c, e1, ⟨ha, e2⟩ | ⟨ha, e2⟩⟩ <;> rw [e1, e2]
    · simp
    · simp [ha]
    · simp [ha]
  · rw [hno]
    rcases hcase n with ⟨e1, e2⟩ | ⟨c, e1, ⟨ha, e2⟩ | ⟨ha, e2⟩⟩ <;> rw [e1, e2]
    · simp
    · simp [ha, eq_comm]
    · simp [ha]

/-- C67: verification.  A well-formed signature is accepted exactly when its challenge seed is the hash of `mu` and `w1'`, where
`w1' = UseHint(h, A·z - c·t1·2^13)`. -/
theorem C67_verify (sig m pk c : Bytes) (z h : Vec) (cp : Poly) (mat : Mat) (A : Fin 4 → Fin 4 → Rq) (hl : sig.length = 2420) (hpk : pk.length = 1312)
    (hu : unpackSig C sig = some (c, z, h)) (hn : Spec.NormLt z (131072 - 78)) (hcp : polyChallenge C H c = some cp)
    (hmat : matrixExpand C H (pk.take 32) = some mat) (hA : ∀ i j, IsNtt (A i j) (mat i j)) :
    verify C H sig m pk = some (decide (c = shake256 H 32 (shake256 H 64 (shake256 H 64 pk ++ m) ++
      vecPackW1 (Spec.w1Of A z h cp (unpackPk C pk).2)))) := by
  rw [verify_eq hl hu hn hcp hmat hA, List.take_of_length_le (by show pk.length ≤ 1312; omega)]

/-- C67: every sampled matrix is the NTT of exactly one matrix `A`, so `A` in the theorems above is determined by the samples. -/
theorem C67_matrix (a : Poly) : ∃! A : Rq, IsNtt A a := by
  obtain ⟨A, hA⟩ := exists_isNtt a
  refine ⟨A, hA, fun B hB => ?_⟩
  rw [isNtt_iff] at hA hB
  exact fNtt_inj (hB.trans hA.symm)

/-- Non-vacuity of C67: the toy run, with `A` the all-ones matrix and secrets `0, 1, 0, 1, …`. -/
example (coins : Bytes) : ∃ pk sk, keypairDet wrapSem toyH coins = some (pk, sk) ∧
    pk = packPk (List.replicate 32 0x12) (fun k i => (Spec.power2Round (Spec.tOf toyA (fun _ => toyS) (fun _ => toyS) k i)).1) := by
  obtain ⟨pk, sk, h, e, -⟩ := C67_keygen (C := wrapSem) (H := toyH) coins (fun _ _ _ => 1) (fun _ => toyS) (fun _ => toyS) toyA _ _ _ (toy_seed coins)
    List.length_replicate List.length_replicate List.length_replicate (fun _ _ => toy_uniform _ _) (fun _ => toy_eta _ _) (fun _ => toy_eta _ _)
    (fun i j => toyA_ntt i j)
  exact ⟨pk, sk, h, e⟩

example (cp : Poly) (h : polyChallenge wrapSem toyH (List.replicate 32 0x12) = some cp) :
    Spec.Accept (fun _ i => (4 * toyY i) % 8380417) (fun _ => toyY) cp (fun _ => toyS) (fun _ => toyS) (fun _ i => 5 * toyS i) :=
  toy_accept cp (C64_challenge _ cp h).1 (C64_challenge _ cp h).2

/-! ## C68: no undefined behaviour -/

/-- C68: key generation, signing, verification and opening give results that do not depend on what a signed overflow or an out-of-bounds
read would do, for every seed, every message, every byte string of the size of a secret key, every byte string of the size of a public key,
and every signature string of any length. -/
theorem C68_no_undefined_behaviour (C C' : CSem) (H : Shake) :
    (∀ coins, keypairDet C H coins = keypairDet C' H coins) ∧
    (∀ m sk : Bytes, sk.length = 2560 → signature C H m sk = signature C' H m sk) ∧
    (∀ sig m pk : Bytes, pk.length = 1312 → verify C H sig m pk = verify C' H sig m pk) ∧
    (∀ sm pk : Bytes, pk.length = 1312 → cryptoOpen C H sm pk = cryptoOpen C' H sm pk) :=
  ⟨keypairDet_indep C C' H, fun m sk h => signature_indep C C' H m sk (by show 2560 ≤ sk.length; omega),
    fun sig m pk h => verify_indep C C' H sig m pk (by show 1312 ≤ pk.length; omega),
    fun sm pk h => cryptoOpen_indep C C' H sm pk (by show 1312 ≤ pk.length; omega)⟩

/-- C68 is about a real dependence: with a short public key the result does depend on the bytes behind it. -/
example : ∃ C C' : CSem, polyt1Unpack C [] 0 ≠ polyt1Unpack C' [] 0 :=
  ⟨wrapSem, { wrapSem with oobByte := 1 }, by decide +kernel⟩

end Verif.Props
