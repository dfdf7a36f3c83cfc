import Verif.Avx2.SampleLemmas
import Verif.Avx2.HintLemmas
import Verif.Dilithium.Refine
import Verif.Dilithium.Toy

/-!
# Properties C90, C91, C92: the AVX2 polynomial arithmetic, samplers and packings of Dilithium2

`ti a` are the coefficients of a vector polynomial read as signed integers.  The functions are those of
pqclean/crypto_sign/dilithium2/avx2/poly.c, rounding.c and rejsample.c, in terms of the compiler intrinsics of `Verif/Avx2/Intrin.lean`.
-/

namespace Verif.Props
open Verif.Avx2
open Verif.Dilithium

variable {C : CSem}

/-! ## C90: coefficient-wise functions -/

/-- C90: `poly_reduce` and `poly_caddq`: the same residue class, in the documented range. -/
theorem C90_reduce (a : VPoly) (i : Fin 256) :
    ((∀ k, ti a k ≤ 2 ^ 31 - 2 ^ 22 - 1) → (8380417 ∣ ti (polyReduceV a) i - ti a i ∧ -6283009 ≤ ti (polyReduceV a) i ∧ ti (polyReduceV a) i ≤ 6283008)) ∧
    ti (polyCaddqV a) i = if ti a i < 0 then ti a i + 8380417 else ti a i := by
  have hr : ∀ k, -2147483648 ≤ ti a k ∧ ti a k ≤ 2147483647 := fun k => ⟨BitVec.le_toInt (a k), by have := BitVec.toInt_lt (x := a k); unfold ti; omega⟩
  constructor
  · intro h
    rw [polyReduceV_int (C := wrapSem) a (fun k => by have := h k; omega)]
    have := reduce32_spec (C := wrapSem) (ti a i) (hr i).1 (by have := h i; omega)
    show 8380417 ∣ reduce32 wrapSem (ti a i) - ti a i ∧ -6283009 ≤ reduce32 wrapSem (ti a i) ∧ reduce32 wrapSem (ti a i) ≤ 6283008
    obtain ⟨h1, h2, h3⟩ := this
    simp only [Q] at *
    exact ⟨by omega, by omega, by omega⟩
  · rw [polyCaddqV_int (C := wrapSem)]
    exact caddq_spec (C := wrapSem) (ti a i) (hr i).1 (hr i).2

/-- C90: addition, subtraction and the shift by 13, without wrap-around. -/
theorem C90_arith (a b : VPoly) :
    ((∀ i, -2 ^ 31 ≤ ti a i + ti b i ∧ ti a i + ti b i < 2 ^ 31) → ∀ i, ti (polyAddV a b) i = ti a i + ti b i) ∧
    ((∀ i, -2 ^ 31 ≤ ti a i - ti b i ∧ ti a i - ti b i < 2 ^ 31) → ∀ i, ti (polySubV a b) i = ti a i - ti b i) ∧
    ((∀ i, 0 ≤ ti a i ∧ ti a i < 2 ^ 18) → ∀ i, ti (polyShiftlV a) i = ti a i * 2 ^ 13) :=
  ⟨fun h i => by rw [polyAddV_int a b fun k => by have := h k; omega], fun h i => by rw [polySubV_int a b fun k => by have := h k; omega],
   fun h i => by rw [polyShiftlV_int a fun k => by have := h k; omega]; norm_num⟩

/-- C90: `poly_power2round` and `poly_decompose` are Power2Round and Decompose of the specification on standard representatives. -/
theorem C90_rounding (a : VPoly) (h : ∀ i, 0 ≤ ti a i ∧ ti a i < 8380417) (i : Fin 256) :
    (ti (polyPower2roundV a).1 i, ti (polyPower2roundV a).2 i) = Spec.power2Round (ti a i) ∧
    (ti (polyDecomposeV a).1 i, ti (polyDecomposeV a).2 i) = Spec.decompose (ti a i) := by
  have p := polyPower2roundV_int (C := wrapSem) a h
  have d := polyDecomposeV_int (C := wrapSem) a h
  rw [p.1, p.2, d.1, d.2]
  exact ⟨power2round_eq (C := wrapSem) _ (h i).1 (h i).2, decompose_eq (C := wrapSem) _ (h i).1 (h i).2⟩

/-- C90: `poly_use_hint` is UseHint, except where the hint is 1 and the low part is exactly 0: there the specification goes down, the AVX2 code
goes up, and the two results differ. -/
theorem C90_use_hint (a h : VPoly) (ha : ∀ i, 0 ≤ ti a i ∧ ti a i < 8380417) (hh : ∀ i, ti h i = 0 ∨ ti h i = 1) (i : Fin 256) :
    (¬ (ti h i = 1 ∧ Spec.lowBits (ti a i) = 0) → ti (polyUseHintV a h) i = Spec.useHint (ti h i) (ti a i)) ∧
    (ti h i = 1 ∧ Spec.lowBits (ti a i) = 0 →
      ti (polyUseHintV a h) i = (Spec.highBits (ti a i) + 1) % 44 ∧ Spec.useHint (ti h i) (ti a i) = (Spec.highBits (ti a i) - 1) % 44 ∧
      ti (polyUseHintV a h) i ≠ Spec.useHint (ti h i) (ti a i)) := by
  rw [polyUseHintV_int a h ha hh]
  dsimp only
  unfold useHintA Spec.useHint
  generalize Spec.lowBits (ti a i) = l
  generalize Spec.highBits (ti a i) = g
  constructor
  · intro hn
    split
    · rename_i h1
      have : l ≠ 0 := fun e => hn ⟨h1, e⟩
      split <;> split <;> first | rfl | omega
    · rfl
  · rintro ⟨h1, rfl⟩
    rw [if_pos h1, if_pos h1, if_pos (by omega), if_neg (by omega)]
    exact ⟨rfl, rfl, by omega⟩

/-- C90: `poly_chknorm` returns 0 exactly when every coefficient is below the bound in absolute value, and 1 otherwise. -/
theorem C90_chknorm (a : VPoly) (B : Int) (hB : 0 ≤ B ∧ B ≤ 1047552) (ha : ∀ i, ti a i ≠ -2 ^ 31) :
    polyChknormV a B = if ∀ i, |ti a i| < B then 0 else 1 := by
  have hl : ∀ i, -2147483648 < ti a i := fun i => by
    have := ha i
    have h2 : -2147483648 ≤ ti a i := BitVec.le_toInt (a i)
    norm_num at this
    omega
  obtain ⟨h1, h2⟩ := polyChknormV_iff a B ⟨by omega, hB.2⟩ hl
  split
  · rename_i h; exact h1.2 h
  · rename_i h; exact h2.resolve_left fun e => h (h1.1 e)

/-- C90: a bound above `(q-1)/8` is always reported as exceeded, as in the portable code. -/
theorem C90_chknorm_large (a : VPoly) (B : Int) (hB : 1047552 < B) : polyChknormV a B = 1 := by
  unfold polyChknormV; rw [if_pos (by omega)]

/-- C90: `poly_make_hint` counts the coefficients for which the portable `make_hint` gives 1, writes their positions in increasing order
to the start of the hint array, and never writes beyond its 256 bytes. -/
theorem C90_make_hint (a0 a1 : VPoly) (hint : Nat → UInt8) (h0 : ∀ k, ti a0 k ≠ -2 ^ 31) (h1 : ∀ k, 0 ≤ ti a1 k) :
    ∃ L : List (Fin 256), L = (List.finRange 256).filter (fun k => Dilithium.makeHint (ti a0 k) (ti a1 k) = 1) ∧
      (makeHintAvx a0 a1 hint).2 = L.length ∧ (∀ j (hj : j < L.length), ((makeHintAvx a0 a1 hint).1 j).toNat = (L[j]).1) ∧
      (∀ n, 256 ≤ n → (makeHintAvx a0 a1 hint).1 n = hint n) := by
  refine ⟨_, rfl, ?_⟩
  have hl : ∀ k, -2147483648 < ti a0 k := fun k => by
    have := h0 k
    have h2 : -2147483648 ≤ ti a0 k := BitVec.le_toInt (a0 k)
    norm_num at this
    omega
  obtain ⟨m1, m2, m3⟩ := makeHintAvx_spec a0 a1 hint hl h1
  have e : hintPos a0 a1 256 = ((List.finRange 256).filter (fun k => Dilithium.makeHint (ti a0 k) (ti a1 k) = 1)).map Fin.val := by
    unfold hintPos
    rw [← List.map_coe_finRange_eq_range, List.filter_map]
    refine congrArg (List.map Fin.val) (List.filter_congr fun k _ => ?_)
    have hk : Fin.ofNat 256 k.1 = k := Fin.ext (Nat.mod_eq_of_lt k.2)
    simp only [Function.comp_apply, hk]
  rw [e] at m1 m2
  rw [List.length_map] at m1
  refine ⟨m1, fun j hj => ?_, m3⟩
  rw [m2 j (by rw [List.length_map, List.length_map]; exact hj), List.getElem_map, List.getElem_map, UInt8.toNat_ofNat']
  exact Nat.mod_eq_of_lt (Fin.is_lt _)

-- A coefficient 190464 has low part 0 and high part 1: with a hint the AVX2 code says 2, the specification (and the portable code) says 0.
example : ti (polyUseHintV (fun _ => 190464#32) (fun _ => 1#32)) 0 = 2 ∧ Spec.useHint 1 190464 = 0 ∧ Dilithium.useHint wrapSem 190464 1 = 0 := by
  have t1 : ∀ i, ti (fun _ => 190464#32) i = 190464 := fun _ => (by decide : (190464#32).toInt = 190464)
  have t2 : ∀ i, ti (fun _ => 1#32) i = 1 := fun _ => (by decide : (1#32).toInt = 1)
  have := (C90_use_hint (fun _ => 190464#32) (fun _ => 1#32) (fun i => by rw [t1 i]; omega) (fun i => Or.inr (t2 i)) 0).2 ⟨t2 0, by rw [t1]; decide⟩
  refine ⟨?_, by decide, by decide⟩
  rw [this.1, t1]; decide

example : ti (polyReduceV fun _ => BitVec.ofInt 32 2143289343) 5 = 6283008 ∧ ti (polyCaddqV fun _ => BitVec.ofInt 32 (-1)) 7 = 8380416 := by decide +kernel

/-! ## C91: samplers -/

theorem accUniform_def (buf : Nat → UInt8) (n : Nat) : accUniform buf 0 n = (((List.range n).map fun k =>
      (((buf (3 * k)).toNat + 256 * (buf (3 * k + 1)).toNat + 65536 * (buf (3 * k + 2)).toNat) % 2 ^ 23 : Int)).filter fun t => decide (t < 8380417)) := by
  unfold accUniform cand
  simp only [List.range_eq_range', Int.reducePow, Nat.cast_ofNat, Int.natCast_emod, Nat.cast_add, Nat.cast_mul, Q]

theorem toInt_ofInt_small (x : Int) (h : -8388608 ≤ x ∧ x < 8388608) : (BitVec.ofInt 32 x).toInt = x := by
  rw [BitVec.toInt_ofInt]
  unfold Int.bmod
  dsimp only
  split <;> omega

theorem holds_out {r0 r : Nat → Avx2.W32} {ctr : Nat} {L : List Int} (hL : ∀ x ∈ L, -8388608 ≤ x ∧ x < 8388608) (h : Holds r0 r ctr L) :
    ctr = L.length ∧ (∀ j (hj : j < L.length), (r j).toInt = L[j]) ∧ (∀ n, 256 ≤ n → r n = r0 n) := by
  refine ⟨h.len.symm, fun j hj => ?_, h.frame⟩
  rw [h.get j (by rw [enc_length]; exact hj)]
  unfold enc
  rw [List.getElem_map]
  exact toInt_ofInt_small _ (hL _ (List.getElem_mem hj))

theorem acc_small (buf : Nat → UInt8) (n m : Nat) : ∀ x ∈ (accUniform buf 0 n).take m, -8388608 ≤ x ∧ x < 8388608 := by
  intro x hx
  have hm := List.mem_of_mem_take hx
  unfold accUniform at hm
  obtain ⟨k, _, hk⟩ := List.mem_map.1 (List.mem_filter.1 hm).1
  have := cand_range buf k
  omega

theorem accEta_small (buf : Nat → UInt8) (n m : Nat) : ∀ x ∈ (accEta buf 0 n).take m, -8388608 ≤ x ∧ x < 8388608 := by
  intro x hx
  have hm := List.mem_of_mem_take hx
  unfold accEta at hm
  obtain ⟨k, _, rfl⟩ := List.mem_map.1 hm
  omega

theorem accEta_def (buf : Nat → UInt8) (n : Nat) : accEta buf 0 n =
    ((((List.range n).map fun k => if k % 2 = 0 then (buf (k / 2)).toNat % 16 else (buf (k / 2)).toNat / 16).filter
        fun t => decide (t < 15)).map fun t => 2 - ((t % 5 : Nat) : Int)) := by
  unfold accEta nib
  simp only [List.range_eq_range']

/-- C91: `rej_uniform_avx` on any 840 bytes: it returns the number of accepted candidates (at most 256), leaves them in order at the start of the
array, and writes no cell beyond the polynomial. -/
theorem C91_rej_uniform (buf : Nat → UInt8) (r : Nat → Avx2.W32) :
    ∃ L : List Int, L = ((((List.range 280).map fun k =>
      (((buf (3 * k)).toNat + 256 * (buf (3 * k + 1)).toNat + 65536 * (buf (3 * k + 2)).toNat) % 2 ^ 23 : Int)).filter fun t => decide (t < 8380417)).take 256) ∧
      (rejUniformAvx buf r).2 = L.length ∧ (∀ j (hj : j < L.length), ((rejUniformAvx buf r).1 j).toInt = L[j]) ∧
      (∀ n, 256 ≤ n → (rejUniformAvx buf r).1 n = r n) := by
  rw [← accUniform_def]
  exact ⟨_, rfl, holds_out (acc_small buf 280 256) (rejUniformAvx_spec buf r)⟩

/-- C91: `rej_eta_avx` on any 136 bytes, likewise. -/
theorem C91_rej_eta (buf : Nat → UInt8) (r : Nat → Avx2.W32) :
    ∃ L : List Int, L = (((((List.range 272).map fun k => if k % 2 = 0 then (buf (k / 2)).toNat % 16 else (buf (k / 2)).toNat / 16).filter
        fun t => decide (t < 15)).map fun t => 2 - ((t % 5 : Nat) : Int)).take 256) ∧
      (rejEtaAvx buf r).2 = L.length ∧ (∀ j (hj : j < L.length), ((rejEtaAvx buf r).1 j).toInt = L[j]) ∧
      (∀ n, 256 ≤ n → (rejEtaAvx buf r).1 n = r n) := by
  rw [← accEta_def]
  exact ⟨_, rfl, holds_out (accEta_small buf 272 256) (rejEtaAvx_spec buf r)⟩

/-- C91: the four-way samplers return, for any contents `J` of uninitialised memory, exactly the four polynomials of the portable samplers, and
they return exactly when all four portable calls return. -/
theorem C91_four_way (H : Shake) (J : Junk) (seed : Bytes) (nonce : Fin 4 → UInt16) :
    (seed.length = 32 → (polyUniform4x H J seed nonce).map (fun v k => ti (v k)) = forVec fun k => polyUniform C H seed (nonce k)) ∧
    (seed.length = 64 → (polyUniformEta4x H J seed nonce).map (fun v k => ti (v k)) = forVec fun k => polyUniformEta C H seed (nonce k)) ∧
    (seed.length = 64 → ∀ k, ti (polyUniformGamma14x H J seed nonce k) = polyUniformGamma1 C H seed (nonce k)) := by
  have key : ∀ (f : Fin 4 → Option Poly), (∀ k p, f k = some p → ∀ i, -2147483648 ≤ p i ∧ p i ≤ 2147483647) →
      ((forVec f).map fun v k => ofP (v k)).map (fun v k => ti (v k)) = forVec f := by
    intro f hf
    cases h : forVec f with
    | none => rfl
    | some v =>
      simp only [Option.map_some, Option.some.injEq]
      funext k
      exact ti_ofP _ (hf k _ (Dilithium.forVec_some _ _ h k))
  refine ⟨fun hs => ?_, fun hs => ?_, fun hs k => polyUniformGamma14x_eq H J seed hs nonce k⟩
  · rw [polyUniform4x_eq (C := C) H J seed hs nonce]
    exact key _ fun k p hp i => by have := polyUniform_range H seed _ p hp i; simp only [Q] at this; omega
  · rw [polyUniformEta4x_eq (C := C) H J seed hs nonce]
    exact key _ fun k p hp i => by have := polyUniformEta_range H seed _ p hp i; omega

-- Four calls do return.
example (J : Junk) (nonce : Fin 4 → UInt16) : (polyUniform4x toyH J (List.replicate 32 0) nonce).map (fun v k => ti (v k)) = some fun _ _ => 1 := by
  rw [(C91_four_way (C := wrapSem) toyH J (List.replicate 32 0) nonce).1 (List.length_replicate)]
  exact forVec_intro _ _ fun i => toy_uniform _ _

/-! ## C92: packings -/

/-- C92: `polyz_unpack` on any memory: coefficient `i` is `2^17` minus the 18-bit field `i` of the 576 bytes, whatever lies behind them. -/
theorem C92_polyz_unpack (m : Nat → UInt8) (b : Bytes) (hb : b.length = 576) (hm : ∀ k (h : k < b.length), m k = b[k]) :
    ti (polyzUnpackV m) = polyzUnpack C b ∧ ∀ i : Fin 256, Spec.IsField 18 b i.1 (2 ^ 17 - ti (polyzUnpackV m) i) := by
  have e := polyzUnpackV_int (C := C) m b (by omega) fun k hk => by rw [hm k (by omega), List.getD_eq_getElem _ _ (by omega)]
  refine ⟨e, fun i => ?_⟩
  rw [e]
  exact polyz_field (C := C) b (by omega) i

/-- C92: `polyw1_pack` writes the 192 bytes of the portable packing and otherwise changes only the 8 bytes behind them. -/
theorem C92_polyw1_pack (r : Nat → UInt8) (off : Nat) (a : VPoly) (ha : ∀ i, 0 ≤ ti a i ∧ ti a i < 2 ^ 6) :
    ((List.range 192).map fun n => polyw1PackV r off a (off + n)) = polyw1Pack (ti a) ∧
    (∀ n, n < off ∨ off + 192 + 8 ≤ n → polyw1PackV r off a n = r n) := by
  obtain ⟨h1, h2⟩ := polyw1PackV_spec r off a (fun i => by have := ha i; omega)
  have hl : (polyw1Pack (ti a)).length = 192 := polyw1Pack_len _
  refine ⟨?_, fun n hn => h2 n (by omega)⟩
  apply List.ext_getElem
  · rw [List.length_map, List.length_range, hl]
  · intro n h3 h4
    rw [List.getElem_map, List.getElem_range, h1 n (by omega), List.getD_eq_getElem _ _ h4]

example : ti (polyzUnpackV fun _ => 255) 3 = 131072 - 262143 ∧ polyw1PackV (fun _ => 7) 2 (fun _ => 1#32) 1 = 7 := by decide +kernel

end Verif.Props
