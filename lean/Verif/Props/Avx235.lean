import Verif.Avx235.SampleLemmas
import Verif.Avx235.HintLemmas
import Verif.Dilithium35.Toy

/-!
# Properties C122, C123: the AVX2 rounding, packings and samplers of Dilithium3 and Dilithium5

`ti a` are the coefficients of a vector polynomial read as signed integers.  The functions are those of
pqclean/crypto_sign/dilithium{3,5}/avx2/poly.c, rounding.c and rejsample.c, in terms of the compiler intrinsics of `Verif/Avx2/Intrin.lean`.
-/

namespace Verif.Props
open Verif.Avx2 (ti VPoly Junk)
open Verif.Avx235
open Verif.Dilithium (CSem Shake Poly wrapSem forVec)
open Verif.Dilithium35 (Mode)
open Verif (Bytes)

variable {C : CSem}

/-! ## C122: rounding -/

/-- C122: `poly_decompose` is Decompose of the specification (`α = (q-1)/16`) on standard representatives. -/
theorem C122_decompose (a : VPoly) (h : ∀ i, 0 ≤ ti a i ∧ ti a i < 8380417) (i : Fin 256) :
    (ti (polyDecomposeV a).1 i, ti (polyDecomposeV a).2 i) = Dilithium35.Spec.decompose (ti a i) := by
  have d := polyDecomposeV_int (C := wrapSem) a h
  rw [d.1, d.2]
  exact Dilithium35.decompose_eq (C := wrapSem) _ (h i).1 (h i).2

/-- C122: `poly_use_hint` is UseHint, except where the hint is 1 and the low part is exactly 0: there the specification goes down, the AVX2 code
goes up, and the two results differ. -/
theorem C122_use_hint (a h : VPoly) (ha : ∀ i, 0 ≤ ti a i ∧ ti a i < 8380417) (hh : ∀ i, ti h i = 0 ∨ ti h i = 1) (i : Fin 256) :
    (¬ (ti h i = 1 ∧ Dilithium35.Spec.lowBits (ti a i) = 0) → ti (polyUseHintV a h) i = Dilithium35.Spec.useHint (ti h i) (ti a i)) ∧
    (ti h i = 1 ∧ Dilithium35.Spec.lowBits (ti a i) = 0 →
      ti (polyUseHintV a h) i = (Dilithium35.Spec.highBits (ti a i) + 1) % 16 ∧
      Dilithium35.Spec.useHint (ti h i) (ti a i) = (Dilithium35.Spec.highBits (ti a i) - 1) % 16 ∧
      ti (polyUseHintV a h) i ≠ Dilithium35.Spec.useHint (ti h i) (ti a i)) := by
  rw [polyUseHintV_int a h ha hh]
  dsimp only
  unfold useHintA Dilithium35.Spec.useHint
  generalize Dilithium35.Spec.lowBits (ti a i) = l
  generalize Dilithium35.Spec.highBits (ti a i) = g
  constructor
  · intro hn
    split
    · rename_i h1
      have : l ≠ 0 := fun e => hn ⟨h1, e⟩
      split <;> split <;> first | rfl | omega
    · rfl
  · rintro ⟨h1, rfl⟩
    rw [if_pos h1, if_pos h1, if_pos (by omega), if_neg (by omega)]
    exact ⟨rfl, rfl, by omega⟩

/-- C122: `poly_make_hint` counts the coefficients for which the portable `make_hint` gives 1, writes their positions in increasing order
to the start of the hint array, and never writes beyond its 256 bytes. -/
theorem C122_make_hint (a0 a1 : VPoly) (hint : Nat → UInt8) (h0 : ∀ k, ti a0 k ≠ -2 ^ 31) (h1 : ∀ k, 0 ≤ ti a1 k) :
    ∃ L : List (Fin 256), L = (List.finRange 256).filter (fun k => Dilithium35.makeHint (ti a0 k) (ti a1 k) = 1) ∧
      (makeHintAvx a0 a1 hint).2 = L.length ∧ (∀ j (hj : j < L.length), ((makeHintAvx a0 a1 hint).1 j).toNat = (L[j]).1) ∧
      (∀ n, 256 ≤ n → (makeHintAvx a0 a1 hint).1 n = hint n) := by
  refine ⟨_, rfl, ?_⟩
  have hl : ∀ k, -2147483648 < ti a0 k := fun k => by
    have := h0 k
    have h2 : -2147483648 ≤ ti a0 k := BitVec.le_toInt (a0 k)
    norm_num at this
    omega
  obtain ⟨m1, m2, m3⟩ := makeHintAvx_spec a0 a1 hint hl h1
  have e : hintPos a0 a1 256 = ((List.finRange 256).filter (fun k => Dilithium35.makeHint (ti a0 k) (ti a1 k) = 1)).map Fin.val := by
    unfold hintPos
    rw [← List.map_coe_finRange_eq_range, List.filter_map]
    refine congrArg (List.map Fin.val) (List.filter_congr fun k _ => ?_)
    have hk : Fin.ofNat 256 k.1 = k := Fin.ext (Nat.mod_eq_of_lt k.2)
    simp only [Function.comp_apply, hk]
  rw [e] at m1 m2
  rw [List.length_map] at m1
  refine ⟨m1, fun j hj => ?_, m3⟩
  rw [m2 j (by rw [List.length_map, List.length_map]; exact hj), List.getElem_map, List.getElem_map, UInt8.toNat_ofNat']
  exact Nat.mod_eq_of_lt (Fin.is_lt _)

-- A coefficient 523776 has low part 0 and high part 1: with a hint the AVX2 code says 2, the specification (and the portable code) says 0.
example : ti (polyUseHintV (fun _ => 523776#32) (fun _ => 1#32)) 0 = 2 ∧ Dilithium35.Spec.useHint 1 523776 = 0 ∧
    Dilithium35.useHint wrapSem 523776 1 = 0 := by
  have t1 : ∀ i, ti (fun _ => 523776#32) i = 523776 := fun _ => (by decide : (523776#32).toInt = 523776)
  have t2 : ∀ i, ti (fun _ => 1#32) i = 1 := fun _ => (by decide : (1#32).toInt = 1)
  have := (C122_use_hint (fun _ => 523776#32) (fun _ => 1#32) (fun i => by rw [t1 i]; omega) (fun i => Or.inr (t2 i)) 0).2 ⟨t2 0, by rw [t1]; decide⟩
  refine ⟨?_, by decide, by decide⟩
  rw [this.1, t1]; decide

-- The last step of the high part wraps round to 0; the bound of `make_hint` on the low side.
example : ti (polyDecomposeV fun _ => 8380416#32).1 3 = 0 ∧ ti (polyDecomposeV fun _ => 8380416#32).2 3 = -1 ∧
    (makeHintAvx (fun _ => BitVec.ofInt 32 (-261888)) (fun _ => 0#32) fun _ => 7).2 = 0 ∧
    (makeHintAvx (fun _ => BitVec.ofInt 32 (-261888)) (fun _ => 1#32) fun _ => 7).2 = 256 := by decide +kernel

/-! ## C123: packings and samplers -/

/-- C123: `polyz_unpack` on any memory: coefficient `i` is `2^19` minus the 20-bit field `i` of the 640 bytes, whatever lies behind them. -/
theorem C123_polyz_unpack (m : Nat → UInt8) (b : Bytes) (hb : b.length = 640) (hm : ∀ k (h : k < b.length), m k = b[k]) :
    ti (polyzUnpackV m) = Dilithium35.polyzUnpack C b ∧ ∀ i : Fin 256, Dilithium.Spec.IsField 20 b i.1 (2 ^ 19 - ti (polyzUnpackV m) i) := by
  have e := polyzUnpackV_int (C := C) m b (by omega) fun k hk => by rw [hm k (by omega), List.getD_eq_getElem _ _ (by omega)]
  refine ⟨e, fun i => ?_⟩
  rw [e]
  exact Dilithium35.polyz_field (C := C) b (by omega) i

/-- C123: `polyw1_pack` writes the 128 bytes of the portable packing, two coefficients a byte, and nothing else. -/
theorem C123_polyw1_pack (r : Nat → UInt8) (off : Nat) (a : VPoly) (ha : ∀ i, 0 ≤ ti a i ∧ ti a i < 2 ^ 4) :
    ((List.range 128).map fun n => polyw1PackV r off a (off + n)) = Dilithium35.polyw1Pack (ti a) ∧
    (∀ i : Fin 256, Dilithium.Spec.IsField 4 ((List.range 128).map fun n => polyw1PackV r off a (off + n)) i.1 (ti a i)) ∧
    (∀ n, n < off ∨ off + 128 ≤ n → polyw1PackV r off a n = r n) := by
  obtain ⟨h1, h2⟩ := polyw1PackV_spec r off a (fun i => by have := ha i; omega)
  have hl : (Dilithium35.polyw1Pack (ti a)).length = 128 := Dilithium35.polyw1Pack_len _
  have e : ((List.range 128).map fun n => polyw1PackV r off a (off + n)) = Dilithium35.polyw1Pack (ti a) := by
    apply List.ext_getElem
    · rw [List.length_map, List.length_range, hl]
    · intro n h3 h4
      rw [List.getElem_map, List.getElem_range, h1 n (by omega), List.getD_eq_getElem _ _ h4]
  refine ⟨e, fun i => ?_, h2⟩
  rw [e]
  exact Dilithium35.polyw1_field (ti a) (fun i => by have := ha i; omega) i

theorem accEta4_def (buf : Nat → UInt8) (n : Nat) : Dilithium35.accEta4 buf 0 n =
    ((((List.range n).map fun k => if k % 2 = 0 then (buf (k / 2)).toNat % 16 else (buf (k / 2)).toNat / 16).filter
        fun t => decide (t < 9)).map fun t : Nat => 4 - (t : Int)) := by
  unfold Dilithium35.accEta4 Dilithium.nib
  simp only [List.range_eq_range']

/-- C123: `rej_eta_avx` of dilithium3 on any 272 bytes: it returns the number of accepted nibbles (at most 256), leaves their values `4 - t` in
order at the start of the array, and writes no cell beyond the polynomial. -/
theorem C123_rej_eta (buf : Nat → UInt8) (r : Nat → Avx2.W32) :
    ∃ L : List Int, L = (((((List.range 544).map fun k => if k % 2 = 0 then (buf (k / 2)).toNat % 16 else (buf (k / 2)).toNat / 16).filter
        fun t => decide (t < 9)).map fun t : Nat => 4 - (t : Int)).take 256) ∧
      (rejEta4Avx buf r).2 = L.length ∧ (∀ j (hj : j < L.length), ((rejEta4Avx buf r).1 j).toInt = L[j]) ∧
      (∀ n, 256 ≤ n → (rejEta4Avx buf r).1 n = r n) := by
  rw [← accEta4_def]
  have hs : ∀ x ∈ (Dilithium35.accEta4 buf 0 544).take 256, -4 ≤ x ∧ x ≤ 4 := fun x hx => Dilithium35.accEta4_range _ _ _ x (List.mem_of_mem_take hx)
  have h := rejEta4Avx_spec buf r
  generalize (Dilithium35.accEta4 buf 0 544).take 256 = L at *
  refine ⟨L, rfl, h.len.symm, fun j hj => ?_, fun n hn => h.frame n hn⟩
  have := h.get j (by rw [Avx2.enc_length]; exact hj)
  rw [this]
  unfold Avx2.enc
  rw [List.getElem_map]
  have := hs _ (List.getElem_mem hj)
  generalize L[j] = x at *
  rw [BitVec.toInt_ofInt]
  unfold Int.bmod
  dsimp only
  split <;> omega

/-- C123: the four-way samplers of the secret coefficients and of the mask (and the single sampler of the mask) return, for any contents `J` of
uninitialised memory, exactly the polynomials of the portable samplers, and they return exactly when all four portable calls return. -/
theorem C123_four_way (md : Mode) (H : Shake) (J : Junk) (seed : Bytes) (nonce : Fin 4 → UInt16) (hs : seed.length = 64) :
    (polyUniformEta4x md H J seed nonce).map (fun v k => ti (v k)) = (forVec fun k => Dilithium35.polyUniformEta md C H seed (nonce k)) ∧
    (∀ k, ti (polyUniformGamma14x H J seed nonce k) = Dilithium35.polyUniformGamma1 C H seed (nonce k)) ∧
    (∀ n, ti (polyUniformGamma1 H J seed n) = Dilithium35.polyUniformGamma1 C H seed n) := by
  refine ⟨?_, fun k => polyUniformGamma14x_eq H J seed hs nonce k, fun n => polyUniformGamma1_eq H J seed hs n⟩
  rw [polyUniformEta4x_eq (C := C) md H J seed hs nonce]
  cases h : forVec fun k => Dilithium35.polyUniformEta md C H seed (nonce k) with
  | none => rfl
  | some v =>
    simp only [Option.map_some, Option.some.injEq]
    funext k
    refine Avx2.ti_ofP _ fun i => ?_
    have := Dilithium35.polyUniformEta_range md H seed _ _ (Dilithium.forVec_some _ _ h k) i
    have e : md.ETA = 2 ∨ md.ETA = 4 := by cases md <;> decide
    omega

example : ti (polyzUnpackV fun _ => 255) 3 = 524288 - 1048575 ∧ polyw1PackV (fun _ => 7) 2 (fun _ => 1#32) 1 = 7 ∧
    polyw1PackV (fun _ => 7) 2 (fun _ => 1#32) 2 = 17 := by decide +kernel

-- Nibbles 0, 8, 0, 8, …: values 4, -4, 4, -4, …
example : ((rejEta4Avx (fun _ => 0x80) (fun _ => 0)).1 0).toInt = 4 ∧ ((rejEta4Avx (fun _ => 0x80) (fun _ => 0)).1 255).toInt = -4 := by
  obtain ⟨L, hL, hc, hv, -⟩ := C123_rej_eta (fun _ => 0x80) fun _ => 0
  have t : (((((List.range 544).map fun k => if k % 2 = 0 then (0x80 : UInt8).toNat % 16 else (0x80 : UInt8).toNat / 16).filter
        fun t => decide (t < 9)).map fun t : Nat => 4 - (t : Int)).take 256) = (List.range 256).map fun k => if k % 2 = 0 then 4 else -4 := by decide +kernel
  rw [t] at hL
  have hl : L.length = 256 := by rw [hL, List.length_map, List.length_range]
  refine ⟨(hv 0 (by omega)).trans ?_, (hv 255 (by omega)).trans ?_⟩ <;> simp [hL]

end Verif.Props
