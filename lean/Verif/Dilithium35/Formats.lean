import Verif.Dilithium35.Keys
import Verif.Dilithium.BitSpec
import Verif.Dilithium.HintSpec

/-!
# The formats of dilithium3 and dilithium5 in plain words

Bit fields of the coefficient formats, canonical hint encodings.
-/

namespace Verif.Dilithium35

namespace Spec

/-- The end of the index list of polynomial `k - 1` in a hint encoding: byte `ω + (k - 1)`. -/
def hintEnd (ω : Nat) (b : Bytes) (k : Nat) : Nat := if k = 0 then 0 else b[ω + (k - 1)]!.toNat

/-- A canonical hint encoding for `n` polynomials: the counters are non-decreasing and at most `ω`, the indices of each polynomial are strictly
increasing, unused index bytes are zero. -/
def CanonicalHint (n ω : Nat) (b : Bytes) : Prop :=
  (∀ k < n, hintEnd ω b k ≤ hintEnd ω b (k + 1)) ∧ hintEnd ω b n ≤ ω ∧
  (∀ k < n, ∀ j, hintEnd ω b k ≤ j → j + 1 < hintEnd ω b (k + 1) → b[j]!.toNat < b[j + 1]!.toNat) ∧
  (∀ j, hintEnd ω b n ≤ j → j < ω → b[j]! = 0)

/-- The hint vector that an encoding denotes: 1 at the listed indices. -/
def DenotesHint (n ω : Nat) (b : Bytes) (h : Fin n → Fin 256 → Int) : Prop :=
  ∀ k i, (h k i = 0 ∨ h k i = 1) ∧ (h k i = 1 ↔ ∃ j, hintEnd ω b k.1 ≤ j ∧ j < hintEnd ω b (k.1 + 1) ∧ b[j]!.toNat = i.1)

end Spec

open Verif.Dilithium (CSem Poly W32 U8 at8 wrapSem field_of_bits chunk_bit mem_seg inc_seg seg ind)
open Verif.Dilithium.Spec (IsField)

variable {C : CSem}

theorem hintEnd_eq (ω : Nat) (b : Bytes) (k : Nat) : Spec.hintEnd ω b k = cs ω b k := rfl

theorem ind_iff (b : Bytes) (k lo : Nat) (p : Poly) (hk : k ≤ b.length) : p = ind (seg b lo k) ↔
    ∀ i : Fin 256, (p i = 0 ∨ p i = 1) ∧ (p i = 1 ↔ ∃ j, lo ≤ j ∧ j < k ∧ b[j]!.toNat = i.1) := by
  rw [funext_iff]
  refine forall_congr' fun i => ?_
  unfold ind
  rw [← mem_seg b lo k _ hk]
  by_cases hmem : i.1 ∈ seg b lo k
  · rw [if_pos hmem]
    constructor
    · intro h; exact ⟨Or.inr h, fun _ => hmem, fun _ => h⟩
    · rintro ⟨-, h⟩; exact h.2 hmem
  · rw [if_neg hmem]
    constructor
    · intro h; exact ⟨Or.inl h, fun h1 => by omega, fun h => absurd h hmem⟩
    · rintro ⟨h1 | h1, h⟩
      · exact h1
      · exact absurd (h.1 h1) hmem

/-- The hint decoder accepts exactly the canonical encodings, and returns what they denote. -/
theorem unpackHint_iff (n ω : Nat) (b : Bytes) (hb : b.length = ω + n) (h : Vec n) :
    unpackHint C n ω b = some h ↔ Spec.CanonicalHint n ω b ∧ Spec.DenotesHint n ω b h := by
  rw [unpackHint_some b hb]
  unfold Spec.CanonicalHint Spec.DenotesHint
  simp only [hintEnd_eq]
  constructor
  · intro o
    have hle := o.cs_le
    refine ⟨⟨o.mono, hle n (le_refl _), ?_, o.zero⟩, ?_⟩
    · intro k hk
      exact (inc_seg b _ _ (by have := hle (k + 1) hk; omega)).1 (o.inc k hk)
    · intro k
      exact (ind_iff b _ _ (h k) (by have := hle (k.1 + 1) k.2; omega)).1 (o.val k)
  · rintro ⟨⟨hm, hω, hinc, hz⟩, hd⟩
    have hup : ∀ d j, j + d = n → cs ω b j ≤ ω := by
      intro d
      induction d with
      | zero => intro j hj; rw [show j = n by omega]; exact hω
      | succ d ih => intro j hj; exact le_trans (hm j (by omega)) (ih (j + 1) (by omega))
    have hle : ∀ j, j ≤ n → cs ω b j ≤ ω := fun j hj => hup (n - j) j (by omega)
    exact {
      mono := hm
      bound := fun j hj => hle (j + 1) hj
      inc := fun j hj => (inc_seg b _ _ (by have := hle (j + 1) hj; omega)).2 (hinc j hj)
      val := fun i => (ind_iff b _ _ (h i) (by have := hle (i.1 + 1) i.2; omega)).2 (hd i)
      zero := hz }

theorem unpackHint_none (n ω : Nat) (b : Bytes) (hb : b.length = ω + n) : unpackHint C n ω b = none ↔ ¬ Spec.CanonicalHint n ω b := by
  constructor
  · intro h hc
    classical
    have := (unpackHint_iff (C := C) n ω b hb
      (fun k i => if ∃ j, Spec.hintEnd ω b k.1 ≤ j ∧ j < Spec.hintEnd ω b (k.1 + 1) ∧ b[j]!.toNat = i.1 then 1 else 0)).2
      ⟨hc, fun k i => by dsimp only; split <;> simp_all⟩
    rw [h] at this
    cases this
  · intro h
    cases hu : unpackHint C n ω b with
    | none => rfl
    | some v => exact absurd ((unpackHint_iff n ω b hb v).1 hu).1 h

/-! ## Bit fields -/

set_option maxHeartbeats 4000000 in
theorem z_bits (a : Fin 5 → U8) (k : Fin 2) (t : Nat) (ht : t < 32) :
    (zUnpackChunk a k).getLsbD t = (decide (t < 20) && if h : (20 * k.1 + t) / 8 < 5 then (a ⟨(20 * k.1 + t) / 8, h⟩).getLsbD ((20 * k.1 + t) % 8) else false) := by
  unfold zUnpackChunk Dilithium.ext
  match k with
  | 0 | 1 => dsimp only [Matrix.cons_val]; interval_cases t <;> simp

set_option maxHeartbeats 4000000 in
theorem eta4_bits (a : Fin 1 → U8) (k : Fin 2) (t : Nat) (ht : t < 32) :
    (eta4UnpackChunk a k).getLsbD t = (decide (t < 4) && if h : (4 * k.1 + t) / 8 < 1 then (a ⟨(4 * k.1 + t) / 8, h⟩).getLsbD ((4 * k.1 + t) % 8) else false) := by
  unfold eta4UnpackChunk Dilithium.ext
  match k with
  | 0 | 1 => dsimp only [Matrix.cons_val]; interval_cases t <;> simp

set_option maxHeartbeats 4000000 in
theorem w1_bits (a : Fin 1 → U8) (k : Fin 2) (t : Nat) (ht : t < 32) :
    (w1UnpackChunk a k).getLsbD t = (decide (t < 4) && if h : (4 * k.1 + t) / 8 < 1 then (a ⟨(4 * k.1 + t) / 8, h⟩).getLsbD ((4 * k.1 + t) % 8) else false) := by
  unfold w1UnpackChunk Dilithium.ext
  match k with
  | 0 | 1 => dsimp only [Matrix.cons_val]; interval_cases t <;> simp

theorem polyz_field (b : Bytes) (hb : 640 ≤ b.length) (i : Fin 256) : IsField 20 b i.1 (GAMMA1 - polyzUnpack C b i) := by
  have hi := i.2
  have hr := z_un_range (fun j => at8 C b (5 * (i.1 / 2) + j.1)) ⟨i.1 % 2, by omega⟩
  unfold polyzUnpack
  rw [C.i32_id _ (by simp only [GAMMA1]; omega) (by simp only [GAMMA1]; omega), Int.sub_sub_self]
  refine field_of_bits 20 (by omega) b i.1 _ fun t ht => ?_
  rw [z_bits _ _ t ht]
  by_cases h : t < 20
  · have hlt : (20 * (i.1 % 2) + t) / 8 < 5 := by omega
    rw [dif_pos hlt, chunk_bit b (5 * (i.1 / 2)) 5 _ (by omega) hlt, show 8 * (5 * (i.1 / 2)) + (20 * (i.1 % 2) + t) = 20 * i.1 + t by omega]
  · simp [h]

theorem polyeta4_field (b : Bytes) (hb : 128 ≤ b.length) (i : Fin 256) : IsField 4 b i.1 (4 - polyeta4Unpack C b i) := by
  have hi := i.2
  have hr := eta4_un_range (fun j => at8 C b (1 * (i.1 / 2) + j.1)) ⟨i.1 % 2, by omega⟩
  unfold polyeta4Unpack
  rw [C.i32_id _ (by omega) (by omega), Int.sub_sub_self]
  refine field_of_bits 4 (by omega) b i.1 _ fun t ht => ?_
  rw [eta4_bits _ _ t ht]
  by_cases h : t < 4
  · have hlt : (4 * (i.1 % 2) + t) / 8 < 1 := by omega
    rw [dif_pos hlt, chunk_bit b (1 * (i.1 / 2)) 1 _ (by omega) hlt, show 8 * (1 * (i.1 / 2)) + (4 * (i.1 % 2) + t) = 4 * i.1 + t by omega]
  · simp [h]

theorem polyw1_field (a : Poly) (ha : ∀ i, 0 ≤ a i ∧ a i < 16) (i : Fin 256) : IsField 4 (polyw1Pack a) i.1 (a i) := by
  have hi := i.2
  have e := polyw1_un_pk (C := wrapSem) a [] ha
  rw [List.append_nil] at e
  conv => arg 4; rw [← e]
  have hb : (polyw1Pack a).length = 128 := polyw1Pack_len a
  unfold polyw1Unpack
  refine field_of_bits 4 (by omega) (polyw1Pack a) i.1 _ fun t ht => ?_
  rw [w1_bits _ _ t ht]
  by_cases h : t < 4
  · have hlt : (4 * (i.1 % 2) + t) / 8 < 1 := by omega
    rw [dif_pos hlt, chunk_bit (polyw1Pack a) (1 * (i.1 / 2)) 1 _ (by omega) hlt, show 8 * (1 * (i.1 / 2)) + (4 * (i.1 % 2) + t) = 4 * i.1 + t by omega]
  · simp [h]

end Verif.Dilithium35
