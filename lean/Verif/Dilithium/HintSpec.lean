import Verif.Dilithium.KeyPack

/-!
# The hint encoding in plain words
-/

namespace Verif.Dilithium

namespace Spec

/-- The end of the index list of polynomial `k - 1` in a hint encoding: byte `80 + (k - 1)`. -/
def hintEnd (b : Bytes) (k : Nat) : Nat := if k = 0 then 0 else b[79 + k]!.toNat

/-- A canonical hint encoding: the four counters are non-decreasing and at most `ω = 80`, the indices of each polynomial are strictly
increasing, unused index bytes are zero. -/
def CanonicalHint (b : Bytes) : Prop :=
  (∀ k < 4, hintEnd b k ≤ hintEnd b (k + 1)) ∧ hintEnd b 4 ≤ 80 ∧
  (∀ k < 4, ∀ j, hintEnd b k ≤ j → j + 1 < hintEnd b (k + 1) → b[j]!.toNat < b[j + 1]!.toNat) ∧
  (∀ j, hintEnd b 4 ≤ j → j < 80 → b[j]! = 0)

/-- The hint vector that an encoding denotes: 1 at the listed indices. -/
def DenotesHint (b : Bytes) (h : Fin 4 → Fin 256 → Int) : Prop :=
  ∀ k i, (h k i = 0 ∨ h k i = 1) ∧ (h k i = 1 ↔ ∃ j, hintEnd b k.1 ≤ j ∧ j < hintEnd b (k.1 + 1) ∧ b[j]!.toNat = i.1)

end Spec

variable {C : CSem}

theorem mem_seg (b : Bytes) (k hi x : Nat) (h : hi ≤ b.length) : x ∈ seg b k hi ↔ ∃ j, k ≤ j ∧ j < hi ∧ b[j]!.toNat = x := by
  unfold seg
  rw [List.mem_map]
  constructor
  · rintro ⟨y, hy, rfl⟩
    obtain ⟨n, hn, rfl⟩ := List.mem_iff_getElem.1 hy
    simp only [List.length_drop, List.length_take] at hn
    refine ⟨k + n, by omega, by omega, ?_⟩
    rw [List.getElem_drop, List.getElem_take, getElem!_pos b (k + n) (by omega)]
  · rintro ⟨j, h1, h2, rfl⟩
    refine ⟨b[j]!, ?_, rfl⟩
    rw [List.mem_iff_getElem]
    refine ⟨j - k, by simp only [List.length_drop, List.length_take]; omega, ?_⟩
    rw [List.getElem_drop, List.getElem_take, getElem!_pos b j (by omega)]
    congr 1
    omega

theorem inc_seg (b : Bytes) (k hi : Nat) (h : hi ≤ b.length) : Inc (seg b k hi) ↔ ∀ j, k ≤ j → j + 1 < hi → b[j]!.toNat < b[j + 1]!.toNat := by
  unfold Inc
  rw [← List.isChain_iff_pairwise, List.isChain_iff_getElem]
  have e : ∀ n (hn : n < (seg b k hi).length), (seg b k hi)[n] = b[k + n]!.toNat := by
    intro n hn
    have hl : k + n < hi := by
      rw [seg_len b k hi h] at hn
      omega
    simp only [seg]
    rw [List.getElem_map, List.getElem_drop, List.getElem_take, getElem!_pos b (k + n) (by omega)]
  have hl := seg_len b k hi h
  constructor
  · intro H j h1 h2
    have := H (j - k) (by omega)
    rw [e, e] at this
    rwa [show k + (j - k) = j by omega, show k + (j - k + 1) = j + 1 by omega] at this
  · intro H n hn
    rw [e, e]
    exact H (k + n) (by omega) (by omega)

/-- The hint decoder accepts exactly the canonical encodings, and returns what they denote. -/
theorem unpackHint_iff (b : Bytes) (hb : b.length = 84) (h : Vec) :
    unpackHint C b = some h ↔ Spec.CanonicalHint b ∧ Spec.DenotesHint b h := by
  rw [unpackHint_some b hb]
  have e0 : Spec.hintEnd b 0 = 0 := rfl
  have e1 : Spec.hintEnd b 1 = b[80]!.toNat := rfl
  have e2 : Spec.hintEnd b 2 = b[81]!.toNat := rfl
  have e3 : Spec.hintEnd b 3 = b[82]!.toNat := rfl
  have e4 : Spec.hintEnd b 4 = b[83]!.toNat := rfl
  have hi : ∀ (k lo : Nat) (p : Poly), k ≤ b.length → (p = ind (seg b lo k) ↔
      ∀ i : Fin 256, (p i = 0 ∨ p i = 1) ∧ (p i = 1 ↔ ∃ j, lo ≤ j ∧ j < k ∧ b[j]!.toNat = i.1)) := by
    intro k lo p hk
    rw [funext_iff]
    refine forall_congr' fun i => ?_
    unfold ind
    rw [← mem_seg b lo k _ hk]
    by_cases hmem : i.1 ∈ seg b lo k
    · rw [if_pos hmem]
      constructor
      · intro h; exact ⟨Or.inr h, fun _ => hmem, fun _ => h⟩
      · rintro ⟨-, h⟩; exact h.2 hmem
    · rw [if_neg hmem]
      constructor
      · intro h; exact ⟨Or.inl h, fun h1 => by omega, fun h => absurd h hmem⟩
      · rintro ⟨h1 | h1, h⟩
        · exact h1
        · exact absurd (h.1 h1) hmem
  constructor
  · intro o
    have l3 := o.m3; have l2 := o.m2; have l1 := o.m1; have l0 := o.m0
    refine ⟨⟨?_, by rw [e4]; exact o.m3, ?_, by rw [e4]; exact o.zero⟩, ?_⟩
    · intro k hk
      match k, hk with
      | 0, _ => rw [e0]; omega
      | 1, _ => rw [e1, e2]; exact o.m0
      | 2, _ => rw [e2, e3]; exact o.m1
      | 3, _ => rw [e3, e4]; exact o.m2
    · intro k hk
      match k, hk with
      | 0, _ => rw [e0, e1]; exact (inc_seg b _ _ (by omega)).1 o.i0
      | 1, _ => rw [e1, e2]; exact (inc_seg b _ _ (by omega)).1 o.i1
      | 2, _ => rw [e2, e3]; exact (inc_seg b _ _ (by omega)).1 o.i2
      | 3, _ => rw [e3, e4]; exact (inc_seg b _ _ (by omega)).1 o.i3
    · intro k
      match k with
      | 0 => exact (hi (b[80]!.toNat) (0) (h 0) (by omega)).1 o.h0
      | 1 => exact (hi (b[81]!.toNat) (b[80]!.toNat) (h 1) (by omega)).1 o.h1
      | 2 => exact (hi (b[82]!.toNat) (b[81]!.toNat) (h 2) (by omega)).1 o.h2
      | 3 => exact (hi (b[83]!.toNat) (b[82]!.toNat) (h 3) (by omega)).1 o.h3
  · rintro ⟨⟨hm, h80, hinc, hz⟩, hd⟩
    have m0 := hm 1 (by omega); have m1 := hm 2 (by omega); have m2 := hm 3 (by omega)
    rw [e1, e2] at m0
    rw [e2, e3] at m1
    rw [e3, e4] at m2
    rw [e4] at h80
    have i0 := hinc 0 (by omega); have i1 := hinc 1 (by omega); have i2 := hinc 2 (by omega); have i3 := hinc 3 (by omega)
    exact {
      m0 := m0, m1 := m1, m2 := m2, m3 := h80
      i0 := (inc_seg b _ _ (by omega)).2 i0
      i1 := (inc_seg b _ _ (by omega)).2 i1
      i2 := (inc_seg b _ _ (by omega)).2 i2
      i3 := (inc_seg b _ _ (by omega)).2 i3
      h0 := (hi (b[80]!.toNat) (0) (h 0) (by omega)).2 (hd 0)
      h1 := (hi (b[81]!.toNat) (b[80]!.toNat) (h 1) (by omega)).2 (hd 1)
      h2 := (hi (b[82]!.toNat) (b[81]!.toNat) (h 2) (by omega)).2 (hd 2)
      h3 := (hi (b[83]!.toNat) (b[82]!.toNat) (h 3) (by omega)).2 (hd 3)
      zero := hz }

theorem unpackHint_none (b : Bytes) (hb : b.length = 84) : unpackHint C b = none ↔ ¬ Spec.CanonicalHint b := by
  constructor
  · intro h hc
    classical
    have := (unpackHint_iff (C := C) b hb (fun k i => if ∃ j, Spec.hintEnd b k.1 ≤ j ∧ j < Spec.hintEnd b (k.1 + 1) ∧ b[j]!.toNat = i.1 then 1 else 0)).2
      ⟨hc, fun k i => by dsimp only; split <;> simp_all⟩
    rw [h] at this
    cases this
  · intro h
    cases hu : unpackHint C b with
    | none => rfl
    | some v => exact absurd ((unpackHint_iff b hb v).1 hu).1 h

end Verif.Dilithium
