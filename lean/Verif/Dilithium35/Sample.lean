import Verif.Dilithium35.Model
import Verif.Dilithium.Sample

/-! # What the samplers of dilithium3 and dilithium5 return -/

namespace Verif.Dilithium35

open Verif.Dilithium hiding polyUniformEta polyUniformEta_range polyChallenge polyChallenge_spec polyUniformGamma1 ChalInv chalStep_inv chalFold_inv

variable {C : CSem}

/-! ## Secret coefficients of dilithium3 -/

/-- The accepted nibbles and their values, among nibbles `p` to `p + n - 1`. -/
def accEta4 (s : Nat → UInt8) (p n : Nat) : List Int :=
  (((List.range' p n).map (nib s)).filter fun t => decide (t < 9)).map fun t : Nat => 4 - (t : Int)

theorem accEta4_cons (s : Nat → UInt8) (p n : Nat) :
    accEta4 s p (n + 1) = (if nib s p < 9 then [4 - (nib s p : Int)] else []) ++ accEta4 s (p + 1) n := by
  unfold accEta4
  rw [List.range'_succ, List.map_cons, List.filter_cons]
  by_cases h : nib s p < 9
  · rw [if_pos (by simpa using h), if_pos h, List.map_cons]; rfl
  · rw [if_neg (by simpa using h), if_neg h]; rfl

theorem rejEta4_squeeze (s : Nat → UInt8) (n len p : Nat) : rejEta4 len (squeeze s p n) = (accEta4 s (2 * p) (2 * n)).take len := by
  induction n generalizing len p with
  | zero => cases len <;> rfl
  | succ n ih =>
    cases len with
    | zero => rw [List.take_zero]; unfold rejEta4; rfl
    | succ len =>
      rw [squeeze_succ, show 2 * (n + 1) = 2 * n + 1 + 1 by omega, accEta4_cons, accEta4_cons]
      have e0 : nib s (2 * p) = (s p).toNat % 16 := by unfold nib; rw [if_pos (by omega), show 2 * p / 2 = p by omega]
      have e1 : nib s (2 * p + 1) = (s p).toNat / 16 := by unfold nib; rw [if_neg (by omega), show (2 * p + 1) / 2 = p by omega]
      rw [e0, e1, show 2 * p + 1 + 1 = 2 * (p + 1) by omega]
      unfold rejEta4
      simp only [ih]
      by_cases h0 : (s p).toNat % 16 < 9
      · by_cases h1 : (s p).toNat / 16 < 9
        · rw [if_pos h0, if_pos h0, if_pos h1]
          cases len with
          | zero => simp
          | succ len => simp [h1]
        · rw [if_pos h0, if_pos h0, if_neg h1, if_neg (fun h => h1 h.1)]
          simp
      · by_cases h1 : (s p).toNat / 16 < 9
        · rw [if_neg h0, if_neg h0, if_pos h1, if_pos h1]
          simp
        · rw [if_neg h0, if_neg h0, if_neg h1, if_neg h1]
          simp

theorem accEta4_append (s : Nat → UInt8) (n m : Nat) : accEta4 s 0 (n + m) = accEta4 s 0 n ++ accEta4 s n m := by
  unfold accEta4
  rw [← List.map_append, ← List.filter_append, ← List.map_append, ← List.range'_append_1, Nat.zero_add]

theorem etaLoop4_spec (s : Nat → UInt8) (acc : List Int) (pos : Nat) (r : List Int)
    (h : etaLoop4 s acc pos = some r) : acc = (accEta4 s 0 (2 * pos)).take 256 →
      ∃ m, r = (accEta4 s 0 m).take 256 ∧ r.length = 256 := by
  refine etaLoop4.partial_correctness s (motive := fun acc pos r => acc = (accEta4 s 0 (2 * pos)).take 256 →
      ∃ m, r = (accEta4 s 0 m).take 256 ∧ r.length = 256) ?_ acc pos r h
  intro f ih acc pos r h hacc
  split at h
  · refine ih _ _ _ h ?_
    rw [rejEta4_squeeze, show 2 * (pos + 136) = 2 * pos + 2 * 136 by omega, accEta4_append, take_extend, hacc]
  · cases h
    refine ⟨2 * pos, hacc, ?_⟩
    have : acc.length ≤ 256 := by rw [hacc, List.length_take]; omega
    omega

theorem accEta4_range (s : Nat → UInt8) (p n : Nat) : ∀ t ∈ accEta4 s p n, -4 ≤ t ∧ t ≤ 4 := by
  intro t ht
  unfold accEta4 at ht
  rw [List.mem_map] at ht
  obtain ⟨k, hk, rfl⟩ := ht
  rw [List.mem_filter] at hk
  have := hk.2
  simp only [decide_eq_true_eq] at this
  omega

/-- The accepted nibbles and their values, for either parameter set. -/
def Mode.acc (md : Mode) (s : Nat → UInt8) (n : Nat) : List Int := match md with | .three => accEta4 s 0 n | .five => accEta s 0 n

/-- `poly_uniform_eta`: the values of the first 256 accepted nibbles. -/
theorem polyUniformEta_spec (md : Mode) (H : Shake) (seed : Bytes) (nonce : UInt16) (p : Poly) (h : polyUniformEta md C H seed nonce = some p) :
    ∃ m, List.ofFn p = (md.acc (stream256 H seed nonce) m).take 256 := by
  cases md
  · unfold polyUniformEta at h
    simp only [Option.map_eq_some_iff] at h
    obtain ⟨r, hr, rfl⟩ := h
    obtain ⟨m, hm, hl⟩ := etaLoop4_spec _ _ _ _ hr (rejEta4_squeeze (stream256 H seed nonce) 272 256 0)
    refine ⟨m, ?_⟩
    show _ = (accEta4 _ 0 m).take 256
    rw [← hm]
    apply List.ext_getElem
    · rw [List.length_ofFn, hl]
    · intro j h1 h2
      rw [List.getElem_ofFn]
      unfold polyOfList
      exact List.getD_eq_getElem _ _ h2
  · exact Dilithium.polyUniformEta_spec H seed nonce p h

theorem polyUniformEta_range (md : Mode) (H : Shake) (seed : Bytes) (nonce : UInt16) (p : Poly) (h : polyUniformEta md C H seed nonce = some p) (i : Fin 256) :
    -md.ETA ≤ p i ∧ p i ≤ md.ETA := by
  obtain ⟨m, hm⟩ := polyUniformEta_spec md H seed nonce p h
  have hi : p i ∈ md.acc (stream256 H seed nonce) m := by
    apply List.mem_of_mem_take (i := 256)
    rw [← hm, List.mem_ofFn]
    exact ⟨i, rfl⟩
  cases md
  · exact accEta4_range _ _ _ _ hi
  · exact accEta_range _ _ _ _ hi

/-! ## The challenge -/

/-- The loop invariant of `poly_challenge` that starts at `m`, before iteration `i`. -/
structure ChalInv (m i : Nat) (c : Poly) : Prop where
  tern : ∀ j, c j = 0 ∨ c j = 1 ∨ c j = -1
  tail : ∀ j : Fin 256, i ≤ j.1 → c j = 0
  card : (supp c).card + m = i

theorem chalStep_inv (m : Nat) (s : Nat → UInt8) (i : Nat) (hi : i < 256) (x y : Poly × Nat × ChalSt) (hx : ChalInv m i x.1) (h : chalStep C s x i = some y) :
    ChalInv m (i + 1) y.1 := by
  obtain ⟨c, signs, st⟩ := x
  unfold chalStep at h
  simp only [Option.bind_eq_bind, Option.bind_eq_some_iff, Option.pure_def, Option.some.injEq] at h
  obtain ⟨⟨b, st'⟩, hb, rfl⟩ := h
  have hle := chalByte_le s i st _ hb
  simp only at hle hx ⊢
  obtain ⟨v, hv, hv'⟩ : ∃ v : Int, toI32 ((1 - 2 * ((signs % 2 : Nat) : Int)) % 18446744073709551616) = v ∧ (v = 1 ∨ v = -1) :=
    ⟨_, rfl, sign_val signs⟩
  rw [hv]
  obtain ⟨tern, tail, card⟩ := hx
  have hbl : b < 256 := by omega
  have hrd : rd C.oob c b = c ⟨b, hbl⟩ := by unfold rd; rw [dif_pos hbl]
  rw [hrd]
  have hval : ∀ j : Fin 256, wr (wr c i (c ⟨b, hbl⟩)) b v j = if j.1 = b then v else if j.1 = i then c ⟨b, hbl⟩ else c j := by
    intro j; unfold wr; rfl
  refine ⟨?_, ?_, ?_⟩
  · intro j
    rw [hval]
    split
    · rcases hv' with h | h <;> simp [h]
    · split
      · exact tern _
      · exact tern j
  · intro j hj
    rw [hval, if_neg (by omega), if_neg (by omega)]
    exact tail j (by omega)
  · have hne : v ≠ 0 := by rcases hv' with h | h <;> rw [h] <;> decide
    have hsupp : supp (wr (wr c i (c ⟨b, hbl⟩)) b v) = insert (if c ⟨b, hbl⟩ = 0 then ⟨b, hbl⟩ else ⟨i, hi⟩) (supp c) := by
      ext j
      unfold supp
      simp only [Finset.mem_insert, Finset.mem_filter, Finset.mem_univ, true_and]
      rw [hval]
      by_cases hj : j.1 = b
      · have : j = ⟨b, hbl⟩ := Fin.ext hj
        subst this
        by_cases hc : c ⟨b, hbl⟩ = 0 <;> simp [hc, hne]
      · have hj' : j ≠ ⟨b, hbl⟩ := fun h => hj (by rw [h])
        rw [if_neg hj]
        by_cases hji : j.1 = i
        · have : j = ⟨i, hi⟩ := Fin.ext hji
          subst this
          rw [if_pos rfl]
          by_cases hc : c ⟨b, hbl⟩ = 0
          · simp only [hc, if_true]
            simp [hj', tail ⟨i, hi⟩ (by simp)]
          · simp [hc]
        · rw [if_neg hji]
          have hji' : j ≠ ⟨i, hi⟩ := fun h => hji (by rw [h])
          split <;> simp [hj', hji']
    have hnot : (if c ⟨b, hbl⟩ = 0 then (⟨b, hbl⟩ : Fin 256) else ⟨i, hi⟩) ∉ supp c := by
      unfold supp
      simp only [Finset.mem_filter, Finset.mem_univ, true_and, not_not]
      split
      · assumption
      · exact tail _ (by simp)
    rw [hsupp, Finset.card_insert_of_notMem hnot]
    omega

theorem chalFold_inv (m : Nat) (s : Nat → UInt8) (n i : Nat) (hi : i + n ≤ 256) (x y : Poly × Nat × ChalSt) (hx : ChalInv m i x.1)
    (h : (List.range' i n).foldlM (chalStep C s) x = some y) : ChalInv m (i + n) y.1 := by
  induction n generalizing i x with
  | zero => cases h; exact hx
  | succ n ih =>
    rw [List.range'_succ, List.foldlM_cons] at h
    simp only [Option.bind_eq_bind, Option.bind_eq_some_iff] at h
    obtain ⟨z, hz, h⟩ := h
    have := ih (i + 1) (by omega) z (chalStep_inv m s i (by omega) x z hx hz) h
    rwa [show i + (n + 1) = i + 1 + n by omega]

theorem tau_le (md : Mode) : md.TAU ≤ 256 := by cases md <;> decide

theorem polyChallenge_spec (md : Mode) (H : Shake) (seed : Bytes) (c : Poly) (h : polyChallenge md C H seed = some c) :
    (∀ j, c j = 0 ∨ c j = 1 ∨ c j = -1) ∧ (supp c).card = md.TAU := by
  unfold polyChallenge at h
  simp only [Option.bind_eq_bind, Option.bind_eq_some_iff, Option.pure_def, Option.some.injEq] at h
  obtain ⟨⟨c', s', t'⟩, hf, rfl⟩ := h
  have ht := tau_le md
  have := chalFold_inv (256 - md.TAU) _ md.TAU (256 - md.TAU) (by omega) _ _ ⟨fun _ => Or.inl rfl, fun _ _ => rfl, by unfold supp; simp⟩ hf
  exact ⟨this.tern, by have := this.card; simp only at this ⊢; omega⟩

end Verif.Dilithium35
