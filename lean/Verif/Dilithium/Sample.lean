import Verif.Dilithium.Poly
import Mathlib.Data.Fintype.Card
import Mathlib.Data.Finset.Card

/-! # What the samplers of `poly.c` return -/

namespace Verif.Dilithium

variable {C : CSem}

/-- The `k`-th candidate for a uniform coefficient: 23 bits of the `k`-th group of three bytes. -/
def cand (s : Nat → UInt8) (k : Nat) : Int :=
  (((s (3 * k)).toNat + 256 * (s (3 * k + 1)).toNat + 65536 * (s (3 * k + 2)).toNat) % 8388608 : Nat)

/-- The accepted candidates among the first `n`. -/
def accUniform (s : Nat → UInt8) (p n : Nat) : List Int := ((List.range' p n).map (cand s)).filter fun t => decide (t < Q)

theorem squeeze_succ (s : Nat → UInt8) (pos n : Nat) : squeeze s pos (n + 1) = s pos :: squeeze s (pos + 1) n := by
  unfold squeeze
  rw [List.range_succ_eq_map, List.map_cons, List.map_map]
  congr 1
  apply List.map_congr_left
  intro x _
  simp only [Function.comp]
  congr 1
  omega

theorem squeeze_length (s : Nat → UInt8) (pos n : Nat) : (squeeze s pos n).length = n := by
  unfold squeeze; rw [List.length_map, List.length_range]

theorem rejUniform_squeeze (s : Nat → UInt8) (n len p : Nat) : rejUniform len (squeeze s (3 * p) (3 * n)) = (accUniform s p n).take len := by
  induction n generalizing len p with
  | zero =>
    cases len <;> rfl
  | succ n ih =>
    cases len with
    | zero => rw [List.take_zero]; unfold rejUniform; rfl
    | succ len =>
      rw [show 3 * (n + 1) = 3 * n + 1 + 1 + 1 by omega, squeeze_succ, squeeze_succ, squeeze_succ]
      have ih1 := ih len (p + 1)
      have ih2 := ih (len + 1) (p + 1)
      rw [show 3 * (p + 1) = 3 * p + 1 + 1 + 1 by omega] at ih1 ih2
      unfold rejUniform
      rw [ih1, ih2]
      unfold accUniform
      rw [List.range'_succ, List.map_cons, List.filter_cons]
      show (if cand s p < Q then _ else _) = _
      by_cases h : cand s p < Q
      · rw [if_pos h, if_pos (by simpa using h)]
        rfl
      · rw [if_neg h, if_neg (by simpa using h)]

theorem accUniform_append (s : Nat → UInt8) (n m : Nat) : accUniform s 0 (n + m) = accUniform s 0 n ++ accUniform s n m := by
  unfold accUniform
  rw [← List.filter_append, ← List.map_append, ← List.range'_append_1, Nat.zero_add]

theorem take_extend {α : Type} (A B : List α) (k : Nat) : (A ++ B).take k = A.take k ++ B.take (k - (A.take k).length) := by
  rw [List.take_append]
  congr 2
  rw [List.length_take]
  omega

theorem uniformLoop_spec (s : Nat → UInt8) (acc : List Int) (buf : Bytes) (pos : Nat) (r : List Int)
    (h : uniformLoop s acc buf pos = some r) : ∀ n, pos = 3 * n → buf.length % 3 = 0 → acc = (accUniform s 0 n).take 256 →
      ∃ m, r = (accUniform s 0 m).take 256 ∧ r.length = 256 := by
  refine uniformLoop.partial_correctness s (motive := fun acc buf pos r => ∀ n, pos = 3 * n → buf.length % 3 = 0 → acc = (accUniform s 0 n).take 256 →
      ∃ m, r = (accUniform s 0 m).take 256 ∧ r.length = 256) ?_ acc buf pos r h
  intro f ih acc buf pos r h n hpos hbuf hacc
  dsimp only at h
  split at h
  · rename_i hlt
    subst hpos
    rw [hbuf, Nat.sub_zero, List.drop_length, List.nil_append] at h
    refine ih _ _ _ _ h (n + 56) (by omega) (by rw [squeeze_length]) ?_
    rw [show (168 : Nat) = 3 * 56 by rfl, rejUniform_squeeze, accUniform_append, take_extend, hacc]
  · cases h
    refine ⟨n, hacc, ?_⟩
    have : acc.length ≤ 256 := by rw [hacc, List.length_take]; omega
    omega

/-- `poly_uniform`: the first 256 accepted candidates. -/
theorem polyUniform_spec (H : Shake) (seed : Bytes) (nonce : UInt16) (p : Poly) (h : polyUniform C H seed nonce = some p) :
    ∃ m, List.ofFn p = (accUniform (stream128 H seed nonce) 0 m).take 256 := by
  unfold polyUniform at h
  simp only [Option.map_eq_some_iff] at h
  obtain ⟨r, hr, rfl⟩ := h
  obtain ⟨m, hm, hl⟩ := uniformLoop_spec _ _ _ _ _ hr 280 rfl (by rw [squeeze_length])
    (rejUniform_squeeze (stream128 H seed nonce) 280 256 0)
  refine ⟨m, ?_⟩
  rw [← hm]
  apply List.ext_getElem
  · rw [List.length_ofFn, hl]
  · intro j h1 h2
    rw [List.getElem_ofFn]
    unfold polyOfList
    exact List.getD_eq_getElem _ _ h2

theorem accUniform_range (s : Nat → UInt8) (p n : Nat) : ∀ t ∈ accUniform s p n, 0 ≤ t ∧ t < Q := by
  intro t ht
  unfold accUniform at ht
  rw [List.mem_filter, List.mem_map] at ht
  obtain ⟨⟨k, -, rfl⟩, hq⟩ := ht
  refine ⟨?_, by simpa using hq⟩
  unfold cand
  omega

theorem polyUniform_range (H : Shake) (seed : Bytes) (nonce : UInt16) (p : Poly) (h : polyUniform C H seed nonce = some p) (i : Fin 256) :
    0 ≤ p i ∧ p i < Q := by
  obtain ⟨m, hm⟩ := polyUniform_spec H seed nonce p h
  apply accUniform_range (stream128 H seed nonce) 0 m
  apply List.mem_of_mem_take (i := 256)
  rw [← hm, List.mem_ofFn]
  exact ⟨i, rfl⟩

/-! ## Secret coefficients -/

/-- The `k`-th nibble, low nibble of each byte first. -/
def nib (s : Nat → UInt8) (k : Nat) : Nat := if k % 2 = 0 then (s (k / 2)).toNat % 16 else (s (k / 2)).toNat / 16

/-- The accepted nibbles and their values, among nibbles `p` to `p + n - 1`. -/
def accEta (s : Nat → UInt8) (p n : Nat) : List Int :=
  (((List.range' p n).map (nib s)).filter fun t => decide (t < 15)).map fun t => 2 - ((t % 5 : Nat) : Int)

theorem etaOf_eq (t : Nat) (h : t < 15) : etaOf t = 2 - ((t % 5 : Nat) : Int) := by
  unfold etaOf
  have : t - 205 * t / 1024 * 5 = t % 5 := by omega
  rw [this]

theorem accEta_cons (s : Nat → UInt8) (p n : Nat) :
    accEta s p (n + 1) = (if nib s p < 15 then [etaOf (nib s p)] else []) ++ accEta s (p + 1) n := by
  unfold accEta
  rw [List.range'_succ, List.map_cons, List.filter_cons]
  by_cases h : nib s p < 15
  · rw [if_pos (by simpa using h), if_pos h, List.map_cons, etaOf_eq _ h]; rfl
  · rw [if_neg (by simpa using h), if_neg h]; rfl

theorem rejEta_squeeze (s : Nat → UInt8) (n len p : Nat) : rejEta len (squeeze s p n) = (accEta s (2 * p) (2 * n)).take len := by
  induction n generalizing len p with
  | zero => cases len <;> rfl
  | succ n ih =>
    cases len with
    | zero => rw [List.take_zero]; unfold rejEta; rfl
    | succ len =>
      rw [squeeze_succ, show 2 * (n + 1) = 2 * n + 1 + 1 by omega, accEta_cons, accEta_cons]
      have e0 : nib s (2 * p) = (s p).toNat % 16 := by unfold nib; rw [if_pos (by omega), show 2 * p / 2 = p by omega]
      have e1 : nib s (2 * p + 1) = (s p).toNat / 16 := by unfold nib; rw [if_neg (by omega), show (2 * p + 1) / 2 = p by omega]
      rw [e0, e1, show 2 * p + 1 + 1 = 2 * (p + 1) by omega]
      unfold rejEta
      simp only [ih]
      by_cases h0 : (s p).toNat % 16 < 15
      · by_cases h1 : (s p).toNat / 16 < 15
        · rw [if_pos h0, if_pos h0, if_pos h1]
          cases len with
          | zero => simp
          | succ len => simp [h1]
        · rw [if_pos h0, if_pos h0, if_neg h1, if_neg (fun h => h1 h.1)]
          simp
      · by_cases h1 : (s p).toNat / 16 < 15
        · rw [if_neg h0, if_neg h0, if_pos h1, if_pos h1]
          simp
        · rw [if_neg h0, if_neg h0, if_neg h1, if_neg h1]
          simp

theorem accEta_append (s : Nat → UInt8) (n m : Nat) : accEta s 0 (n + m) = accEta s 0 n ++ accEta s n m := by
  unfold accEta
  rw [← List.map_append, ← List.filter_append, ← List.map_append, ← List.range'_append_1, Nat.zero_add]

theorem etaLoop_spec (s : Nat → UInt8) (acc : List Int) (pos : Nat) (r : List Int)
    (h : etaLoop s acc pos = some r) : acc = (accEta s 0 (2 * pos)).take 256 →
      ∃ m, r = (accEta s 0 m).take 256 ∧ r.length = 256 := by
  refine etaLoop.partial_correctness s (motive := fun acc pos r => acc = (accEta s 0 (2 * pos)).take 256 →
      ∃ m, r = (accEta s 0 m).take 256 ∧ r.length = 256) ?_ acc pos r h
  intro f ih acc pos r h hacc
  split at h
  · refine ih _ _ _ h ?_
    rw [rejEta_squeeze, show 2 * (pos + 136) = 2 * pos + 2 * 136 by omega, accEta_append, take_extend, hacc]
  · cases h
    refine ⟨2 * pos, hacc, ?_⟩
    have : acc.length ≤ 256 := by rw [hacc, List.length_take]; omega
    omega

/-- `poly_uniform_eta`: the values of the first 256 accepted nibbles. -/
theorem polyUniformEta_spec (H : Shake) (seed : Bytes) (nonce : UInt16) (p : Poly) (h : polyUniformEta C H seed nonce = some p) :
    ∃ m, List.ofFn p = (accEta (stream256 H seed nonce) 0 m).take 256 := by
  unfold polyUniformEta at h
  simp only [Option.map_eq_some_iff] at h
  obtain ⟨r, hr, rfl⟩ := h
  obtain ⟨m, hm, hl⟩ := etaLoop_spec _ _ _ _ hr (rejEta_squeeze (stream256 H seed nonce) 136 256 0)
  refine ⟨m, ?_⟩
  rw [← hm]
  apply List.ext_getElem
  · rw [List.length_ofFn, hl]
  · intro j h1 h2
    rw [List.getElem_ofFn]
    unfold polyOfList
    exact List.getD_eq_getElem _ _ h2

theorem accEta_range (s : Nat → UInt8) (p n : Nat) : ∀ t ∈ accEta s p n, -2 ≤ t ∧ t ≤ 2 := by
  intro t ht
  unfold accEta at ht
  rw [List.mem_map] at ht
  obtain ⟨k, -, rfl⟩ := ht
  omega

theorem polyUniformEta_range (H : Shake) (seed : Bytes) (nonce : UInt16) (p : Poly) (h : polyUniformEta C H seed nonce = some p) (i : Fin 256) :
    -2 ≤ p i ∧ p i ≤ 2 := by
  obtain ⟨m, hm⟩ := polyUniformEta_spec H seed nonce p h
  apply accEta_range (stream256 H seed nonce) 0 m
  apply List.mem_of_mem_take (i := 256)
  rw [← hm, List.mem_ofFn]
  exact ⟨i, rfl⟩

/-! ## The challenge -/

theorem chalByte_le (s : Nat → UInt8) (i : Nat) (st : ChalSt) (r : Nat × ChalSt) (h : chalByte C s i st = some r) : r.1 ≤ i := by
  refine chalByte.partial_correctness C s i (motive := fun _ r => r.1 ≤ i) ?_ st r h
  intro f ih st r h
  dsimp only at h
  generalize (if st.pos ≥ 136 then (⟨squeeze s st.off 136, 0, st.off + 136⟩ : ChalSt) else st) = st' at h
  split at h
  · exact ih _ _ h
  · cases h
    simp only
    omega

/-- Non-zero positions. -/
def supp (c : Poly) : Finset (Fin 256) := Finset.univ.filter fun i => c i ≠ 0

/-- The loop invariant of `poly_challenge` before iteration `i`. -/
structure ChalInv (i : Nat) (c : Poly) : Prop where
  tern : ∀ j, c j = 0 ∨ c j = 1 ∨ c j = -1
  tail : ∀ j : Fin 256, i ≤ j.1 → c j = 0
  card : (supp c).card + 217 = i

theorem sign_val (n : Nat) : toI32 ((1 - 2 * ((n % 2 : Nat) : Int)) % 18446744073709551616) = 1 ∨
    toI32 ((1 - 2 * ((n % 2 : Nat) : Int)) % 18446744073709551616) = -1 := by
  rcases Nat.mod_two_eq_zero_or_one n with h | h <;> rw [h]
  · left; decide
  · right; decide

theorem chalStep_inv (s : Nat → UInt8) (i : Nat) (hi : i < 256) (x y : Poly × Nat × ChalSt) (hx : ChalInv i x.1) (h : chalStep C s x i = some y) :
    ChalInv (i + 1) y.1 := by
  obtain ⟨c, signs, st⟩ := x
  unfold chalStep at h
  simp only [Option.bind_eq_bind, Option.bind_eq_some_iff, Option.pure_def, Option.some.injEq] at h
  obtain ⟨⟨b, st'⟩, hb, rfl⟩ := h
  have hle := chalByte_le s i st _ hb
  simp only at hle hx ⊢
  obtain ⟨v, hv, hv'⟩ : ∃ v : Int, toI32 ((1 - 2 * ((signs % 2 : Nat) : Int)) % 18446744073709551616) = v ∧ (v = 1 ∨ v = -1) :=
    ⟨_, rfl, sign_val signs⟩
  rw [hv]
  obtain ⟨tern, tail, card⟩ := hx
  have hbl : b < 256 := by omega
  have hrd : rd C.oob c b = c ⟨b, hbl⟩ := by unfold rd; rw [dif_pos hbl]
  rw [hrd]
  have hval : ∀ j : Fin 256, wr (wr c i (c ⟨b, hbl⟩)) b v j = if j.1 = b then v else if j.1 = i then c ⟨b, hbl⟩ else c j := by
    intro j; unfold wr; rfl
  refine ⟨?_, ?_, ?_⟩
  · intro j
    rw [hval]
    split
    · rcases hv' with h | h <;> simp [h]
    · split
      · exact tern _
      · exact tern j
  · intro j hj
    rw [hval, if_neg (by omega), if_neg (by omega)]
    exact tail j (by omega)
  · have hne : v ≠ 0 := by rcases hv' with h | h <;> rw [h] <;> decide
    have hsupp : supp (wr (wr c i (c ⟨b, hbl⟩)) b v) = insert (if c ⟨b, hbl⟩ = 0 then ⟨b, hbl⟩ else ⟨i, hi⟩) (supp c) := by
      ext j
      unfold supp
      simp only [Finset.mem_insert, Finset.mem_filter, Finset.mem_univ, true_and]
      rw [hval]
      by_cases hj : j.1 = b
      · have : j = ⟨b, hbl⟩ := Fin.ext hj
        subst this
        by_cases hc : c ⟨b, hbl⟩ = 0 <;> simp [hc, hne]
      · have hj' : j ≠ ⟨b, hbl⟩ := fun h => hj (by rw [h])
        rw [if_neg hj]
        by_cases hji : j.1 = i
        · have : j = ⟨i, hi⟩ := Fin.ext hji
          subst this
          rw [if_pos rfl]
          by_cases hc : c ⟨b, hbl⟩ = 0
          · simp only [hc, if_true]
            simp [hj', tail ⟨i, hi⟩ (by simp)]
          · simp [hc]
        · rw [if_neg hji]
          have hji' : j ≠ ⟨i, hi⟩ := fun h => hji (by rw [h])
          split <;> simp [hj', hji']
    have hnot : (if c ⟨b, hbl⟩ = 0 then (⟨b, hbl⟩ : Fin 256) else ⟨i, hi⟩) ∉ supp c := by
      unfold supp
      simp only [Finset.mem_filter, Finset.mem_univ, true_and, not_not]
      split
      · assumption
      · exact tail _ (by simp)
    rw [hsupp, Finset.card_insert_of_notMem hnot]
    omega

theorem chalFold_inv (s : Nat → UInt8) (n i : Nat) (hi : i + n ≤ 256) (x y : Poly × Nat × ChalSt) (hx : ChalInv i x.1)
    (h : (List.range' i n).foldlM (chalStep C s) x = some y) : ChalInv (i + n) y.1 := by
  induction n generalizing i x with
  | zero => cases h; exact hx
  | succ n ih =>
    rw [List.range'_succ, List.foldlM_cons] at h
    simp only [Option.bind_eq_bind, Option.bind_eq_some_iff] at h
    obtain ⟨z, hz, h⟩ := h
    have := ih (i + 1) (by omega) z (chalStep_inv s i (by omega) x z hx hz) h
    rwa [show i + (n + 1) = i + 1 + n by omega]

theorem polyChallenge_spec (H : Shake) (seed : Bytes) (c : Poly) (h : polyChallenge C H seed = some c) :
    (∀ j, c j = 0 ∨ c j = 1 ∨ c j = -1) ∧ (supp c).card = 39 := by
  unfold polyChallenge at h
  simp only [Option.bind_eq_bind, Option.bind_eq_some_iff, Option.pure_def, Option.some.injEq] at h
  obtain ⟨⟨c', s', t'⟩, hf, rfl⟩ := h
  have := chalFold_inv _ 39 217 (by omega) _ _ ⟨fun _ => Or.inl rfl, fun _ _ => rfl, by unfold supp; simp⟩ hf
  exact ⟨this.tern, by have := this.card; simp only at this ⊢; omega⟩

end Verif.Dilithium
