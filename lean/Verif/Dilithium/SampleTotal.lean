import Verif.Dilithium.Sample
import Mathlib.Data.Nat.Bitwise

/-!
# The samplers, exactly

The samplers terminate exactly when the stream contains enough acceptable candidates, and then return the first ones; the challenge is the
specification's `SampleInBall`.  None of this depends on the behaviour of undefined operations.
-/

namespace Verif.Dilithium

namespace Spec

/-- `n` iterations of `SampleInBall` (specification 3.1, Figure 2) from index `i`, reading stream bytes from position `p`: skip bytes larger
than `i`; take the next one as `j`; `c_i := c_j`; `c_j := ±1` according to bit `i - 217` of the first 8 stream bytes. -/
def BallSteps (s : Nat → UInt8) : Nat → Nat → Nat → (Fin 256 → Int) → (Fin 256 → Int) → Prop
  | 0, _, _, c, c' => c' = c
  | n + 1, i, p, c, c' => ∃ q, p ≤ q ∧ (∀ k, p ≤ k → k < q → i < (s k).toNat) ∧ (s q).toNat ≤ i ∧
    BallSteps s n (i + 1) (q + 1) (fun k =>
      if k.1 = (s q).toNat then (if (s ((i - 217) / 8)).toNat.testBit ((i - 217) % 8) then -1 else 1)
      else if k.1 = i then c ⟨(s q).toNat, (s q).toNat_lt⟩ else c k) c'

/-- `SampleInBall` with `τ = 39`. -/
def SampleInBall (s : Nat → UInt8) (c : Fin 256 → Int) : Prop := BallSteps s 39 217 8 (fun _ => 0) c

end Spec

variable {C : CSem}

/-! ## Uniform and eta samplers -/

theorem accUniform_mono (s : Nat → UInt8) (n m : Nat) (h : n ≤ m) : (accUniform s 0 n).length ≤ (accUniform s 0 m).length := by
  obtain ⟨k, rfl⟩ := Nat.exists_eq_add_of_le h
  rw [accUniform_append, List.length_append]; omega

theorem uniformLoop_total (s : Nat → UInt8) (m : Nat) (hm : 256 ≤ (accUniform s 0 m).length) (d : Nat) (n : Nat) (hd : m ≤ n + d) (acc : List Int)
    (buf : Bytes) (pos : Nat) (hpos : pos = 3 * n) (hbuf : buf.length % 3 = 0) (hacc : acc = (accUniform s 0 n).take 256) :
    ∃ r, uniformLoop s acc buf pos = some r := by
  induction d using Nat.strongRecOn generalizing n acc buf pos with
  | ind d ih =>
    rw [uniformLoop]
    dsimp only
    split
    · rename_i hlt
      have hdn : ¬ m ≤ n := by
        intro hmn
        have := accUniform_mono s m n hmn
        rw [hacc, List.length_take] at hlt
        omega
      rw [hbuf, Nat.sub_zero, List.drop_length, List.nil_append]
      refine ih (d - 56) (by omega) (n + 56) (by omega) _ _ _ (by omega) (by rw [squeeze_length]) ?_
      subst hpos
      rw [show (168 : Nat) = 3 * 56 by rfl, rejUniform_squeeze, accUniform_append, take_extend, hacc]
    · exact ⟨_, rfl⟩

theorem prefix_of_take {α : Type} (f : Nat → List α) (hf : ∀ n m, n ≤ m → (f n).take 256 <+: (f m).take 256) (n m : Nat) (hn : ((f n).take 256).length = 256)
    (hm : ((f m).take 256).length = 256) : (f n).take 256 = (f m).take 256 := by
  rcases Nat.le_total n m with h | h
  · exact (hf n m h).eq_of_length (by rw [hn, hm])
  · exact ((hf m n h).eq_of_length (by rw [hn, hm])).symm

theorem accUniform_prefix (s : Nat → UInt8) (n m : Nat) (h : n ≤ m) : (accUniform s 0 n).take 256 <+: (accUniform s 0 m).take 256 := by
  obtain ⟨k, rfl⟩ := Nat.exists_eq_add_of_le h
  rw [accUniform_append, take_extend]
  exact List.prefix_append _ _

/-- `poly_uniform` returns `p` exactly when `p` lists the first 256 accepted candidates of the stream. -/
theorem polyUniform_iff (H : Shake) (seed : Bytes) (nonce : UInt16) (p : Poly) :
    polyUniform C H seed nonce = some p ↔ ∃ m, (accUniform (stream128 H seed nonce) 0 m).take 256 = List.ofFn p := by
  constructor
  · intro h
    obtain ⟨m, e⟩ := polyUniform_spec H seed nonce p h
    exact ⟨m, e.symm⟩
  · rintro ⟨m, e⟩
    have hl : ((accUniform (stream128 H seed nonce) 0 m).take 256).length = 256 := by rw [e, List.length_ofFn]
    obtain ⟨r, hr⟩ := uniformLoop_total (stream128 H seed nonce) m (by rw [List.length_take] at hl; omega) m 280 (by omega)
      (rejUniform 256 (squeeze (stream128 H seed nonce) 0 840)) (squeeze (stream128 H seed nonce) 0 840) 840 rfl (by rw [squeeze_length])
      (rejUniform_squeeze (stream128 H seed nonce) 280 256 0)
    have hp : polyUniform C H seed nonce = some (polyOfList C r) := by
      unfold polyUniform
      simp only [hr, Option.map_some]
    rw [hp]
    obtain ⟨m', e'⟩ := polyUniform_spec H seed nonce _ hp
    have := prefix_of_take (fun n => accUniform (stream128 H seed nonce) 0 n) (accUniform_prefix _) m m' hl (by rw [← e', List.length_ofFn])
    rw [e, ← e'] at this
    exact congrArg some (List.ofFn_injective this).symm

theorem accEta_prefix (s : Nat → UInt8) (n m : Nat) (h : n ≤ m) : (accEta s 0 n).take 256 <+: (accEta s 0 m).take 256 := by
  obtain ⟨k, rfl⟩ := Nat.exists_eq_add_of_le h
  rw [accEta_append, take_extend]
  exact List.prefix_append _ _

theorem etaLoop_total (s : Nat → UInt8) (m : Nat) (hm : 256 ≤ (accEta s 0 m).length) (d : Nat) (acc : List Int) (pos : Nat) (hd : m ≤ 2 * pos + d)
    (hacc : acc = (accEta s 0 (2 * pos)).take 256) : ∃ r, etaLoop s acc pos = some r := by
  induction d using Nat.strongRecOn generalizing acc pos with
  | ind d ih =>
    rw [etaLoop]
    split
    · rename_i hlt
      have hdn : ¬ m ≤ 2 * pos := by
        intro hmn
        have h1 := (accEta_prefix s m (2 * pos) hmn).length_le
        rw [← hacc, List.length_take] at h1
        omega
      refine ih (d - 272) (by omega) _ _ (by omega) ?_
      rw [rejEta_squeeze, show 2 * (pos + 136) = 2 * pos + 2 * 136 by omega, accEta_append, take_extend, hacc]
    · exact ⟨_, rfl⟩

/-- `poly_uniform_eta` returns `p` exactly when `p` lists the values of the first 256 accepted nibbles of the stream. -/
theorem polyUniformEta_iff (H : Shake) (seed : Bytes) (nonce : UInt16) (p : Poly) :
    polyUniformEta C H seed nonce = some p ↔ ∃ m, (accEta (stream256 H seed nonce) 0 m).take 256 = List.ofFn p := by
  constructor
  · intro h
    obtain ⟨m, e⟩ := polyUniformEta_spec H seed nonce p h
    exact ⟨m, e.symm⟩
  · rintro ⟨m, e⟩
    have hl : ((accEta (stream256 H seed nonce) 0 m).take 256).length = 256 := by rw [e, List.length_ofFn]
    obtain ⟨r, hr⟩ := etaLoop_total (stream256 H seed nonce) m (by rw [List.length_take] at hl; omega) m
      (rejEta 256 (squeeze (stream256 H seed nonce) 0 136)) 136 (by omega) (rejEta_squeeze (stream256 H seed nonce) 136 256 0)
    have hp : polyUniformEta C H seed nonce = some (polyOfList C r) := by
      unfold polyUniformEta
      simp only [hr, Option.map_some]
    rw [hp]
    obtain ⟨m', e'⟩ := polyUniformEta_spec H seed nonce _ hp
    have := prefix_of_take (fun n => accEta (stream256 H seed nonce) 0 n) (accEta_prefix _) m m' hl (by rw [← e', List.length_ofFn])
    rw [e, ← e'] at this
    exact congrArg some (List.ofFn_injective this).symm

/-! ## The challenge -/

/-- The buffer holds the current block, and the next byte to be read is stream byte `p`. -/
structure StAt (s : Nat → UInt8) (st : ChalSt) (p : Nat) : Prop where
  buf : st.buf = squeeze s (st.off - 136) 136
  off : 136 ≤ st.off
  pos : st.pos ≤ 136
  eq : p = st.off - 136 + st.pos

theorem stAt_refill {s : Nat → UInt8} {st : ChalSt} {p : Nat} (h : StAt s st p) :
    ∃ st', (if st.pos ≥ 136 then (⟨squeeze s st.off 136, 0, st.off + 136⟩ : ChalSt) else st) = st' ∧ StAt s st' p ∧ st'.pos < 136 ∧
      (at8 C st'.buf st'.pos).toNat = (s p).toNat := by
  have key : ∀ st' : ChalSt, StAt s st' p → st'.pos < 136 → (at8 C st'.buf st'.pos).toNat = (s p).toNat := by
    intro st' h' hlt
    unfold at8
    rw [h'.buf, List.getD_eq_getElem _ _ (by rw [squeeze_length]; exact hlt)]
    unfold squeeze
    rw [List.getElem_map, List.getElem_range, h'.eq]
    rfl
  split
  · rename_i hp
    have h' : StAt s (⟨squeeze s st.off 136, 0, st.off + 136⟩ : ChalSt) p := by
      refine ⟨?_, by show 136 ≤ st.off + 136; omega, by show 0 ≤ 136; omega, ?_⟩
      · show _ = squeeze s (st.off + 136 - 136) 136
        rw [Nat.add_sub_cancel]
      · have := h.eq; have := h.off; have := h.pos
        show p = st.off + 136 - 136 + 0
        omega
    exact ⟨_, rfl, h', by show 0 < 136; omega, key _ h' (by show 0 < 136; omega)⟩
  · rename_i hp
    exact ⟨st, rfl, h, by omega, key _ h (by omega)⟩

theorem stAt_next {s : Nat → UInt8} {st : ChalSt} {p : Nat} (h : StAt s st p) (hp : st.pos < 136) : StAt s ⟨st.buf, st.pos + 1, st.off⟩ (p + 1) :=
  ⟨h.buf, h.off, hp, by have := h.eq; show p + 1 = st.off - 136 + (st.pos + 1); omega⟩

/-- `q` is the first position from `p` whose byte is at most `i`. -/
def First (s : Nat → UInt8) (i p q : Nat) : Prop := p ≤ q ∧ (∀ k, p ≤ k → k < q → i < (s k).toNat) ∧ (s q).toNat ≤ i

theorem chalByte_sound (s : Nat → UInt8) (i : Nat) (st : ChalSt) (r : Nat × ChalSt) (h : chalByte C s i st = some r) :
    ∀ p, StAt s st p → ∃ q, First s i p q ∧ r.1 = (s q).toNat ∧ StAt s r.2 (q + 1) := by
  refine chalByte.partial_correctness C s i (motive := fun st r => ∀ p, StAt s st p → ∃ q, First s i p q ∧ r.1 = (s q).toNat ∧ StAt s r.2 (q + 1)) ?_ st r h
  intro f ih st r h p hst
  obtain ⟨st', e, h1, h2, h3⟩ := stAt_refill (C := C) hst
  simp only [e, h3] at h
  split at h
  · rename_i hgt
    obtain ⟨q, ⟨a, b, c⟩, d, f⟩ := ih _ _ h (p + 1) (stAt_next h1 h2)
    refine ⟨q, ⟨by omega, ?_, c⟩, d, f⟩
    intro k hk hkq
    rcases Nat.lt_or_ge p k with h | h
    · exact b k h hkq
    · have : k = p := by omega
      rw [this]; exact hgt
  · rename_i hgt
    cases h
    exact ⟨p, ⟨le_refl _, fun k h1 h2 => by omega, by omega⟩, rfl, stAt_next h1 h2⟩

theorem chalByte_total (s : Nat → UInt8) (i q : Nat) (d : Nat) (st : ChalSt) (p : Nat) (hd : q = p + d) (hst : StAt s st p) (hf : First s i p q) :
    ∃ st', chalByte C s i st = some ((s q).toNat, st') ∧ StAt s st' (q + 1) := by
  induction d generalizing st p with
  | zero =>
    obtain ⟨st', e, h1, h2, h3⟩ := stAt_refill (C := C) hst
    subst hd
    rw [chalByte]
    simp only [e, h3]
    rw [if_neg (by have := hf.2.2; omega)]
    exact ⟨_, rfl, stAt_next h1 h2⟩
  | succ d ih =>
    obtain ⟨st', e, h1, h2, h3⟩ := stAt_refill (C := C) hst
    rw [chalByte]
    simp only [e, h3]
    rw [if_pos (hf.2.1 p (le_refl _) (by omega))]
    exact ih _ (p + 1) (by omega) (stAt_next h1 h2) ⟨by omega, fun k h1 h2 => hf.2.1 k (by omega) h2, hf.2.2⟩

theorem first_unique {s : Nat → UInt8} {i p q q' : Nat} (h : First s i p q) (h' : First s i p q') : q = q' := by
  obtain ⟨a, b, c⟩ := h
  obtain ⟨a', b', c'⟩ := h'
  rcases Nat.lt_trichotomy q q' with h | h | h
  · have := b' q a h; omega
  · exact h
  · have := b q' a' h; omega

/-- Bits of a little-endian number. -/
theorem le_testBit (s : Nat → UInt8) (n t : Nat) (ht : t < 8 * n) :
    (((List.range n).map fun i => (s i).toNat * 256 ^ i).sum).testBit t = (s (t / 8)).toNat.testBit (t % 8) := by
  induction n generalizing s t with
  | zero => omega
  | succ n ih =>
    have e : ((List.range (n + 1)).map fun i => (s i).toNat * 256 ^ i).sum
        = 2 ^ 8 * ((List.range n).map fun i => (s (i + 1)).toNat * 256 ^ i).sum + (s 0).toNat := by
      have e0 : ∀ l : List Nat, (l.map ((fun i => (s i).toNat * 256 ^ i) ∘ Nat.succ)).sum = 2 ^ 8 * (l.map fun i => (s (i + 1)).toNat * 256 ^ i).sum := by
        intro l
        induction l with
        | nil => rfl
        | cons a l ih =>
          rw [List.map_cons, List.sum_cons, ih, List.map_cons, List.sum_cons]
          simp only [Function.comp_apply, Nat.succ_eq_add_one, pow_succ]
          ring
      rw [List.range_succ_eq_map, List.map_cons, List.sum_cons, List.map_map, Nat.pow_zero, Nat.mul_one, Nat.add_comm, e0]
    rw [e, Nat.testBit_two_pow_mul_add _ (s 0).toNat_lt]
    by_cases h : t < 8
    · rw [if_pos h, Nat.div_eq_of_lt h, Nat.mod_eq_of_lt h]
    · rw [if_neg h, ih (fun i => s (i + 1)) (t - 8) (by omega)]
      have e1 : (t - 8) / 8 + 1 = t / 8 := by omega
      have e2 : (t - 8) % 8 = t % 8 := by omega
      simp only [e1, e2]

theorem sign_bit (n : Nat) : toI32 ((1 - 2 * ((n % 2 : Nat) : Int)) % 18446744073709551616) = if n.testBit 0 then -1 else 1 := by
  rcases Nat.mod_two_eq_zero_or_one n with h | h <;> simp [Nat.testBit_zero, h, toI32]

/-- One iteration, on the polynomial. -/
theorem chalStep_poly (c : Poly) (i j : Nat) (hj : j < 256) (v : Int) :
    wr (wr c i (rd C.oob c j)) j v = fun k => if k.1 = j then v else if k.1 = i then c ⟨j, hj⟩ else c k := by
  funext k
  unfold wr rd
  rw [dif_pos hj]

theorem chalFold_iff (s : Nat → UInt8) (signs : Nat) (hs : ∀ t < 64, signs.testBit t = (s (t / 8)).toNat.testBit (t % 8)) (n i p : Nat) (hi : 217 ≤ i)
    (hn : i + n ≤ 256) (c c' : Poly) (st : ChalSt) (hst : StAt s st p) :
    (∃ x, (List.range' i n).foldlM (chalStep C s) (c, signs >>> (i - 217), st) = some (c', x)) ↔ Spec.BallSteps s n i p c c' := by
  induction n generalizing i p c st with
  | zero =>
    simp only [List.range'_zero, List.foldlM_nil, Option.pure_def, Option.some.injEq, Prod.mk.injEq, Spec.BallSteps]
    constructor
    · rintro ⟨x, h, -⟩; exact h.symm
    · rintro rfl; exact ⟨_, rfl, rfl⟩
  | succ n ih =>
    rw [List.range'_succ, Spec.BallSteps]
    simp only [List.foldlM_cons]
    have hb0 : (signs >>> (i - 217)).testBit 0 = (s ((i - 217) / 8)).toNat.testBit ((i - 217) % 8) := by
      rw [Nat.testBit_shiftRight, Nat.add_zero]
      exact hs _ (by omega)
    have step : ∀ q st', chalByte C s i st = some ((s q).toNat, st') → chalStep C s (c, signs >>> (i - 217), st) i = some (fun k =>
      if k.1 = (s q).toNat then (if (s ((i - 217) / 8)).toNat.testBit ((i - 217) % 8) then -1 else 1)
      else if k.1 = i then c ⟨(s q).toNat, (s q).toNat_lt⟩ else c k, signs >>> (i + 1 - 217), st') := by
      intro q st' e
      unfold chalStep
      simp only [e, Option.bind_eq_bind, Option.bind_some, Option.pure_def]
      rw [chalStep_poly c i (s q).toNat (s q).toNat_lt, sign_bit, hb0, show i + 1 - 217 = i - 217 + 1 by omega, Nat.shiftRight_succ]
    constructor
    · rintro ⟨x, h⟩
      simp only [Option.bind_eq_bind, Option.bind_eq_some_iff] at h
      obtain ⟨y, hy, h⟩ := h
      have hcb : ∃ r, chalByte C s i st = some r := by
        unfold chalStep at hy
        simp only [Option.bind_eq_bind, Option.bind_eq_some_iff] at hy
        obtain ⟨r, hr, -⟩ := hy
        exact ⟨r, hr⟩
      obtain ⟨r, hr⟩ := hcb
      obtain ⟨q, hq, e1, hq2⟩ := chalByte_sound s i st r hr p hst
      have := step q r.2 (by rw [hr, ← e1])
      rw [this] at hy
      cases hy
      exact ⟨q, hq.1, hq.2.1, hq.2.2, (ih (i + 1) (q + 1) (by omega) (by omega) _ _ hq2).1 ⟨x, h⟩⟩
    · rintro ⟨q, h1, h2, h3, h⟩
      obtain ⟨st', e, hst'⟩ := chalByte_total (C := C) s i q (q - p) st p (by omega) hst ⟨h1, h2, h3⟩
      rw [step q st' e]
      exact (ih (i + 1) (q + 1) (by omega) (by omega) _ st' hst').2 h

/-- `poly_challenge` is `SampleInBall`. -/
theorem polyChallenge_iff (H : Shake) (seed : Bytes) (c : Poly) : polyChallenge C H seed = some c ↔ Spec.SampleInBall (H.shake256 (seed.take 32)) c := by
  have hsg : ((List.range 8).map fun i => (at8 C (squeeze (H.shake256 (seed.take 32)) 0 136) i).toNat * 256 ^ i)
      = (List.range 8).map fun i => ((H.shake256 (seed.take 32)) i).toNat * 256 ^ i := by
    apply List.map_congr_left
    intro i hi
    rw [List.mem_range] at hi
    unfold at8
    rw [List.getD_eq_getElem _ _ (by rw [squeeze_length]; omega)]
    unfold squeeze
    rw [List.getElem_map, List.getElem_range, Nat.zero_add]
    rfl
  have := chalFold_iff (C := C) (H.shake256 (seed.take 32)) _ (fun t ht => le_testBit (H.shake256 (seed.take 32)) 8 t (by omega)) 39 217 8 (by omega) (by omega)
    (fun _ => 0) c ⟨squeeze (H.shake256 (seed.take 32)) 0 136, 8, 136⟩ ⟨by rw [show (136 - 136 : Nat) = 0 from rfl], le_refl _, by show 8 ≤ 136; omega, by show 8 = 136 - 136 + 8; omega⟩
  unfold Spec.SampleInBall
  rw [← this]
  unfold polyChallenge
  simp only [hsg, Option.bind_eq_bind, Option.bind_eq_some_iff, Option.pure_def, Option.some.injEq]
  rw [show (217 - 217 : Nat) = 0 from rfl, Nat.shiftRight_zero]
  constructor
  · rintro ⟨⟨c', x⟩, h, rfl⟩
    exact ⟨x, h⟩
  · rintro ⟨x, h⟩
    exact ⟨(c, x), h, rfl⟩

end Verif.Dilithium
