import Verif.Dilithium35.Sample
import Verif.Dilithium35.Spec
import Verif.Dilithium.SampleTotal

/-!
# The samplers of dilithium3 and dilithium5, exactly

They terminate exactly when the stream contains enough acceptable candidates, and then return the first ones; the challenge is the
specification's `SampleInBall`.
-/

namespace Verif.Dilithium35

namespace Spec

/-- `n` iterations of `SampleInBall` (specification 3.1, Figure 2) from index `i`, reading stream bytes from position `p`: skip bytes larger
than `i`; take the next one as `j`; `c_i := c_j`; `c_j := ±1` according to bit `i - i₀` of the first 8 stream bytes. -/
def BallSteps (i₀ : Nat) (s : Nat → UInt8) : Nat → Nat → Nat → (Fin 256 → Int) → (Fin 256 → Int) → Prop
  | 0, _, _, c, c' => c' = c
  | n + 1, i, p, c, c' => ∃ q, p ≤ q ∧ (∀ k, p ≤ k → k < q → i < (s k).toNat) ∧ (s q).toNat ≤ i ∧
    BallSteps i₀ s n (i + 1) (q + 1) (fun k =>
      if k.1 = (s q).toNat then (if (s ((i - i₀) / 8)).toNat.testBit ((i - i₀) % 8) then -1 else 1)
      else if k.1 = i then c ⟨(s q).toNat, (s q).toNat_lt⟩ else c k) c'

/-- `SampleInBall` for a given `τ`. -/
def SampleInBall (τ : Nat) (s : Nat → UInt8) (c : Fin 256 → Int) : Prop := BallSteps (256 - τ) s τ (256 - τ) 8 (fun _ => 0) c

end Spec

open Verif.Dilithium hiding polyUniformEta polyUniformEta_range polyUniformEta_spec polyUniformEta_iff polyChallenge polyChallenge_spec polyChallenge_iff polyUniformGamma1 ChalInv
  chalStep_inv chalFold_inv chalFold_iff

variable {C : CSem}

theorem accEta4_prefix (s : Nat → UInt8) (n m : Nat) (h : n ≤ m) : (accEta4 s 0 n).take 256 <+: (accEta4 s 0 m).take 256 := by
  obtain ⟨k, rfl⟩ := Nat.exists_eq_add_of_le h
  rw [accEta4_append, take_extend]
  exact List.prefix_append _ _

theorem etaLoop4_total (s : Nat → UInt8) (m : Nat) (hm : 256 ≤ (accEta4 s 0 m).length) (d : Nat) (acc : List Int) (pos : Nat) (hd : m ≤ 2 * pos + d)
    (hacc : acc = (accEta4 s 0 (2 * pos)).take 256) : ∃ r, etaLoop4 s acc pos = some r := by
  induction d using Nat.strongRecOn generalizing acc pos with
  | ind d ih =>
    rw [etaLoop4]
    split
    · rename_i hlt
      have hdn : ¬ m ≤ 2 * pos := by
        intro hmn
        have h1 := (accEta4_prefix s m (2 * pos) hmn).length_le
        rw [← hacc, List.length_take] at h1
        omega
      refine ih (d - 272) (by omega) _ _ (by omega) ?_
      rw [rejEta4_squeeze, show 2 * (pos + 136) = 2 * pos + 2 * 136 by omega, accEta4_append, take_extend, hacc]
    · exact ⟨_, rfl⟩

/-- `poly_uniform_eta` returns `p` exactly when `p` lists the values of the first 256 accepted nibbles of the stream. -/
theorem polyUniformEta_iff (md : Mode) (H : Shake) (seed : Bytes) (nonce : UInt16) (p : Poly) :
    polyUniformEta md C H seed nonce = some p ↔ ∃ m, (md.acc (stream256 H seed nonce) m).take 256 = List.ofFn p := by
  cases md with
  | five => exact Dilithium.polyUniformEta_iff H seed nonce p
  | three =>
    constructor
    · intro h
      obtain ⟨m, e⟩ := polyUniformEta_spec .three H seed nonce p h
      exact ⟨m, e.symm⟩
    · rintro ⟨m, e⟩
      have e : (accEta4 (stream256 H seed nonce) 0 m).take 256 = List.ofFn p := e
      have hl : ((accEta4 (stream256 H seed nonce) 0 m).take 256).length = 256 := by rw [e, List.length_ofFn]
      obtain ⟨r, hr⟩ := etaLoop4_total (stream256 H seed nonce) m (by rw [List.length_take] at hl; omega) m
        (rejEta4 256 (squeeze (stream256 H seed nonce) 0 272)) 272 (by omega) (rejEta4_squeeze (stream256 H seed nonce) 272 256 0)
      have hp : polyUniformEta .three C H seed nonce = some (polyOfList C r) := by
        unfold polyUniformEta
        simp only [hr, Option.map_some]
      rw [hp]
      obtain ⟨m', e'⟩ := polyUniformEta_spec .three H seed nonce _ hp
      have e' : List.ofFn (polyOfList C r) = (accEta4 (stream256 H seed nonce) 0 m').take 256 := e'
      have := prefix_of_take (fun n => accEta4 (stream256 H seed nonce) 0 n) (accEta4_prefix _) m m' hl (by rw [← e', List.length_ofFn])
      rw [e, ← e'] at this
      exact congrArg some (List.ofFn_injective this).symm

/-! ## The challenge -/

theorem chalFold_iff (i₀ : Nat) (h₀ : 192 ≤ i₀) (s : Nat → UInt8) (signs : Nat) (hs : ∀ t < 64, signs.testBit t = (s (t / 8)).toNat.testBit (t % 8)) (n i p : Nat) (hi : i₀ ≤ i)
    (hn : i + n ≤ 256) (c c' : Poly) (st : ChalSt) (hst : StAt s st p) :
    (∃ x, (List.range' i n).foldlM (chalStep C s) (c, signs >>> (i - i₀), st) = some (c', x)) ↔ Spec.BallSteps i₀ s n i p c c' := by
  induction n generalizing i p c st with
  | zero =>
    simp only [List.range'_zero, List.foldlM_nil, Option.pure_def, Option.some.injEq, Prod.mk.injEq, Spec.BallSteps]
    constructor
    · rintro ⟨x, h, -⟩; exact h.symm
    · rintro rfl; exact ⟨_, rfl, rfl⟩
  | succ n ih =>
    rw [List.range'_succ, Spec.BallSteps]
    simp only [List.foldlM_cons]
    have hb0 : (signs >>> (i - i₀)).testBit 0 = (s ((i - i₀) / 8)).toNat.testBit ((i - i₀) % 8) := by
      rw [Nat.testBit_shiftRight, Nat.add_zero]
      exact hs _ (by omega)
    have step : ∀ q st', chalByte C s i st = some ((s q).toNat, st') → chalStep C s (c, signs >>> (i - i₀), st) i = some (fun k =>
      if k.1 = (s q).toNat then (if (s ((i - i₀) / 8)).toNat.testBit ((i - i₀) % 8) then -1 else 1)
      else if k.1 = i then c ⟨(s q).toNat, (s q).toNat_lt⟩ else c k, signs >>> (i + 1 - i₀), st') := by
      intro q st' e
      unfold chalStep
      simp only [e, Option.bind_eq_bind, Option.bind_some, Option.pure_def]
      rw [chalStep_poly c i (s q).toNat (s q).toNat_lt, sign_bit, hb0, show i + 1 - i₀ = i - i₀ + 1 by omega, Nat.shiftRight_succ]
    constructor
    · rintro ⟨x, h⟩
      simp only [Option.bind_eq_bind, Option.bind_eq_some_iff] at h
      obtain ⟨y, hy, h⟩ := h
      have hcb : ∃ r, chalByte C s i st = some r := by
        unfold chalStep at hy
        simp only [Option.bind_eq_bind, Option.bind_eq_some_iff] at hy
        obtain ⟨r, hr, -⟩ := hy
        exact ⟨r, hr⟩
      obtain ⟨r, hr⟩ := hcb
      obtain ⟨q, hq, e1, hq2⟩ := chalByte_sound s i st r hr p hst
      have := step q r.2 (by rw [hr, ← e1])
      rw [this] at hy
      cases hy
      exact ⟨q, hq.1, hq.2.1, hq.2.2, (ih (i + 1) (q + 1) (by omega) (by omega) _ _ hq2).1 ⟨x, h⟩⟩
    · rintro ⟨q, h1, h2, h3, h⟩
      obtain ⟨st', e, hst'⟩ := chalByte_total (C := C) s i q (q - p) st p (by omega) hst ⟨h1, h2, h3⟩
      rw [step q st' e]
      exact (ih (i + 1) (q + 1) (by omega) (by omega) _ st' hst').2 h

/-- `poly_challenge` is `SampleInBall`, of the first 32 bytes of its seed. -/
theorem polyChallenge_iff (md : Mode) (H : Shake) (seed : Bytes) (c : Poly) :
    polyChallenge md C H seed = some c ↔ Spec.SampleInBall md.TAU (H.shake256 (seed.take 32)) c := by
  have hsg : ((List.range 8).map fun i => (at8 C (squeeze (H.shake256 (seed.take 32)) 0 136) i).toNat * 256 ^ i)
      = (List.range 8).map fun i => ((H.shake256 (seed.take 32)) i).toNat * 256 ^ i := by
    apply List.map_congr_left
    intro i hi
    rw [List.mem_range] at hi
    unfold at8
    rw [List.getD_eq_getElem _ _ (by rw [squeeze_length]; omega)]
    unfold squeeze
    rw [List.getElem_map, List.getElem_range, Nat.zero_add]
    rfl
  have hτ : 192 ≤ 256 - md.TAU ∧ 256 - md.TAU + md.TAU ≤ 256 := by cases md <;> decide
  have := chalFold_iff (C := C) (256 - md.TAU) hτ.1 (H.shake256 (seed.take 32)) _ (fun t ht => le_testBit (H.shake256 (seed.take 32)) 8 t (by omega)) md.TAU (256 - md.TAU) 8 (le_refl _) hτ.2
    (fun _ => 0) c ⟨squeeze (H.shake256 (seed.take 32)) 0 136, 8, 136⟩ ⟨by rw [show (136 - 136 : Nat) = 0 from rfl], le_refl _, by show 8 ≤ 136; omega, by show 8 = 136 - 136 + 8; omega⟩
  unfold Spec.SampleInBall
  rw [← this]
  unfold polyChallenge
  simp only [hsg, Option.bind_eq_bind, Option.bind_eq_some_iff, Option.pure_def, Option.some.injEq]
  rw [Nat.sub_self, Nat.shiftRight_zero]
  constructor
  · rintro ⟨⟨c', x⟩, h, rfl⟩
    exact ⟨x, h⟩
  · rintro ⟨x, h⟩
    exact ⟨(c, x), h, rfl⟩

end Verif.Dilithium35
