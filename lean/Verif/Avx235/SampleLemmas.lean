import Verif.Avx235.Sample
import Verif.Avx235.RejLemmas
import Verif.Avx235.PackLemmas
import Verif.Avx2.SampleLemmas
import Verif.Dilithium35.Total

/-! # The four-way samplers of dilithium3 and dilithium5 return what the portable samplers return -/

namespace Verif.Avx235

open Verif.Avx2 hiding polyUniformEta4x polyUniformGamma14x polyzUnpackV polyzUnpackV_int polyUniformGamma14x_eq
open Verif.Dilithium (CSem Shake Poly squeeze stream256 squeeze_length nib forVec)
open Verif.Dilithium35 (Mode accEta4 rejEta4 rejEta4_squeeze accEta4_append polyUniformEta polyUniformEta_iff)

variable {C : CSem}

theorem eta4_lock (s : Fin 4 → Nat → UInt8) : Avx2.LockSpec (fun k pos len => rejEta4 len (squeeze (s k) pos 136)) 136
    (fun k pos => accEta4 (s k) 0 (2 * pos)) (fun _ => True) where
  blk_pos := by omega
  next pos h := trivial
  app k pos h len := by
    rw [show 2 * (pos + 136) = 2 * pos + 2 * 136 by omega, accEta4_append, prefix_append_drop, rejEta4_squeeze]
  pre k pos h := by
    rw [show 2 * (pos + 136) = 2 * pos + 272 by omega, accEta4_append]
    exact List.prefix_append _ _

theorem accEta4_congr (s t : Nat → UInt8) (n : Nat) (h : ∀ k, k < n → s k = t k) : accEta4 s 0 (2 * n) = accEta4 t 0 (2 * n) := by
  unfold accEta4
  have : (List.range' 0 (2 * n)).map (nib s) = (List.range' 0 (2 * n)).map (nib t) := by
    apply List.map_congr_left
    intro k hk
    rw [List.mem_range'_1] at hk
    unfold nib
    rw [h _ (by omega)]
  rw [this]

theorem accEta4_mono (s : Nat → UInt8) (n m : Nat) (h : n ≤ m) : (accEta4 s 0 n).length ≤ (accEta4 s 0 m).length := by
  obtain ⟨k, rfl⟩ := Nat.exists_eq_add_of_le h
  rw [accEta4_append, List.length_append]; omega

/-- `poly_uniform_eta_4x` returns the polynomials of four calls of the portable `poly_uniform_eta`. -/
theorem polyUniformEta4x3_eq (H : Shake) (J : Junk) (seed : Bytes) (hs : seed.length = 64) (nonce : Fin 4 → UInt16) :
    polyUniformEta4x3 H J seed nonce = (forVec fun k => polyUniformEta .three C H seed (nonce k)).map fun v k => ofP (v k) := by
  unfold polyUniformEta4x3
  rw [List.take_of_length_le (by omega)]
  dsimp only
  have S := eta4_lock fun k => stream256 H seed (nonce k)
  have H0 : ∀ k, Holds J.coeffs (rejEta4Avx (filled J (stream256 H seed (nonce k)) 272) J.coeffs).1 (rejEta4Avx (filled J (stream256 H seed (nonce k)) 272) J.coeffs).2
      ((accEta4 (stream256 H seed (nonce k)) 0 (2 * 272)).take 256) := by
    intro k
    have := rejEta4Avx_spec (filled J (stream256 H seed (nonce k)) 272) J.coeffs
    rw [show 544 = 2 * 272 by rfl, accEta4_congr _ (stream256 H seed (nonce k)) 272 (fun n hn => by unfold filled; rw [if_pos (by omega)])] at this
    exact this
  apply option_eq
  · intro a ha
    simp only [Option.bind_eq_bind, Option.bind_eq_some_iff, Option.pure_def, Option.some.injEq] at ha
    obtain ⟨st, hst, rfl⟩ := ha
    obtain ⟨p, hp⟩ := lock_correct S J.coeffs _ _ _ hst trivial H0
    choose v hv using fun k => list_eq_ofFn _ (hp k).len
    refine ⟨v, forVec_intro _ _ fun k => (polyUniformEta_iff .three H seed (nonce k) (v k)).2 ⟨_, hv k⟩, ?_⟩
    funext k
    exact (holds_read _ _ _ _ (hp k) (hv k)).symm
  · intro v hv
    have hk := fun k => (polyUniformEta_iff .three H seed (nonce k) (v k)).1 (Verif.Dilithium.forVec_some _ _ hv k)
    choose m hm using hk
    have hlen : ∀ k, 256 ≤ (accEta4 (stream256 H seed (nonce k)) 0 (m k)).length := fun k => by
      have := congrArg List.length (hm k)
      change (List.take 256 (accEta4 _ 0 (m k))).length = _ at this
      rw [List.length_take, List.length_ofFn] at this
      omega
    obtain ⟨r, hr⟩ := lock_total S J.coeffs ⟨m 0 + m 1 + m 2 + m 3, fun k p _ hle => by
      refine (hlen k).trans (accEta4_mono _ _ _ ?_)
      have : m k ≤ m 0 + m 1 + m 2 + m 3 := by
        match k with
        | 0 => omega
        | 1 => omega
        | 2 => omega
        | 3 => omega
      omega⟩ _ 272 trivial H0
    exact ⟨_, by simp only [Option.bind_eq_bind, hr, Option.bind_some]; rfl⟩

/-- `poly_uniform_gamma1_4x` returns the polynomials of four calls of the portable `poly_uniform_gamma1`. -/
theorem polyUniformGamma14x_eq (H : Shake) (J : Junk) (seed : Bytes) (hs : seed.length = 64) (nonce : Fin 4 → UInt16) (k : Fin 4) :
    ti (polyUniformGamma14x H J seed nonce k) = Dilithium35.polyUniformGamma1 C H seed (nonce k) := by
  unfold polyUniformGamma14x Dilithium35.polyUniformGamma1
  rw [List.take_of_length_le (by omega)]
  refine polyzUnpackV_int _ _ (by rw [squeeze_length]; omega) fun n hn => ?_
  unfold filled
  rw [if_pos (by omega), List.getD_eq_getElem _ _ (by rw [squeeze_length]; omega)]
  unfold squeeze
  rw [List.getElem_map, List.getElem_range, Nat.zero_add]

/-- `poly_uniform_gamma1` returns the polynomial of the portable `poly_uniform_gamma1`. -/
theorem polyUniformGamma1_eq (H : Shake) (J : Junk) (seed : Bytes) (hs : seed.length = 64) (nonce : UInt16) :
    ti (polyUniformGamma1 H J seed nonce) = Dilithium35.polyUniformGamma1 C H seed nonce :=
  polyUniformGamma14x_eq H J seed hs (fun _ => nonce) 0

/-- `poly_uniform_eta_4x` of either parameter set. -/
theorem polyUniformEta4x_eq (md : Mode) (H : Shake) (J : Junk) (seed : Bytes) (hs : seed.length = 64) (nonce : Fin 4 → UInt16) :
    polyUniformEta4x md H J seed nonce = (forVec fun k => polyUniformEta md C H seed (nonce k)).map fun v k => ofP (v k) := by
  cases md with
  | three => exact polyUniformEta4x3_eq H J seed hs nonce
  | five => exact Avx2.polyUniformEta4x_eq H J seed hs nonce

end Verif.Avx235
