import Verif.Props.LatkeAuth
import Verif.Props.LatkeExact
import Verif.Props.IbkeMessages
import Verif.Props.IbkeExact
import Verif.Props.Replay
import Verif.Props.SymExact

/-!
# Concrete runs that meet the hypotheses of the protocol theorems

Each example names the theorems whose hypotheses it meets; the toy primitives are those of `Latke/Toy.lean` and the files of the protocols.  The
runs are complete honest runs of the four pairs that the crate tests, for every choice of randomness, and runs with errors.
-/

namespace Verif.Props
open Verif Verif.Latke

/-- The four pairs on the toy primitives, every coin, both peer models: C12_composed_odd, C12_composed_even, C12_sigdh_kcspake2, C12_hmqv_kcspake2,
C12_fg_kcspake2, C12_sigma_cake. -/
theorem toy_sigdh (seedRng) (password : Bytes) (idI idR : Id) (ssid : Ssid) (ucI ucR nI nR) (pre : Bool)
    (c1 c2 c3 c4 c5 c6 c7 : LatkeCoins (sigDhIbke toyPrims toyEd toyDh) (kcSpake2Pake toyPrims toySpake2)) :
    LatkeSucceeds (sigDhIbke toyPrims toyEd toyDh) (kcSpake2Pake toyPrims toySpake2) toyPrims seedRng password idI idR ssid ucI ucR () () nI nR pre
      [c1, c2, c3, c4, c5, c6, c7] :=
  C12_sigdh_kcspake2 _ _ _ _ toyEd_correct toyDh_correct toySpake2_correct _ _ _ _ _ _ _ _ _ _ _ _ _ _ _ _ _ _ _

theorem toy_hmqv (seedRng) (password : Bytes) (idI idR : Id) (ssid : Ssid) (ucI ucR nI nR) (pre : Bool)
    (c1 c2 c3 c4 c5 c6 c7 c8 : LatkeCoins (hmqvIbke toyPrims toyEd toyGroup) (kcSpake2Pake toyPrims toySpake2)) :
    LatkeSucceeds (hmqvIbke toyPrims toyEd toyGroup) (kcSpake2Pake toyPrims toySpake2) toyPrims seedRng password idI idR ssid ucI ucR () () nI nR pre
      [c1, c2, c3, c4, c5, c6, c7, c8] :=
  C12_hmqv_kcspake2 _ _ _ _ toyEd_correct toyGroup_correct toySpake2_correct _ _ _ _ _ _ _ _ _ _ _ _ _ _ _ _ _ _ _ _

theorem toy_fg (seedRng) (password : Bytes) (idI idR : Id) (ssid : Ssid) (xI xR nI nR) (pre : Bool)
    (c1 c2 c3 c4 c5 c6 c7 c8 : LatkeCoins (fgIbke toyPrims toyGroup) (kcSpake2Pake toyPrims toySpake2)) :
    LatkeSucceeds (fgIbke toyPrims toyGroup) (kcSpake2Pake toyPrims toySpake2) toyPrims seedRng password idI idR ssid () () xI xR nI nR pre
      [c1, c2, c3, c4, c5, c6, c7, c8] :=
  C12_fg_kcspake2 _ _ _ toyGroup_correct toySpake2_correct _ _ _ _ _ _ _ _ _ _ _ _ _ _ _ _ _ _ _ _

theorem toy_sigma (seedRng) (password : Bytes) (idI idR : Id) (ssid : Ssid) (ucI ucR xI xR) (pre : Bool)
    (c1 c2 c3 c4 c5 c6 c7 : LatkeCoins (sigmaIbke toyPrims toySigma toyKem) (cakePake toyPrims toyKem)) :
    LatkeSucceeds (sigmaIbke toyPrims toySigma toyKem) (cakePake toyPrims toyKem) toyPrims seedRng password idI idR ssid ucI ucR xI xR () () pre
      [c1, c2, c3, c4, c5, c6, c7] :=
  C12_sigma_cake _ _ _ toySigma_correct _ _ _ _ _ _ _ _ _ _ _ _ _ _ _ _ _ _ _ (toyKem_correct _ _) (toyKem_correct _ _) rfl

/-- C66_latke_composition, C66_latke_sigdh_authentication, C13_key_is_kdf_of_wire, C16_reported_id_is_ibke_id: completed sessions of both roles. -/
example (seedRng) (password : Bytes) (idI idR : Id) (ssid : Ssid) (ucI ucR nI nR) (pre : Bool)
    (c1 c2 c3 c4 c5 c6 c7 : LatkeCoins (sigDhIbke toyPrims toyEd toyDh) (kcSpake2Pake toyPrims toySpake2)) :=
  C66_hypotheses_met (toy_sigdh seedRng password idI idR ssid ucI ucR nI nR pre c1 c2 c3 c4 c5 c6 c7)

/-- C66_latke_hmqv_authentication. -/
example (seedRng) (password : Bytes) (idI idR : Id) (ssid : Ssid) (ucI ucR nI nR) (pre : Bool)
    (c1 c2 c3 c4 c5 c6 c7 c8 : LatkeCoins (hmqvIbke toyPrims toyEd toyGroup) (kcSpake2Pake toyPrims toySpake2)) :=
  C66_hypotheses_met (toy_hmqv seedRng password idI idR ssid ucI ucR nI nR pre c1 c2 c3 c4 c5 c6 c7 c8)

/-- C66_latke_fg_authentication. -/
example (seedRng) (password : Bytes) (idI idR : Id) (ssid : Ssid) (xI xR nI nR) (pre : Bool)
    (c1 c2 c3 c4 c5 c6 c7 c8 : LatkeCoins (fgIbke toyPrims toyGroup) (kcSpake2Pake toyPrims toySpake2)) :=
  C66_hypotheses_met (toy_fg seedRng password idI idR ssid xI xR nI nR pre c1 c2 c3 c4 c5 c6 c7 c8)

/-- C66_latke_sigma_authentication_initiator, C66_latke_sigma_authentication_responder. -/
example (seedRng) (password : Bytes) (idI idR : Id) (ssid : Ssid) (ucI ucR xI xR) (pre : Bool)
    (c1 c2 c3 c4 c5 c6 c7 : LatkeCoins (sigmaIbke toyPrims toySigma toyKem) (cakePake toyPrims toyKem)) :=
  C66_hypotheses_met (toy_sigma seedRng password idI idR ssid ucI ucR xI xR pre c1 c2 c3 c4 c5 c6 c7)

/-- C13_key_binds_transcript: two different sessions with the same final key. -/
example {I : Ibke} {K : Pake} {P : SymPrims} {seedRng password idI idR ssid ucI ucR ecI ecR nI nR pre coins}
    (h : LatkeSucceeds I K P seedRng password idI idR ssid ucI ucR ecI ecR nI nR pre coins) :
    ∃ h1 s1 t1 h2 s2 t2 key,
      latkeHistory P (Latke.newSession (K := K) nI ssid (Latke.genPwfile I P seedRng ucI ecI password idI) .initiator (peerModels pre idI idR).1) h1 = some (s1, t1) ∧
      latkeHistory P (Latke.newSession (K := K) nR ssid (Latke.genPwfile I P seedRng ucR ecR password idR) .responder (peerModels pre idI idR).2) h2 = some (s2, t2) ∧
      s1.finalize P = some (idR, key) ∧ s2.finalize P = some (idI, key) := by
  obtain ⟨sent, LI, LR, key, hd, _, d1, d2, f1, f2⟩ := h
  obtain ⟨⟨hi, ti, r1⟩, ⟨hr, tr, r2⟩⟩ := histories_of_drive P _ _ _ _ _ _ _ hd
  exact ⟨hi, LI, ti, hr, LR, tr, key, r1, r2, f1, f2⟩

theorem reach_of_history {I : Ibke} {K : Pake} (P : SymPrims) (s0 : Latke I K) (hist : List (LatkeCoins I K × Bytes)) :
    ∀ (s sf : Latke I K) (tr), LatkeReach P s0 s → latkeHistory P s hist = some (sf, tr) → LatkeReach P s0 sf := by
  induction hist with
  | nil =>
    intro s sf tr hs h
    simp only [latkeHistory, Option.some.injEq, Prod.mk.injEq] at h
    exact h.1 ▸ hs
  | cons x rest ih =>
    intro s sf tr hs h
    obtain ⟨c, inc⟩ := x
    unfold latkeHistory at h
    cases hr : s.run P c inc with
    | none => rw [hr] at h; cases h
    | some y =>
      rw [hr] at h
      dsimp only at h
      cases hl : latkeHistory P y.1 rest with
      | none => rw [hl] at h; cases h
      | some z =>
        rw [hl] at h
        have e := (Prod.mk.inj (Option.some.inj h)).1
        exact e ▸ ih y.1 z.1 z.2 (hs.step hr) hl

/-- C17_ibke_only_after_pake: a session that is done, reached with the PAKEs and exchanges of the crate. -/
example (seedRng) (password : Bytes) (idI idR : Id) (ssid : Ssid) (ucI ucR : toySigma.KeyCoins) (xI xR : toySigma.SignCoins) (pre : Bool)
    (c1 c2 c3 c4 c5 c6 c7 : LatkeCoins (sigmaIbke toyPrims toySigma toyKem) (cakePake toyPrims toyKem)) :
    (∀ q c inc q', (cakePake toyPrims toyKem).run q c inc = .ok q' none → (cakePake toyPrims toyKem).isDone q' = true) ∧
    ∃ s : Latke (sigmaIbke toyPrims toySigma toyKem) (cakePake toyPrims toyKem), LatkeReach toyPrims
      (Latke.newSession () ssid (Latke.genPwfile _ toyPrims seedRng ucI xI password idI) .initiator (peerModels pre idI idR).1) s ∧ s.isDone = true := by
  obtain ⟨⟨h, tr, s, key, r, d, f⟩, -⟩ := C66_hypotheses_met (toy_sigma seedRng password idI idR ssid ucI ucR xI xR pre c1 c2 c3 c4 c5 c6 c7)
  exact ⟨(C17_pakes_done_when_silent toyPrims toySpake2 toyKem toyCpace).2.1, s, reach_of_history _ _ _ _ _ _ .start r, d⟩

/-! ## The exchanges by themselves: sessions of both roles that are done -/

/-- C33, C40, C41, C74, C80 for Signed-DH. -/
example (mc : UInt8) (ucI ucR : UInt8 × UInt8) (ssid : Ssid) (idI idR : Id) (a b c : UInt8) :=
  (C28_sigdh_agreement toyPrims toyEd toyDh toyEd_correct toyDh_correct mc ucI ucR ssid idI idR a b c).traces

/-- C35, C40, C41, C74, C80 for HMQV-C. -/
example (mc : UInt8) (a b : toyGroup.Scalar) (ssid : Ssid) (idI idR : Id) (x y c2 c3 : toyGroup.Scalar) :=
  (C29_hmqv_agreement toyPrims toyEd toyGroup toyEd_correct toyGroup_correct mc a b ssid idI idR x y c2 c3).traces

/-- C36, C40, C41, C74, C80 for Fiore-Gennaro. -/
example (mc xI xR : toyGroup.Scalar) (ssid : Ssid) (idI idR : Id) (x y c2 c3 : toyGroup.Scalar) :=
  (C30_fg_agreement toyPrims toyGroup toyGroup_correct mc xI xR ssid idI idR x y c2 c3).traces

/-- C34, C40, C41, C74, C80 for SIGMA-R. -/
example (mc ucI ucR : toySigma.KeyCoins) (xcI xcR : toySigma.SignCoins) (nA nB : Nonce) (ssid : Ssid) (idI idR : Id) (c0 c1 c2 c3 c4 : SigmaCoins toySigma toyKem) :=
  (C31_sigma_agreement toyPrims toySigma toyKem toySigma_correct mc ucI ucR xcI xcR nA nB ssid idI idR c0 c1 c2 c3 c4 (toyKem_correct _ _) rfl).traces

/-! ## The encryption layer -/

theorem step_ok {σ ε α : Type} (x : Step σ ε α) (h : (match x with | .ok _ _ => true | _ => false) = true) : ∃ s o, x = .ok s o := by
  cases x with
  | ok s o => exact ⟨s, o, rfl⟩
  | err s e => cases h
  | panic => cases h

/-- C08_only_authenticated_input, C09_real_mode_invariant, C09_never_leaves_real_mode, C10_ratchet_sync, C71_keys_after_errors, C86_eue_outcome, C104_other_session:
a responder that has made no call yet accepts a non-empty sealed message. -/
example : let e0 := Eue.newSession (I := toyIbke) toyPrims () toyId1 () toyId2 () .responder toyId2
    ∃ e' out inc, inc ≠ [] ∧ e0.realMode = true ∧ Eue.Reach toyPrims e0 e0 ∧ Eue.runAll toyPrims e0 [] = some e0 ∧ Eue.Calls toyPrims e0 [] e0 ∧
      Trace (Eue.run toyPrims) e0 [] e0 ∧ e0.run toyPrims ⟨(5 : UInt8), toyNonce⟩ inc = .ok e' out := by
  intro e0
  obtain ⟨e', out, h⟩ := step_ok (e0.run toyPrims ⟨(5 : UInt8), toyNonce⟩ (authEncrypt toyPrims toyNonce (msgKeyAt toyPrims toyId2 toyId1 0) (toyId1.1 ++ [9]))) (by decide +kernel)
  exact ⟨e', out, _, by decide +kernel, by decide +kernel, .start, rfl, .nil, .nil, h⟩

/-- The same two calls into the session: an initiator's first call, on no input, sends a sealed message; the session then has a history and a trace of length 1
whose outcome is not empty (C104_replay, C104_other_session, C86_eue_outcome). -/
example : let e0 := Eue.newSession (I := toyIbke) toyPrims () toyId1 () toyId1 () .initiator toyId2
    ∃ e1 w, e0.run toyPrims ⟨(5 : UInt8), toyNonce⟩ [] = .ok e1 (some w) ∧ w ≠ [] ∧ Trace (Eue.run toyPrims) e0 [⟨[], some (some w)⟩] e1 := by
  intro e0
  obtain ⟨e1, o, h⟩ := step_ok (e0.run toyPrims ⟨(5 : UInt8), toyNonce⟩ []) (by decide +kernel)
  have hw : (match e0.run toyPrims ⟨(5 : UInt8), toyNonce⟩ [] with | .ok _ (some w) => w != [] | _ => false) = true := by decide +kernel
  rw [h] at hw
  cases o with
  | none => cases hw
  | some w => exact ⟨e1, w, h, by simpa using hw, Trace.ok (t := []) .nil h⟩

end Verif.Props
