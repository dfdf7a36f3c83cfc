import Verif.Latke.Ibke.FgLemmas
import Verif.Latke.IbkeSpec

/-! # FG-IBKE-C: C11, C14, C30, C36, C38–C41 (the `FgIbkeC` instance) -/

namespace Verif.Props
open Verif Verif.Latke

/-- The final key of an FG-IBKE-C session with transcript `tr`, as a function of the two shared points. -/
def fgFinalKey (P : SymPrims) (R : Group) (ssid : Ssid) (tr : Bytes) (alpha beta : R.Pt) : SessKey :=
  P.hkdfExpand (P.hkdfExtract (ascii "fgibke-tr-hash")
    (tr ++ (P.hkdfExpand ((R.compress alpha).1 ++ (R.compress beta).1) (ascii "fg-expand") 96).1.drop 64)).1
    (ssid.1 ++ ascii "fgibke-final") 32

section
variable (P : SymPrims) (R : Group)

/-- C30: two FG-IBKE-C users with keys extracted from the same main key agree, whatever the ids, ssid, keys and coins. The coins `c2`,
`c3` of the last two calls are not used. -/
theorem C30_fg_agreement (hR : R.Correct) (mc xI xR : R.Scalar) (ssid : Ssid) (idI idR : Id) (x y c2 c3 : R.Scalar) :
    IbkeAgrees (fgIbke P R) mc () () xI xR () () ssid idI idR [x, y, c2, c3] := by
  let I := fgIbke P R
  let certI : FgCert R := I.extract xI mc idI ()
  let certR : FgCert R := I.extract xR mc idR ()
  let mpkb := R.compress (mc • R.base)
  let s0 : FgIbkeC R := FgIbkeC.newSession ssid mpkb certI .initiator
  let r0 : FgIbkeC R := FgIbkeC.newSession ssid mpkb certR .responder
  let xbI := R.compress (xI • R.base)
  let xbR := R.compress (xR • R.base)
  let pts := FgIbkeC.points R y certR.xhat (mc • R.base) idI xbI (xI • R.base) (x • R.base)
  have hpts : FgIbkeC.points R x certI.xhat (mc • R.base) idR xbR (xR • R.base) (y • R.base) = pts :=
    (FgIbkeC.points_eq x y mc xI xR idI idR xbI xbR).symm
  let dv := FgIbkeC.derive P pts.1 pts.2
  let m1 := FgIbkeC.hello certI x
  let m2 := FgIbkeC.hello certR y ++ dv.2.1
  have n1 : m1 ≠ [] := by
    intro h; have := congrArg List.length h; simp [m1, FgIbkeC.hello, certI.id.2] at this
  have n2 : m2 ≠ [] := by
    intro h; have := congrArg List.length h; simp [m2, FgIbkeC.hello, certR.id.2] at this
  have n3 : dv.1 ≠ [] := by
    intro h; have := congrArg List.length h; simp [dv, (FgIbkeC.length_derive P pts.1 pts.2).1] at this
  have e1 : FgIbkeC.run P s0 x [] = .ok { s0 with ephSk := some x, ephPk := some (x • R.base), nextStep := 2, transcript := m1 }
      (some m1) := by
    rw [FgIbkeC.step0 P _ rfl]; rfl
  have e2 : FgIbkeC.run P r0 y m1 = .ok { r0 with outputId := some idI, macs := some (dv.1, dv.2.1), sessKey := some dv.2.2
                                                  nextStep := 3, transcript := m1 ++ m2 } (some m2) := by
    have := FgIbkeC.step1_of P r0 rfl y idI xbI (R.compress (x • R.base)) _ _ _ (hR (xI • R.base)) (hR _) (hR _)
    exact this
  have e3 : FgIbkeC.run P { s0 with ephSk := some x, ephPk := some (x • R.base), nextStep := 2, transcript := m1 } c2 m2
      = .ok { s0 with ephSk := some x, ephPk := some (x • R.base), nextStep := 4, outputId := some idR, sessKey := some dv.2.2
                      done := true, transcript := m1 ++ m2 ++ dv.1 } (some dv.1) := by
    have := FgIbkeC.step2_of P { s0 with ephSk := some x, ephPk := some (x • R.base), nextStep := 2, transcript := m1 } rfl x rfl c2
      idR xbR (R.compress (y • R.base)) (xR • R.base) (y • R.base) (mc • R.base) dv.2.1 (hR _) (hR _) (hR _)
    have hd : FgIbkeC.points R x s0.cert.xhat (mc • R.base) idR xbR (xR • R.base) (y • R.base) = pts := hpts
    simp only [hd] at this
    rw [if_pos rfl] at this
    exact this
  have e4 : FgIbkeC.run P { r0 with outputId := some idI, macs := some (dv.1, dv.2.1), sessKey := some dv.2.2, nextStep := 3
                                    transcript := m1 ++ m2 } c3 dv.1
      = .ok { r0 with outputId := some idI, macs := some (dv.1, dv.2.1), sessKey := some dv.2.2, nextStep := 5
                      transcript := m1 ++ m2 ++ dv.1, done := true } none := by
    rw [FgIbkeC.step3 P _ rfl _ _ rfl, if_pos rfl]
  refine ⟨[m1, m2, dv.1], _, _, fgFinalKey P R ssid (m1 ++ m2 ++ dv.1) pts.1 pts.2, converse_cons rfl e1 n1 (converse_cons rfl e2 n2 (converse_cons rfl e3 n3
    (converse_last rfl e4 rfl rfl))), ?_⟩
  exact ⟨rfl, rfl, rfl, rfl⟩

/-- The hypothesis of C30 is satisfiable. -/
example : toyGroup.Correct := toyGroup_correct

/-- C14 (FG-IBKE-C): the key extracted for an id is a Schnorr signature on it: `xhat·B = X + H(id, X)·mpk`, with the requested id. -/
theorem C14_fg_cert_verifies (xc mc : R.Scalar) (id : Id) :
    let I := fgIbke P R
    let cert : FgCert R := I.extract xc (I.genMain mc).2 id (I.genUser ()).1
    cert.id = id ∧ (I.genMain mc).1 = R.compress (mc • R.base) ∧
      cert.xhat • R.base = cert.X + R.hashToScalar ([0x02] ++ cert.id.1 ++ (R.compress cert.X).1) • (mc • R.base) := by
  refine ⟨rfl, rfl, ?_⟩
  simp only [fgIbke, fgHash, Group.mulBase]
  module

/-- C36 (initiator): in every history after which an initiator session is done, the last call accepted `id ‖ xb ‖ ephb ‖ mac` where `mac` is
bytes 32–64 of the expansion of the session's own shared points — computed with the ephemeral whose public part it sent first, its
extracted key, the main public key, and the reported id — and the output is that id with the key derived from the same points and
the transcript of the three messages. -/
theorem C36_fg_confirmation_initiator (ssid : Ssid) (mpkb : ByteArr 32) (cert : FgCert R) (t : List Event) (s : FgIbkeC R)
    (h : Trace (FgIbkeC.run P) (FgIbkeC.newSession ssid mpkb cert .initiator) t s) (hd : s.done = true) :
    ∃ (x : R.Scalar) (id : Id) (xb ephb : ByteArr 32) (X eph mpk alpha beta : R.Pt) (m1 m2 m3 : Bytes),
      R.decompress xb = some X ∧ R.decompress ephb = some eph ∧ R.decompress mpkb = some mpk ∧
      alpha = x • eph ∧ beta = (x + cert.xhat) • (eph + X + R.hashToScalar ([0x02] ++ id.1 ++ xb.1) • mpk) ∧
      m1 = cert.id.1 ++ (R.compress cert.X).1 ++ (R.compress (x • R.base)).1 ∧
      m2 = id.1 ++ xb.1 ++ ephb.1 ++
        ((P.hkdfExpand ((R.compress alpha).1 ++ (R.compress beta).1) (ascii "fg-expand") 96).1.drop 32).take 32 ∧
      t.head? = some ⟨[], some (some m1)⟩ ∧ t.getLast? = some ⟨m2, some (some m3)⟩ ∧
      (fgIbke P R).finalize s = some (id, fgFinalKey P R ssid (m1 ++ m2 ++ m3) alpha beta) := by
  rcases FgIbkeC.trace_inv_init P ssid mpkb cert t s h with ⟨rfl, rfl⟩ | ⟨x, errs, i, k, rfl, he, rfl⟩ |
    ⟨x, errs, id, xb, ephb, X, eph, mpk, rfl, he, h1, h2, h3, rfl⟩
  · simp [FgIbkeC.newSession] at hd
  · simp [FgIbkeC.newSession] at hd
  · exact ⟨x, id, xb, ephb, X, eph, mpk, _, _, _, _, _, h1, h2, h3, rfl, rfl, rfl, rfl, rfl, List.getLast?_concat, rfl⟩

/-- C36 (responder): in every history after which a responder session is done, its first call accepted `id ‖ xb ‖ ephb`, and its last call
accepted exactly the first 32 bytes of the expansion of the session's own shared points for that id. -/
theorem C36_fg_confirmation_responder (ssid : Ssid) (mpkb : ByteArr 32) (cert : FgCert R) (t : List Event) (s : FgIbkeC R)
    (h : Trace (FgIbkeC.run P) (FgIbkeC.newSession ssid mpkb cert .responder) t s) (hd : s.done = true) :
    ∃ (x : R.Scalar) (id : Id) (xb ephb : ByteArr 32) (X eph mpk alpha beta : R.Pt) (m1 m2 m3 rest : Bytes),
      R.decompress xb = some X ∧ R.decompress ephb = some eph ∧ R.decompress mpkb = some mpk ∧
      alpha = x • eph ∧ beta = (x + cert.xhat) • (eph + X + R.hashToScalar ([0x02] ++ id.1 ++ xb.1) • mpk) ∧
      m1 = id.1 ++ xb.1 ++ ephb.1 ∧
      m2 = cert.id.1 ++ (R.compress cert.X).1 ++ (R.compress (x • R.base)).1 ++ rest ∧
      m3 = (P.hkdfExpand ((R.compress alpha).1 ++ (R.compress beta).1) (ascii "fg-expand") 96).1.take 32 ∧
      t.head? = some ⟨m1, some (some m2)⟩ ∧ t.getLast? = some ⟨m3, some none⟩ ∧
      (fgIbke P R).finalize s = some (id, fgFinalKey P R ssid (m1 ++ m2 ++ m3) alpha beta) := by
  rcases FgIbkeC.trace_inv_resp P ssid mpkb cert t s h with ⟨rfl, rfl⟩ |
    ⟨x, errs, id, xb, ephb, X, eph, mpk, he, h1, h2, h3, ⟨rfl, rfl⟩ | ⟨rfl, rfl⟩⟩
  · simp [FgIbkeC.newSession] at hd
  · simp [FgIbkeC.newSession, FgIbkeC.afterFirst] at hd
  · exact ⟨x, id, xb, ephb, X, eph, mpk, _, _, _, _, _, _, h1, h2, h3, rfl, rfl, rfl, rfl, rfl, rfl, List.getLast?_concat, rfl⟩

/-- C38/C39 (negation for FG-IBKE-C): `run_sim` panics in every state. -/
theorem C38_C39_fg_sim_panics (s : (fgIbke P R).State) : (fgIbke P R).runSim s = none := rfl

/-- C40 (negation for FG-IBKE-C): every responder session that accepted one message hands out an identity and a key although it is not
done and no confirmation was received. -/
theorem C40_fg_output_before_done_responder (ssid : Ssid) (mpkb : ByteArr 32) (cert : FgCert R) (t : List Event) (s : FgIbkeC R)
    (h : Trace (FgIbkeC.run P) (FgIbkeC.newSession ssid mpkb cert .responder) t s) (hone : okCount t = 1) :
    s.done = false ∧ ((fgIbke P R).finalize s).isSome = true := by
  have hz : ∀ errs : List Event, (∀ e ∈ errs, e.outcome = none) → errs.countP (fun e => e.outcome.isSome) = 0 := by
    intro errs he
    rw [List.countP_eq_zero]
    intro e h'; simp [he e h']
  rcases FgIbkeC.trace_inv_resp P ssid mpkb cert t s h with ⟨rfl, rfl⟩ |
    ⟨x, errs, id, xb, ephb, X, eph, mpk, he, h1, h2, h3, ⟨rfl, rfl⟩ | ⟨rfl, rfl⟩⟩
  · simp [okCount] at hone
  · exact ⟨rfl, rfl⟩
  · simp [okCount, hz errs he] at hone

/-- C40 (negation for FG-IBKE-C, initiator): a session waiting for the responder's message, given any message with decodable points and
anything but the right 32-byte MAC — no certificate is needed — reports a MAC error, and `finalize` then returns the claimed id with a key.
The hypotheses on the state are exactly those of a session after its first call (see the next theorem). -/
theorem C40_fg_output_after_bad_mac_initiator (s : FgIbkeC R) (hs : s.nextStep = 2) (hnd : s.done = false) (x : R.Scalar)
    (hx : s.ephSk = some x) (u : R.Scalar) (id : Id) (xb ephb : ByteArr 32) (X eph mpk : R.Pt) (mac : Bytes)
    (h1 : R.decompress xb = some X) (h2 : R.decompress ephb = some eph) (h3 : R.decompress s.mpk = some mpk)
    (hmac : mac ≠ ((P.hkdfExpand ((R.compress (x • eph)).1 ++
      (R.compress ((x + s.cert.xhat) • (eph + X + R.hashToScalar ([0x02] ++ id.1 ++ xb.1) • mpk))).1) (ascii "fg-expand") 96).1.drop 32).take 32) :
    ∃ s', FgIbkeC.run P s u (id.1 ++ xb.1 ++ ephb.1 ++ mac) = .err s' .mk ∧ s'.done = false ∧
      ∃ key, (fgIbke P R).finalize s' = some (id, key) := by
  rw [FgIbkeC.step2_of P s hs x hx u id xb ephb X eph mpk mac h1 h2 h3]
  simp only
  rw [if_neg (by
    intro hc
    exact hmac (by rw [hc]; rfl))]
  exact ⟨_, rfl, hnd, _, rfl⟩

/-- C40: every initiator session meets the hypotheses of the previous theorem after its first call. -/
theorem C40_fg_waiting_state (ssid : Ssid) (mpkb : ByteArr 32) (cert : FgCert R) (x : R.Scalar) :
    ∃ s m, FgIbkeC.run P (FgIbkeC.newSession ssid mpkb cert .initiator) x [] = .ok s (some m) ∧
      s.nextStep = 2 ∧ s.done = false ∧ s.ephSk = some x ∧ s.mpk = mpkb ∧ s.cert = cert := by
  refine ⟨_, _, rfl, rfl, rfl, rfl, rfl, rfl⟩

/-- C41 (FG-IBKE-C): once done, every further call panics; each role makes at most two successful calls and is done exactly when it
made both. -/
theorem C41_fg_one_shot (ssid : Ssid) (mpkb : ByteArr 32) (cert : FgCert R) (role : Role) (t : List Event) (s : FgIbkeC R)
    (h : Trace (FgIbkeC.run P) (FgIbkeC.newSession ssid mpkb cert role) t s) :
    (s.done = true → ∀ u m, FgIbkeC.run P s u m = .panic) ∧ okCount t ≤ 2 ∧ (s.done = true ↔ okCount t = 2) := by
  have hz : ∀ errs : List Event, (∀ e ∈ errs, e.outcome = none) → errs.countP (fun e => e.outcome.isSome) = 0 := by
    intro errs he
    rw [List.countP_eq_zero]
    intro e h'; simp [he e h']
  cases role with
  | initiator =>
    rcases FgIbkeC.trace_inv_init P ssid mpkb cert t s h with ⟨rfl, rfl⟩ | ⟨x, errs, i, k, rfl, he, rfl⟩ |
      ⟨x, errs, id, xb, ephb, X, eph, mpk, rfl, he, h1, h2, h3, rfl⟩
    · simp [okCount, FgIbkeC.newSession]
    · simp [okCount, FgIbkeC.newSession, hz errs he]
    · refine ⟨fun _ u m => FgIbkeC.run_late P _ (by simp) u m, ?_⟩
      simp [okCount, hz errs he]
  | responder =>
    rcases FgIbkeC.trace_inv_resp P ssid mpkb cert t s h with ⟨rfl, rfl⟩ |
      ⟨x, errs, id, xb, ephb, X, eph, mpk, he, h1, h2, h3, ⟨rfl, rfl⟩ | ⟨rfl, rfl⟩⟩
    · simp [okCount, FgIbkeC.newSession]
    · simp [okCount, FgIbkeC.newSession, FgIbkeC.afterFirst, hz errs he]
    · refine ⟨fun _ u m => FgIbkeC.run_late P _ (by simp) u m, ?_⟩
      simp [okCount, hz errs he]

/-- C11 (FG-IBKE-C): in every history, an empty message is accepted only as the initiator's first. -/
theorem C11_fg_empty_no_progress (ssid : Ssid) (mpkb : ByteArr 32) (cert : FgCert R) (role : Role) (t : List Event)
    (s s' : FgIbkeC R) (h : Trace (FgIbkeC.run P) (FgIbkeC.newSession ssid mpkb cert role) t s) (u : R.Scalar) (o : Option Bytes)
    (hr : FgIbkeC.run P s u [] = .ok s' o) : role = .initiator ∧ t = [] := by
  have late : ∀ s : FgIbkeC R, s.nextStep = 1 ∨ s.nextStep = 2 ∨ 4 ≤ s.nextStep → FgIbkeC.run P s u [] = .panic := by
    intro s hs
    rcases hs with hs | hs | hs
    · simp [FgIbkeC.run, FgIbkeC.body, hs, splitAt?]
    · simp [FgIbkeC.run, FgIbkeC.body, hs, splitAt?]
    · exact FgIbkeC.run_late P s hs u []
  cases role with
  | initiator =>
    rcases FgIbkeC.trace_inv_init P ssid mpkb cert t s h with ⟨rfl, rfl⟩ | ⟨x, errs, i, k, rfl, he, rfl⟩ |
      ⟨x, errs, id, xb, ephb, X, eph, mpk, rfl, he, h1, h2, h3, rfl⟩
    · exact ⟨rfl, rfl⟩
    · rw [late _ (by simp)] at hr; simp at hr
    · rw [late _ (by simp)] at hr; simp at hr
  | responder =>
    rcases FgIbkeC.trace_inv_resp P ssid mpkb cert t s h with ⟨rfl, rfl⟩ |
      ⟨x, errs, id, xb, ephb, X, eph, mpk, he, h1, h2, h3, ⟨rfl, rfl⟩ | ⟨rfl, rfl⟩⟩
    · rw [late _ (by simp [FgIbkeC.newSession])] at hr; simp at hr
    · rw [FgIbkeC.step3 P _ rfl _ _ rfl, if_neg (by
        intro hc
        have := congrArg List.length hc
        simp [(FgIbkeC.length_derive P _ _).1] at this)] at hr
      simp at hr
    · rw [late _ (by simp)] at hr; simp at hr

end

/-! ## A concrete history -/

/-- Toy run, reporting: finalize before completion (responder), finalize after a MAC failure (initiator), done flags, agreement. -/
def toyFgRun : Option (Bool × Bool × Bool × Bool × Bool) :=
  let I := fgIbke toyPrims toyGroup
  let idI : Id := .rep 32 1
  let idR : Id := .rep 32 2
  let mc : toyGroup.Scalar := (9 : Fin 251)
  let cI := I.extract (3 : Fin 251) mc idI ()
  let cR := I.extract (4 : Fin 251) mc idR ()
  let sI := I.newSession () (.rep 32 0) (I.genMain mc).1 cI () .initiator
  let sR := I.newSession () (.rep 32 0) (I.genMain mc).1 cR () .responder
  match I.run sI (11 : Fin 251) [] with
  | .ok sI (some m1) =>
    match I.run sR (13 : Fin 251) m1 with
    | .ok sR (some m2) =>
      match I.run sI (0 : Fin 251) (m2.take 96) with
      | .err sI' _ => match I.run sI' (0 : Fin 251) m2 with
        | .ok sI'' (some m3) => match I.run sR (0 : Fin 251) [1, 2] with
          | .err sR' _ => match I.run sR' (0 : Fin 251) m3 with
            | .ok sR'' none => some ((I.finalize sR).isSome && !I.isDone sR, (I.finalize sI').isSome && !I.isDone sI',
                I.isDone sI'', I.isDone sR'', decide (I.finalize sI'' = (I.finalize sR'').map fun p => (idR, p.2)))
            | _ => none
          | _ => none
        | _ => none
      | _ => none
    | _ => none
  | _ => none

example : toyFgRun = some (true, true, true, true, true) := by decide +kernel

end Verif.Props
