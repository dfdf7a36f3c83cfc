import Verif.Latke.Ibke.HmqvLemmas
import Verif.Latke.IbkeSpec

/-! # HMQV-C IBKE: C11, C14, C29, C32, C35, C38–C41 (the `IdHmqvC` instance) -/

namespace Verif.Props
open Verif Verif.Latke

section
variable (P : SymPrims) (G : Ed25519) (R : Group)

/-- C29: two HMQV-C users with certificates from the same main key agree, whatever the ids, ssid, keys and coins. The coins `c2`, `c3` of
the last two calls are not used. -/
theorem C29_hmqv_agreement (hG : G.Correct) (hR : R.Correct) (mc : G.Sk) (a b : R.Scalar) (ssid : Ssid) (idI idR : Id)
    (x y c2 c3 : R.Scalar) :
    IbkeAgrees (hmqvIbke P G R) mc a b () () () () ssid idI idR [x, y, c2, c3] := by
  let I := hmqvIbke P G R
  let certI : HmqvCert R := I.extract () mc idI (I.genUser a).1
  let certR : HmqvCert R := I.extract () mc idR (I.genUser b).1
  let s0 : IdHmqvC G R := IdHmqvC.newSession ssid (G.pkOf mc) certI a .initiator
  let r0 : IdHmqvC G R := IdHmqvC.newSession ssid (G.pkOf mc) certR b .responder
  have vI : G.verify (G.pkOf mc) certI.tbs certI.sig = true := hG.verify_sign _ _
  have vR : G.verify (G.pkOf mc) certR.tbs certR.sig = true := hG.verify_sign _ _
  let X := x • R.base
  let Y := y • R.base
  let dv := IdHmqvC.derive P ssid (IdHmqvC.sigmaR R y b idR idI (R.compress X) X (a • R.base))
  let m1 := (R.compress X).1 ++ certI.toBytes
  let m2 := (R.compress Y).1 ++ dv.2.1.1 ++ certR.toBytes
  have n1 : m1 ≠ [] := by
    intro h; have := congrArg List.length h; simp [m1, (R.compress X).2] at this
  have n2 : m2 ≠ [] := by
    intro h; have := congrArg List.length h; simp [m2, (R.compress Y).2] at this
  have n3 : dv.1.1 ≠ [] := by
    intro h; have := congrArg List.length h; simp [dv.1.2] at this
  have e1 : IdHmqvC.run P s0 x [] = .ok { s0 with ephSk := some x, ephPk := some X, nextStep := 2 } (some m1) := by
    rw [IdHmqvC.step0 P _ rfl]; rfl
  have e2 : IdHmqvC.run P r0 y m1 = .ok { r0 with outputId := some idI, outputKey := some dv.2.2, macs := some (dv.1, dv.2.1)
                                                  nextStep := 3 } (some m2) := by
    have h0 : r0.nextStep = 1 := rfl
    have hp := IdHmqvC.parse1_msg hR X certI
    have hmpk : r0.mpk = G.pkOf mc := rfl
    simp only [IdHmqvC.run, h0, m1, hp, hmpk, vI]
    rfl
  have hmac : IdHmqvC.derive P ssid (IdHmqvC.sigmaI R x a idI idR (R.compress Y) Y (b • R.base)) = dv := by
    simp only [dv, X, Y, IdHmqvC.sigma_eq]
  have e3 : IdHmqvC.run P { s0 with ephSk := some x, ephPk := some X, nextStep := 2 } c2 m2
      = .ok { s0 with ephSk := some x, ephPk := some X, nextStep := 4, outputId := some idR, outputKey := some dv.2.2
                      done := true } (some dv.1.1) := by
    have hp := IdHmqvC.parse2_msg hR Y dv.2.1 certR
    have hmpk : s0.mpk = G.pkOf mc := rfl
    have hd : IdHmqvC.derive P s0.ssid ((x + R.hashToScalar ((R.compress X).1 ++ certR.id.1) * s0.usk) •
        (Y + R.hashToScalar ((R.compress Y).1 ++ s0.myCert.id.1) • certR.upk)) = dv := hmac
    simp only [IdHmqvC.run, m2, hp, hmpk, vR, hd]
    simp only [Bool.not_true, Bool.false_eq_true, if_false, ne_eq, not_true_eq_false]
    rfl
  have e4 : IdHmqvC.run P { r0 with outputId := some idI, outputKey := some dv.2.2, macs := some (dv.1, dv.2.1), nextStep := 3 }
      c3 dv.1.1 = .ok { r0 with outputId := some idI, outputKey := some dv.2.2, macs := some (dv.1, dv.2.1), nextStep := 5
                                done := true } none := by
    rw [IdHmqvC.step3 P _ rfl _ _ rfl, if_pos rfl]
  refine ⟨[m1, m2, dv.1.1], _, _, dv.2.2, converse_cons rfl e1 n1 (converse_cons rfl e2 n2 (converse_cons rfl e3 n3
    (converse_last rfl e4 rfl rfl))), ?_⟩
  exact ⟨rfl, rfl, rfl, rfl⟩

/-- The hypotheses of C29 are satisfiable. -/
example : toyEd.Correct ∧ toyGroup.Correct := ⟨toyEd_correct, toyGroup_correct⟩

/-- C32 (HMQV-C certificates): parsing a serialised certificate returns it, and it has the advertised 128 bytes. -/
theorem C32_hmqv_cert_roundtrip (hR : R.Correct) (c : HmqvCert R) :
    HmqvCert.fromBytes c.toBytes = some c ∧ c.toBytes.length = HmqvCert.size ∧ HmqvCert.size = 128 :=
  ⟨HmqvCert.fromBytes_toBytes hR c, c.length_toBytes, rfl⟩

/-- C14 (HMQV-C): the certificate extracted for an id carries that id and verifies under the main public key. -/
theorem C14_hmqv_cert_verifies (hG : G.Correct) (mc : G.Sk) (uc : R.Scalar) (id : Id) :
    let I := hmqvIbke P G R
    let cert : HmqvCert R := I.extract () (I.genMain mc).2 id (I.genUser uc).1
    cert.id = id ∧ G.verify (I.genMain mc).1 (cert.id.1 ++ (R.compress cert.upk).1) cert.sig = true :=
  ⟨rfl, hG.verify_sign _ _⟩

/-- The HMQV shared point of a party with ephemeral secret `x`, static secret `usk` and id `own`, for a peer with id `peer`, static key
`upk` and ephemeral `eph` encoded as `ephb`: `(x + H(X ‖ peer)·usk) · (eph + H(ephb ‖ own)·upk)`. -/
def hmqvPoint (R : Group) (x usk : R.Scalar) (own peer : Id) (ephb : ByteArr 32) (eph upk : R.Pt) : R.Pt :=
  (x + R.hashToScalar ((R.compress (x • R.base)).1 ++ peer.1) * usk) • (eph + R.hashToScalar (ephb.1 ++ own.1) • upk)

/-- C35 (initiator): in every history after which an initiator session is done, the last call accepted a message
`ephb ‖ mac ‖ id ‖ upkb ‖ sig` where `sig` verifies under the main key on (id, upk) and `mac` is the "mac1" confirmation derived from the
session's own HMQV point and ssid; the output is that id and the "sess key" derived from the same point. The own
ephemeral `x` is the one whose public part was sent first. -/
theorem C35_hmqv_authentication_initiator (ssid : Ssid) (mpk : G.Pk) (cert : HmqvCert R) (usk : R.Scalar) (t : List Event)
    (s : IdHmqvC G R) (h : Trace (IdHmqvC.run P) (IdHmqvC.newSession ssid mpk cert usk .initiator) t s) (hd : s.done = true) :
    ∃ (x : R.Scalar) (rest : Bytes) (ephb upkb : ByteArr 32) (eph upk : R.Pt) (sig : ByteArr 64) (id : Id) (prk reply : Bytes),
      t.head? = some ⟨[], some (some ((R.compress (x • R.base)).1 ++ rest))⟩ ∧
      prk = (R.compress (hmqvPoint R x usk cert.id id ephb eph upk)).1 ∧
      t.getLast? = some ⟨ephb.1 ++ (P.hkdfExpand prk (ssid.1 ++ ascii "mac1") 32).1 ++ (id.1 ++ upkb.1 ++ sig.1),
        some (some reply)⟩ ∧
      R.decompress ephb = some eph ∧ R.decompress upkb = some upk ∧
      G.verify mpk (id.1 ++ (R.compress upk).1) sig = true ∧
      (hmqvIbke P G R).finalize s = some (id, P.hkdfExpand prk (ssid.1 ++ ascii "sess key") 32) := by
  rcases IdHmqvC.trace_inv_init P ssid mpk cert usk t s h with ⟨rfl, rfl⟩ | ⟨x, errs, i, k, rfl, he, rfl⟩ |
    ⟨x, errs, ephb, upkb, id, sig, eph, upk, rfl, he, h1, h2, h3, rfl⟩
  · simp [IdHmqvC.newSession] at hd
  · simp [IdHmqvC.newSession] at hd
  · exact ⟨x, cert.toBytes, ephb, upkb, eph, upk, sig, id, _, _, by simp, rfl, List.getLast?_concat, h1, h2, h3, rfl⟩

/-- C35 (responder): in every history after which a responder session is done, one call accepted `ephb ‖ id ‖ upkb ‖ sig` with `sig`
verifying under the main key on (id, upk), and the last call accepted exactly the "mac0" confirmation derived from the session's
own HMQV point; the output is that id and the derived key. -/
theorem C35_hmqv_authentication_responder (ssid : Ssid) (mpk : G.Pk) (cert : HmqvCert R) (usk : R.Scalar) (t : List Event)
    (s : IdHmqvC G R) (h : Trace (IdHmqvC.run P) (IdHmqvC.newSession ssid mpk cert usk .responder) t s) (hd : s.done = true) :
    ∃ (x : R.Scalar) (rest : Bytes) (ephb upkb : ByteArr 32) (eph upk : R.Pt) (sig : ByteArr 64) (id : Id) (prk : Bytes),
      ⟨ephb.1 ++ (id.1 ++ upkb.1 ++ sig.1), some (some ((R.compress (x • R.base)).1 ++ rest))⟩ ∈ t ∧
      prk = (R.compress (hmqvPoint R x usk cert.id id ephb eph upk)).1 ∧
      t.getLast? = some ⟨(P.hkdfExpand prk (ssid.1 ++ ascii "mac0") 32).1, some none⟩ ∧
      R.decompress ephb = some eph ∧ R.decompress upkb = some upk ∧
      G.verify mpk (id.1 ++ (R.compress upk).1) sig = true ∧
      (hmqvIbke P G R).finalize s = some (id, P.hkdfExpand prk (ssid.1 ++ ascii "sess key") 32) := by
  rcases IdHmqvC.trace_inv_resp P ssid mpk cert usk t s h with ⟨_, rfl⟩ |
    ⟨x, errs, errs', ephb, upkb, id, sig, eph, upk, he, he', h1, h2, h3, ⟨rfl, rfl⟩ | ⟨rfl, rfl⟩⟩
  · simp [IdHmqvC.newSession] at hd
  · simp [IdHmqvC.newSession, IdHmqvC.afterFirst] at hd
  · exact ⟨x, (IdHmqvC.derive P ssid (IdHmqvC.sigmaR R x usk cert.id id ephb eph upk)).2.1.1 ++ cert.toBytes,
      ephb, upkb, eph, upk, sig, id, _, by simp, rfl, List.getLast?_concat, h1, h2, h3, rfl⟩

/-- C38 (HMQV-C): whenever `run` succeeds, on any state and message, `run_sim` on the same state predicts exactly the length of the
outgoing message (or its absence) and the step number. -/
theorem C38_hmqv_sim_matches (s s' : IdHmqvC G R) (u : R.Scalar) (m : Bytes) (o : Option Bytes)
    (h : IdHmqvC.run P s u m = .ok s' o) :
    ∃ z, IdHmqvC.runSim s = some (z, o.map List.length) ∧ z.nextStep = s'.nextStep := by
  match hn : s.nextStep with
  | 0 =>
    rw [IdHmqvC.step0 P s hn] at h
    by_cases hm : m = []
    · simp only [hm, if_true, Step.ok.injEq] at h
      obtain ⟨rfl, rfl⟩ := h
      exact ⟨{ s with nextStep := 2 }, by simp [IdHmqvC.runSim, hn, (R.compress _).2, s.myCert.length_toBytes], rfl⟩
    · simp [hm] at h
  | 1 =>
    obtain ⟨ephb, upkb, id, sig, eph, upk, _, _, _, _, rfl, rfl⟩ := IdHmqvC.step1_ok P hn h
    refine ⟨{ s with nextStep := 3 }, ?_, rfl⟩
    have := (IdHmqvC.derive P s.ssid (IdHmqvC.sigmaR R u s.usk s.myCert.id id ephb eph upk)).2.1.2
    simp [IdHmqvC.runSim, hn, (R.compress _).2, s.myCert.length_toBytes, this]; omega
  | 2 =>
    cases hp : IdHmqvC.parse2 R m with
    | none => simp [IdHmqvC.run, hn, hp] at h
    | some r =>
      obtain ⟨eb, eph, mac, c⟩ := r
      simp only [IdHmqvC.run, hn, hp] at h
      split at h
      · simp at h
      · split at h
        · split at h
          · simp at h
          · simp only [Step.ok.injEq] at h
            obtain ⟨rfl, rfl⟩ := h
            exact ⟨{ s with nextStep := 4 }, by simp [IdHmqvC.runSim, hn, (IdHmqvC.derive P s.ssid _).1.2], rfl⟩
        · simp at h
  | 3 =>
    simp only [IdHmqvC.run, hn] at h
    split at h
    · simp at h
    · split at h
      · simp at h
      · simp only [Step.ok.injEq] at h
        obtain ⟨rfl, rfl⟩ := h
        exact ⟨{ s with nextStep := 5 }, by simp [IdHmqvC.runSim, hn], rfl⟩
  | n + 4 => rw [IdHmqvC.run_late P s (by omega)] at h; simp at h

/-- The states a session can be driven to by `run_sim` alone. -/
inductive HmqvSimReach (s0 : IdHmqvC G R) : IdHmqvC G R → Prop
  | start : HmqvSimReach s0 s0
  | step {s s' n} : HmqvSimReach s0 s → IdHmqvC.runSim s = some (s', n) → HmqvSimReach s0 s'

/-- C39 (negation for HMQV-C): simulating never completes a session, however many simulated steps are made, although after two of them
there is no step left (the next one panics). -/
theorem C39_hmqv_sim_never_done (ssid : Ssid) (mpk : G.Pk) (cert : HmqvCert R) (usk : R.Scalar) (role : Role) :
    (∀ s, HmqvSimReach G R (IdHmqvC.newSession ssid mpk cert usk role) s → s.done = false) ∧
    (∃ z1 z2 : IdHmqvC G R, ∃ n1 n2, IdHmqvC.runSim (IdHmqvC.newSession ssid mpk cert usk role) = some (z1, n1) ∧
      IdHmqvC.runSim z1 = some (z2, n2) ∧ IdHmqvC.runSim z2 = none ∧ z2.done = false) := by
  constructor
  · intro s h
    induction h with
    | start => rfl
    | @step s s' n _ hs ih =>
      unfold IdHmqvC.runSim at hs
      split at hs <;> simp at hs
      all_goals (rw [← hs.1]; exact ih)
  · cases role
    · exact ⟨_, _, _, _, rfl, rfl, rfl, rfl⟩
    · exact ⟨_, _, _, _, rfl, rfl, rfl, rfl⟩

/-- C40 (negation for HMQV-C): every responder session that accepted one message hands out an identity and key although it is not
done and no key confirmation was received. -/
theorem C40_hmqv_output_before_done_responder (ssid : Ssid) (mpk : G.Pk) (cert : HmqvCert R) (usk : R.Scalar) (t : List Event)
    (s : IdHmqvC G R) (h : Trace (IdHmqvC.run P) (IdHmqvC.newSession ssid mpk cert usk .responder) t s)
    (hone : okCount t = 1) : s.done = false ∧ ((hmqvIbke P G R).finalize s).isSome = true := by
  have hz : ∀ errs : List Event, (∀ e ∈ errs, e.outcome = none) → errs.countP (fun e => e.outcome.isSome) = 0 := by
    intro errs he
    rw [List.countP_eq_zero]
    intro e h'; simp [he e h']
  rcases IdHmqvC.trace_inv_resp P ssid mpk cert usk t s h with ⟨he, rfl⟩ |
    ⟨x, errs, errs', ephb, upkb, id, sig, eph, upk, he, he', h1, h2, h3, ⟨rfl, rfl⟩ | ⟨rfl, rfl⟩⟩
  · rw [okCount, hz t he] at hone; simp at hone
  · exact ⟨rfl, rfl⟩
  · simp [okCount, hz errs he, hz errs' he'] at hone

/-- C40 (negation for HMQV-C, initiator): a message with a valid certificate and a wrong confirmation MAC is rejected with a MAC error, yet
afterwards `finalize` returns the certified id and the unconfirmed key. -/
theorem C40_hmqv_output_after_bad_mac_initiator (s : IdHmqvC G R) (hs : s.nextStep = 2) (hnd : s.done = false)
    (x : R.Scalar) (hx : s.ephSk = some x) (hX : s.ephPk = some (x • R.base)) (u : R.Scalar)
    (eph : R.Pt) (mac : ByteArr 32) (c : HmqvCert R) (hR : R.Correct)
    (hv : G.verify s.mpk (c.id.1 ++ (R.compress c.upk).1) c.sig = true)
    (hmac : mac ≠ P.hkdfExpand (R.compress (hmqvPoint R x s.usk s.myCert.id c.id (R.compress eph) eph c.upk)).1
      (s.ssid.1 ++ ascii "mac1") 32) :
    ∃ s', IdHmqvC.run P s u ((R.compress eph).1 ++ mac.1 ++ c.toBytes) = .err s' .mac ∧ s'.done = false ∧
      ∃ key, (hmqvIbke P G R).finalize s' = some (c.id, key) := by
  have hv' : G.verify s.mpk c.tbs c.sig = true := hv
  simp only [IdHmqvC.run, hs, IdHmqvC.parse2_msg hR, hv', hx, hX, Bool.not_true, Bool.false_eq_true, if_false]
  rw [if_pos (by
    intro hc
    exact hmac (Subtype.ext hc))]
  exact ⟨_, rfl, hnd, _, rfl⟩

/-- C41 (HMQV-C): once done, every further call panics; each role makes at most two successful calls and is done exactly when it
made both. -/
theorem C41_hmqv_one_shot (ssid : Ssid) (mpk : G.Pk) (cert : HmqvCert R) (usk : R.Scalar) (role : Role)
    (t : List Event) (s : IdHmqvC G R) (h : Trace (IdHmqvC.run P) (IdHmqvC.newSession ssid mpk cert usk role) t s) :
    (s.done = true → ∀ u m, IdHmqvC.run P s u m = .panic) ∧ okCount t ≤ 2 ∧ (s.done = true ↔ okCount t = 2) := by
  have hz : ∀ errs : List Event, (∀ e ∈ errs, e.outcome = none) → errs.countP (fun e => e.outcome.isSome) = 0 := by
    intro errs he
    rw [List.countP_eq_zero]
    intro e h'; simp [he e h']
  cases role with
  | initiator =>
    rcases IdHmqvC.trace_inv_init P ssid mpk cert usk t s h with ⟨rfl, rfl⟩ | ⟨x, errs, i, k, rfl, he, rfl⟩ |
      ⟨x, errs, ephb, upkb, id, sig, eph, upk, rfl, he, h1, h2, h3, rfl⟩
    · simp [okCount, IdHmqvC.newSession]
    · simp [okCount, IdHmqvC.newSession, hz errs he]
    · refine ⟨fun _ u m => IdHmqvC.run_late P _ (by simp) u m, ?_⟩
      simp [okCount, hz errs he]
  | responder =>
    rcases IdHmqvC.trace_inv_resp P ssid mpk cert usk t s h with ⟨he, rfl⟩ |
      ⟨x, errs, errs', ephb, upkb, id, sig, eph, upk, he, he', h1, h2, h3, ⟨rfl, rfl⟩ | ⟨rfl, rfl⟩⟩
    · simp [okCount, IdHmqvC.newSession, hz t he]
    · simp [okCount, IdHmqvC.newSession, IdHmqvC.afterFirst, hz errs he, hz errs' he']
    · refine ⟨fun _ u m => IdHmqvC.run_late P _ (by simp) u m, ?_⟩
      simp [okCount, hz errs he, hz errs' he']

/-- C11 (HMQV-C): at every step except the initiator's first, an empty message is not accepted. -/
theorem C11_hmqv_empty_no_progress (s s' : IdHmqvC G R) (hs : s.nextStep ≠ 0) (u : R.Scalar) (o : Option Bytes) :
    IdHmqvC.run P s u [] ≠ .ok s' o := by
  have hp : IdHmqvC.parse1 R [] = none := by simp [IdHmqvC.parse1, splitAt?]
  have hp2 : IdHmqvC.parse2 R [] = none := by simp [IdHmqvC.parse2, splitAt?]
  match hn : s.nextStep with
  | 0 => exact absurd hn hs
  | 1 => simp [IdHmqvC.run, hn, hp]
  | 2 => simp [IdHmqvC.run, hn, hp2]
  | 3 =>
    simp only [IdHmqvC.run, hn]
    split
    · simp
    · next mac0 _ _ =>
      rw [if_pos (by intro hc; have := congrArg List.length hc; simp [mac0.2] at this)]
      simp
  | n + 4 => simp [IdHmqvC.run, hn]

end

/-! ## A concrete history

A responder accepts a first message, rejects a wrong MAC, then accepts the right one; an initiator rejects a wrong MAC first. -/

/-- Toy run, reporting: finalize before completion (responder), done flags, finalize after a MAC failure (initiator). -/
def toyHmqvRun : Option (Bool × Bool × Bool × Bool × Bool) :=
  let I := hmqvIbke toyPrims toyEd toyGroup
  let idI : Id := .rep 32 1
  let idR : Id := .rep 32 2
  let a : toyGroup.Scalar := (3 : Fin 251)
  let b : toyGroup.Scalar := (4 : Fin 251)
  let cI := I.extract () (9 : UInt8) idI (I.genUser a).1
  let cR := I.extract () (9 : UInt8) idR (I.genUser b).1
  let sI := I.newSession () (.rep 32 0) (I.genMain (9 : UInt8)).1 cI a .initiator
  let sR := I.newSession () (.rep 32 0) (I.genMain (9 : UInt8)).1 cR b .responder
  match I.run sI (11 : Fin 251) [] with
  | .ok sI (some m1) =>
    match I.run sR (13 : Fin 251) m1 with
    | .ok sR (some m2) =>
      let bad := m2.take 32 ++ List.replicate 32 0 ++ m2.drop 64
      match I.run sI (0 : Fin 251) bad with
      | .err sI' _ => match I.run sI' (0 : Fin 251) m2 with
        | .ok sI'' (some m3) => match I.run sR (0 : Fin 251) [1, 2] with
          | .err sR' _ => match I.run sR' (0 : Fin 251) m3 with
            | .ok sR'' none => some ((I.finalize sR).isSome && !I.isDone sR, (I.finalize sI').isSome && !I.isDone sI',
                I.isDone sI'', I.isDone sR'', decide (I.finalize sI'' = (I.finalize sR'').map fun p => (idR, p.2)))
            | _ => none
          | _ => none
        | _ => none
      | _ => none
    | _ => none
  | _ => none

example : toyHmqvRun = some (true, true, true, true, true) := by decide +kernel

end Verif.Props
