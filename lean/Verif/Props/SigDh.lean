import Verif.Latke.Ibke.SigDhLemmas
import Verif.Latke.IbkeSpec

/-! # Signed-DH IBKE: C11, C14, C28, C32, C33, C37–C41 (the `IdSigDh` instance) -/

namespace Verif.Props
open Verif Verif.Latke

section
variable (P : SymPrims) (G : Ed25519) (D : X25519)

/-- C28: two Signed-DH users with certificates from the same main key agree, whatever the ids, ssid, keys and coins. -/
theorem C28_sigdh_agreement (hG : G.Correct) (hD : D.Correct) (mc : G.Sk) (ucI ucR : G.Sk × D.Sk) (ssid : Ssid) (idI idR : Id)
    (eI eR eL : D.Sk) :
    IbkeAgrees (sigDhIbke P G D) mc ucI ucR () () () () ssid idI idR [eI, eR, eL] := by
  let I := sigDhIbke P G D
  let certI : SigDhCert G := I.extract () mc idI (I.genUser ucI).1
  let certR : SigDhCert G := I.extract () mc idR (I.genUser ucR).1
  let s0 : IdSigDh G D := IdSigDh.newSession ssid (G.pkOf mc) certI ucI .initiator
  let r0 : IdSigDh G D := IdSigDh.newSession ssid (G.pkOf mc) certR ucR .responder
  have vI : G.verify (G.pkOf mc) certI.tbs certI.sig = true := hG.verify_sign _ _
  have vR : G.verify (G.pkOf mc) certR.tbs certR.sig = true := hG.verify_sign _ _
  have wI : G.verify certI.sigPk (IdSigDh.ephTbs 0 ssid (D.pub eI)) (G.sign ucI.1 (IdSigDh.ephTbs 0 ssid (D.pub eI))) = true :=
    hG.verify_sign _ _
  have wR : G.verify certR.sigPk (IdSigDh.ephTbs 1 ssid (D.pub eR)) (G.sign ucR.1 (IdSigDh.ephTbs 1 ssid (D.pub eR))) = true :=
    hG.verify_sign _ _
  let m1 := (D.pub eI).1 ++ (G.sign ucI.1 (IdSigDh.ephTbs 0x00 ssid (D.pub eI))).1 ++ certI.toBytes
  let m2 := (D.pub eR).1 ++ (G.sign ucR.1 (IdSigDh.ephTbs 0x01 ssid (D.pub eR))).1 ++ certR.toBytes
  have n1 : m1 ≠ [] := by
    intro h; have := congrArg List.length h; simp [m1, (D.pub eI).2] at this
  have n2 : m2 ≠ [] := by
    intro h; have := congrArg List.length h; simp [m2, (D.pub eR).2] at this
  let k := IdSigDh.kdf P (D.dh ucI.2 (D.pub ucR.2)) (D.dh eI (D.pub ucR.2)) (D.dh ucI.2 (D.pub eR)) (D.dh eI (D.pub eR)) ssid
    (D.pub eI) (D.pub eR)
  have e1 : IdSigDh.run P s0 eI [] = .ok { s0 with ephSk := some eI, ephPk := some (D.pub eI), nextStep := 2 } (some m1) := by
    rw [IdSigDh.step0 P _ rfl]; rfl
  have e2 : IdSigDh.run P r0 eR m1 = .ok { r0 with outputId := some idI, outputKey := some k, done := true, nextStep := 3 }
      (some m2) := by
    have : r0.nextStep = 1 := rfl
    have hmpk : r0.mpk = G.pkOf mc := rfl
    have hssid : r0.ssid = ssid := rfl
    simp only [IdSigDh.run, this, m1, IdSigDh.parse_msg hG, hmpk, hssid, vI, wI]
    simp only [r0, IdSigDh.newSession, k]
    rw [hD ucI.2 ucR.2, hD eI ucR.2, hD ucI.2 eR, hD eI eR]
    rfl
  have e3 : IdSigDh.run P { s0 with ephSk := some eI, ephPk := some (D.pub eI), nextStep := 2 } eL m2
      = .ok { s0 with ephSk := some eI, ephPk := some (D.pub eI), nextStep := 4, outputId := some idR, outputKey := some k
                      done := true } none := by
    have hmpk : s0.mpk = G.pkOf mc := rfl
    have hssid : s0.ssid = ssid := rfl
    simp only [IdSigDh.run, m2, IdSigDh.parse_msg hG, hmpk, hssid, vR, wR]
    simp only [s0, IdSigDh.newSession, k]
    rfl
  refine ⟨[m1, m2], _, _, k, converse_cons rfl e1 n1 (converse_cons rfl e2 n2 (converse_last rfl e3 rfl rfl)), ?_⟩
  exact ⟨rfl, rfl, rfl, rfl⟩

/-- The hypotheses of C28 are satisfiable. -/
example : toyEd.Correct ∧ toyDh.Correct := ⟨toyEd_correct, toyDh_correct⟩

/-- C32 (Signed-DH certificates): parsing a serialised certificate returns it, and it has the advertised 160 bytes. -/
theorem C32_sigdh_cert_roundtrip (hG : G.Correct) (c : SigDhCert G) :
    SigDhCert.fromBytes c.toBytes = some c ∧ c.toBytes.length = SigDhCert.size ∧ SigDhCert.size = 160 :=
  ⟨SigDhCert.fromBytes_toBytes hG c, c.length_toBytes, rfl⟩

/-- C14 (Signed-DH): the certificate extracted for an id carries that id and verifies under the main public key. -/
theorem C14_sigdh_cert_verifies (hG : G.Correct) (mc : G.Sk) (uc : G.Sk × D.Sk) (id : Id) :
    let I := sigDhIbke P G D
    let cert : SigDhCert G := I.extract () (I.genMain mc).2 id (I.genUser uc).1
    cert.id = id ∧ G.verify (I.genMain mc).1 (cert.id.1 ++ (G.pkToBytes cert.sigPk).1 ++ cert.dhPk.1) cert.sig = true :=
  ⟨rfl, hG.verify_sign _ _⟩

/-- C33 (initiator): in every history after which an initiator session is done, the last call accepted a message
`eph ‖ ephSig ‖ id ‖ pk ‖ dhPk ‖ certSig` where `certSig` verifies under the main key on (id, pk, dhPk) and `ephSig`
verifies under the certified key on (responder byte, ssid, eph); the session's output is that id and the key derived from
the certified and ephemeral DH values with the own secrets, where the own ephemeral `x` is the one whose public
part was sent in the first message. -/
theorem C33_sigdh_authentication_initiator (ssid : Ssid) (mpk : G.Pk) (cert : SigDhCert G) (usk : G.Sk × D.Sk) (t : List Event)
    (s : IdSigDh G D)
    (h : Trace (IdSigDh.run P) (IdSigDh.newSession ssid mpk cert usk .initiator) t s)
    (hd : s.done = true) :
    ∃ (x : D.Sk) (rest : Bytes) (eph dhPk pkb : ByteArr 32) (ephSig certSig : ByteArr 64) (pk : G.Pk) (id : Id),
      t.head? = some ⟨[], some (some ((D.pub x).1 ++ rest))⟩ ∧
      t.getLast? = some ⟨eph.1 ++ ephSig.1 ++ (id.1 ++ pkb.1 ++ dhPk.1 ++ certSig.1), some none⟩ ∧
      G.pkFromBytes pkb = some pk ∧
      G.verify mpk (id.1 ++ (G.pkToBytes pk).1 ++ dhPk.1) certSig = true ∧
      G.verify pk ([0x01] ++ ssid.1 ++ eph.1) ephSig = true ∧
      (sigDhIbke P G D).finalize s = some (id, P.hkdfExpand
        (P.hkdfExtract [] ((D.dh usk.2 dhPk).1 ++ (D.dh x dhPk).1 ++ (D.dh usk.2 eph).1 ++ (D.dh x eph).1)).1
        (ssid.1 ++ (D.pub x).1 ++ eph.1) 32) := by
  rcases IdSigDh.trace_inv_init P ssid mpk cert usk t s h with ⟨rfl, rfl⟩ | ⟨x, errs, i, rfl, he, rfl⟩ |
    ⟨x, errs, m, eph, dhPk, id, rfl, he, ⟨ephSig, certSig, pkb, pk, rfl, hk, h1, h2⟩, rfl⟩
  · simp [sigDhIbke, IdSigDh.newSession] at hd
  · simp [sigDhIbke, IdSigDh.newSession] at hd
  · exact ⟨x, _, eph, dhPk, pkb, ephSig, certSig, pk, id, by simp [List.append_assoc]; rfl, List.getLast?_concat, hk, h1, h2, rfl⟩

/-- C33 (responder): same statement with the initiator byte and the responder's key derivation. -/
theorem C33_sigdh_authentication_responder (ssid : Ssid) (mpk : G.Pk) (cert : SigDhCert G) (usk : G.Sk × D.Sk) (t : List Event)
    (s : IdSigDh G D)
    (h : Trace (IdSigDh.run P) (IdSigDh.newSession ssid mpk cert usk .responder) t s)
    (hd : s.done = true) :
    ∃ (x : D.Sk) (rest : Bytes) (eph dhPk pkb : ByteArr 32) (ephSig certSig : ByteArr 64) (pk : G.Pk) (id : Id),
      t.getLast? = some ⟨eph.1 ++ ephSig.1 ++ (id.1 ++ pkb.1 ++ dhPk.1 ++ certSig.1), some (some ((D.pub x).1 ++ rest))⟩ ∧
      G.pkFromBytes pkb = some pk ∧
      G.verify mpk (id.1 ++ (G.pkToBytes pk).1 ++ dhPk.1) certSig = true ∧
      G.verify pk ([0x00] ++ ssid.1 ++ eph.1) ephSig = true ∧
      (sigDhIbke P G D).finalize s = some (id, P.hkdfExpand
        (P.hkdfExtract [] ((D.dh usk.2 dhPk).1 ++ (D.dh usk.2 eph).1 ++ (D.dh x dhPk).1 ++ (D.dh x eph).1)).1
        (ssid.1 ++ eph.1 ++ (D.pub x).1) 32) := by
  rcases IdSigDh.trace_inv_resp P ssid mpk cert usk t s h with ⟨i, he, rfl⟩ |
    ⟨x, errs, m, eph, dhPk, id, rfl, he, ⟨ephSig, certSig, pkb, pk, rfl, hk, h1, h2⟩, rfl⟩
  · simp [sigDhIbke, IdSigDh.newSession] at hd
  · exact ⟨x, _, eph, dhPk, pkb, ephSig, certSig, pk, id, by simp [List.append_assoc]; rfl, hk, h1, h2, rfl⟩

/-- C37 (Signed-DH): the strings signed in the two roles are never equal, whatever ssids and keys. -/
theorem C37_sigdh_roles_disjoint (ssid ssid' : Ssid) (eph eph' : ByteArr 32) :
    IdSigDh.ephTbs 0x00 ssid eph ≠ IdSigDh.ephTbs 0x01 ssid' eph' := by
  simp [IdSigDh.ephTbs]

/-- C37 (Signed-DH): if a session accepts a message whose ephemeral signature was made by any key `sk` signing as the *same* role in any
session `ssid'` with any ephemeral — in particular a reflected own message — then the message is `eph ‖ sig ‖ id ‖ pk ‖ dhPk ‖ certSig` with a
certificate valid under the main key, and the certified key `pk` accepts that signature on a string that starts with the other role
byte: a forgery against `pk`, since `sk` signed a different string. -/
theorem C37_sigdh_no_reflection (ssid : Ssid) (mpk : G.Pk) (cert : SigDhCert G) (usk : G.Sk × D.Sk) (role : Role)
    (t : List Event) (s s' : IdSigDh G D)
    (h : Trace (IdSigDh.run P) (IdSigDh.newSession ssid mpk cert usk role) t s)
    (u : D.Sk) (eph : ByteArr 32) (sig : ByteArr 64) (rest : Bytes) (o : Option Bytes)
    (hrun : IdSigDh.run P s u (eph.1 ++ sig.1 ++ rest) = .ok s' o)
    (sk : G.Sk) (ssid' : Ssid) (eph' : ByteArr 32)
    (hsig : sig = G.sign sk ([if role = .initiator then 0x00 else 0x01] ++ ssid'.1 ++ eph'.1)) :
    ∃ (id : Id) (pkb dhPk : ByteArr 32) (certSig : ByteArr 64) (pk : G.Pk),
      rest = id.1 ++ pkb.1 ++ dhPk.1 ++ certSig.1 ∧ G.pkFromBytes pkb = some pk ∧
      G.verify mpk (id.1 ++ (G.pkToBytes pk).1 ++ dhPk.1) certSig = true ∧
      G.verify pk ([if role = .initiator then 0x01 else 0x00] ++ ssid.1 ++ eph.1)
        (G.sign sk ([if role = .initiator then 0x00 else 0x01] ++ ssid'.1 ++ eph'.1)) = true := by
  have aux : ∀ b : UInt8, ∀ (eph2 dhPk : ByteArr 32) (id : Id),
      IdSigDh.Accepts mpk b ssid (eph.1 ++ sig.1 ++ rest) eph2 dhPk id →
      ∃ (id : Id) (pkb dhPk : ByteArr 32) (certSig : ByteArr 64) (pk : G.Pk),
        rest = id.1 ++ pkb.1 ++ dhPk.1 ++ certSig.1 ∧ G.pkFromBytes pkb = some pk ∧
        G.verify mpk (id.1 ++ (G.pkToBytes pk).1 ++ dhPk.1) certSig = true ∧ G.verify pk ([b] ++ ssid.1 ++ eph.1) sig = true := by
    rintro b eph2 dhPk id ⟨ephSig, certSig, pkb, pk, hm, hk, hc, hv⟩
    rw [List.append_assoc, List.append_assoc] at hm
    obtain ⟨q1, hm⟩ := List.append_inj hm (by rw [eph.2, eph2.2])
    obtain ⟨q2, q3⟩ := List.append_inj hm (by rw [sig.2, ephSig.2])
    refine ⟨id, pkb, dhPk, certSig, pk, q3, hk, hc, ?_⟩
    rw [Subtype.ext q2, q1]; exact hv
  cases role with
  | initiator =>
    rcases IdSigDh.trace_inv_init P ssid mpk cert usk t s h with ⟨rfl, rfl⟩ | ⟨x, errs, i, rfl, he, rfl⟩ |
      ⟨x, errs, m, eph', dhPk, id, rfl, he, _, rfl⟩
    · rw [IdSigDh.step0 P _ rfl, if_neg (by
        intro hc; have := congrArg List.length hc; simp [eph.2] at this)] at hrun
      simp at hrun
    · obtain ⟨e2, d2, i2, ha, _⟩ := IdSigDh.step2_ok P rfl rfl rfl hrun
      obtain ⟨id, pkb, dhPk, cs, pk, q1, q2, q3, hv⟩ := aux _ _ _ _ ha
      rw [hsig] at hv
      exact ⟨id, pkb, dhPk, cs, pk, q1, q2, q3, hv⟩
    · rw [IdSigDh.run_late P _ (by simp)] at hrun; simp at hrun
  | responder =>
    rcases IdSigDh.trace_inv_resp P ssid mpk cert usk t s h with ⟨i, he, rfl⟩ |
      ⟨x, errs, m, eph', dhPk, id, rfl, he, _, rfl⟩
    · obtain ⟨e2, d2, i2, ha, _⟩ := IdSigDh.step1_ok P rfl hrun
      obtain ⟨id, pkb, dhPk, cs, pk, q1, q2, q3, hv⟩ := aux _ _ _ _ ha
      rw [hsig] at hv
      exact ⟨id, pkb, dhPk, cs, pk, q1, q2, q3, hv⟩
    · rw [IdSigDh.run_late P _ (by simp)] at hrun; simp at hrun

/-- C38/C39 (Signed-DH): whenever `run` succeeds, on any state and message, `run_sim` on the same state predicts exactly the length of
the outgoing message (or its absence), and leads to the same step number and the same `is_done`. -/
theorem C38_C39_sigdh_sim_matches (s s' : IdSigDh G D) (u : D.Sk) (m : Bytes) (o : Option Bytes)
    (h : IdSigDh.run P s u m = .ok s' o) :
    ∃ z, IdSigDh.runSim s = some (z, o.map List.length) ∧ z.nextStep = s'.nextStep ∧ z.done = s'.done := by
  match hn : s.nextStep with
  | 0 =>
    rw [IdSigDh.step0 P s hn] at h
    by_cases hm : m = []
    · simp only [hm, if_true, Step.ok.injEq] at h
      obtain ⟨rfl, rfl⟩ := h
      exact ⟨{ s with nextStep := 2 }, by simp [IdSigDh.runSim, hn, (D.pub u).2, (G.sign _ _).2, s.cert.length_toBytes]; omega, rfl, rfl⟩
    · simp [hm] at h
  | 1 =>
    obtain ⟨_, _, _, _, rfl, rfl⟩ := IdSigDh.step1_ok P hn h
    exact ⟨{ s with nextStep := 3, done := true }, by simp [IdSigDh.runSim, hn, (D.pub u).2, (G.sign _ _).2, s.cert.length_toBytes]; omega, rfl, rfl⟩
  | 2 =>
    cases hp : IdSigDh.parse G m with
    | none => simp [IdSigDh.run, hn, hp] at h
    | some r =>
      obtain ⟨eph, sig, c⟩ := r
      simp only [IdSigDh.run, hn, hp] at h
      split at h
      · simp at h
      · split at h
        · simp at h
        · split at h
          · simp only [Step.ok.injEq] at h
            obtain ⟨rfl, rfl⟩ := h
            exact ⟨{ s with nextStep := 4, done := true }, by simp [IdSigDh.runSim, hn], rfl, rfl⟩
          · simp at h
  | n + 3 => rw [IdSigDh.run_late P s (by omega)] at h; simp at h

/-- C39 (Signed-DH): a session that is only simulated completes: two simulated steps for the initiator, one for the responder. -/
theorem C39_sigdh_sim_completes (ssid : Ssid) (mpk : G.Pk) (cert : SigDhCert G) (usk : G.Sk × D.Sk) :
    (∃ z1 z2, IdSigDh.runSim (IdSigDh.newSession (G := G) (D := D) ssid mpk cert usk .initiator) = some (z1, some 256) ∧
      IdSigDh.runSim z1 = some (z2, none) ∧ z2.done = true) ∧
    (∃ z1, IdSigDh.runSim (IdSigDh.newSession (G := G) (D := D) ssid mpk cert usk .responder) = some (z1, some 256) ∧
      z1.done = true) :=
  ⟨⟨_, _, rfl, rfl, rfl⟩, ⟨_, rfl, rfl⟩⟩

/-- C40 (Signed-DH): in every reachable state, `finalize` returns a pair exactly when the session is done. -/
theorem C40_sigdh_finalize_iff_done (ssid : Ssid) (mpk : G.Pk) (cert : SigDhCert G) (usk : G.Sk × D.Sk) (role : Role)
    (t : List Event) (s : IdSigDh G D)
    (h : Trace (IdSigDh.run P) (IdSigDh.newSession ssid mpk cert usk role) t s) :
    ((sigDhIbke P G D).finalize s).isSome = true ↔ s.done = true := by
  cases role with
  | initiator =>
    rcases IdSigDh.trace_inv_init P ssid mpk cert usk t s h with ⟨rfl, rfl⟩ | ⟨x, errs, i, rfl, he, rfl⟩ |
      ⟨x, errs, m, eph, dhPk, id, rfl, he, ha, rfl⟩ <;> simp [sigDhIbke, IdSigDh.newSession]
  | responder =>
    rcases IdSigDh.trace_inv_resp P ssid mpk cert usk t s h with ⟨i, he, rfl⟩ |
      ⟨x, errs, m, eph, dhPk, id, rfl, he, ha, rfl⟩ <;> simp [sigDhIbke, IdSigDh.newSession]

/-- C41 (Signed-DH): once done, every further call panics; an initiator makes at most two successful calls, a responder at most
one; and it is done exactly when it made them all. -/
theorem C41_sigdh_one_shot (ssid : Ssid) (mpk : G.Pk) (cert : SigDhCert G) (usk : G.Sk × D.Sk) (role : Role)
    (t : List Event) (s : IdSigDh G D)
    (h : Trace (IdSigDh.run P) (IdSigDh.newSession ssid mpk cert usk role) t s) :
    (s.done = true → ∀ u m, IdSigDh.run P s u m = .panic) ∧
    okCount t ≤ (if role = .initiator then 2 else 1) ∧
    (s.done = true ↔ okCount t = if role = .initiator then 2 else 1) := by
  have hz : ∀ errs : List Event, (∀ e ∈ errs, e.outcome = none) → errs.countP (fun e => e.outcome.isSome) = 0 := by
    intro errs he
    rw [List.countP_eq_zero]
    intro e h'; simp [he e h']
  cases role with
  | initiator =>
    rcases IdSigDh.trace_inv_init P ssid mpk cert usk t s h with ⟨rfl, rfl⟩ | ⟨x, errs, i, rfl, he, rfl⟩ |
      ⟨x, errs, m, eph, dhPk, id, rfl, he, ha, rfl⟩
    · simp [okCount, sigDhIbke, IdSigDh.newSession]
    · simp [okCount, sigDhIbke, IdSigDh.newSession, hz errs he]
    · refine ⟨fun _ u m => IdSigDh.run_late (G := G) (D := D) P _ (by simp) u m, ?_⟩
      simp [okCount, sigDhIbke, hz errs he]
  | responder =>
    rcases IdSigDh.trace_inv_resp P ssid mpk cert usk t s h with ⟨i, he, rfl⟩ |
      ⟨x, errs, m, eph, dhPk, id, rfl, he, ha, rfl⟩
    · simp [okCount, sigDhIbke, IdSigDh.newSession, hz t he]
    · refine ⟨fun _ u m => IdSigDh.run_late (G := G) (D := D) P _ (by simp) u m, ?_⟩
      simp [okCount, sigDhIbke, hz errs he]

/-- C11 (Signed-DH): at every step except the initiator's first, an empty message panics. -/
theorem C11_sigdh_empty_no_progress (s : IdSigDh G D) (hs : s.nextStep ≠ 0) (u : D.Sk) :
    IdSigDh.run P s u [] = .panic := by
  have hp : IdSigDh.parse G [] = none := by simp [IdSigDh.parse, splitAt?]
  match hn : s.nextStep with
  | 0 => exact absurd hn hs
  | 1 => simp [IdSigDh.run, hn, hp]
  | 2 => simp [IdSigDh.run, hn, hp]
  | n + 3 => simp [IdSigDh.run, hn]

end

/-! ## A concrete history

One honest initiator history (toy primitives) reaching `done`, with a garbage certificate rejected on the way: it meets the hypotheses
of C33, C40, C41. -/

/-- Initiator and responder sessions and messages of the toy run. -/
def toySigDhRun : Option (List Bytes × Bool × Bool × Bool) :=
  let I := sigDhIbke toyPrims toyEd toyDh
  let idI : Id := .rep 32 1
  let idR : Id := .rep 32 2
  let cI := I.extract () (9 : UInt8) idI (I.genUser ((3 : UInt8), (5 : UInt8))).1
  let cR := I.extract () (9 : UInt8) idR (I.genUser ((4 : UInt8), (7 : UInt8))).1
  let sI := I.newSession () (.rep 32 0) (I.genMain (9 : UInt8)).1 cI ((3 : UInt8), (5 : UInt8)) .initiator
  let sR := I.newSession () (.rep 32 0) (I.genMain (9 : UInt8)).1 cR ((4 : UInt8), (7 : UInt8)) .responder
  match I.run sI (11 : UInt8) [] with
  | .ok sI (some m1) =>
    match I.run sR (13 : UInt8) m1 with
    | .ok _ (some m2) =>
      match I.run sI (0 : UInt8) m1 with
      | .err sI _ => match I.run sI (0 : UInt8) m2 with
        | .ok sI none => some ([m1, m2], (I.finalize sI).isSome, I.isDone sI, decide (m1 ≠ m2))
        | _ => none
      | _ => none
    | _ => none
  | _ => none

example : (toySigDhRun.map (·.2)) = some (true, true, true) := by decide +kernel

end Verif.Props
