import Verif.Latke.EueLemmas
import Verif.Latke.Toy

/-! # C07–C10: the Encrypt-and-Unconditionally-Execute transform -/

namespace Verif.Props
open Verif Verif.Latke

/-- C07 (success): if the bare key exchange between the two sessions succeeds with the wrapped coins, then the
two EUE endpoints with the same initial key and ssid also succeed; the wire messages are the encryptions of
the bare messages, message `i` under chain key `i`, and both ends finalize exactly as in the bare run. -/
theorem C07_eue_transparent_success (I : Ibke) (P : SymPrims) (ik : ByteArr 32) (ssid : Ssid)
    (cI cR : I.SessCoins) (mpkI mpkR : I.MainPubkey) (certI certR : I.Certificate) (uskI uskR : I.UserPrivkey)
    (cs : List (EueCoins I)) (tr : List Bytes) (sI sR : I.State)
    (h : converse I.run I.isDone (cs.map (·.ibke))
          (I.newSession cI ssid mpkI certI uskI .initiator) (I.newSession cR ssid mpkR certR uskR .responder) []
        = some (tr, sI, sR)) :
    ∃ eI eR, converse (Eue.run P) Eue.isDone cs
          (Eue.newSession P cI ssid mpkI certI uskI .initiator ik)
          (Eue.newSession P cR ssid mpkR certR uskR .responder ik) []
        = some (encryptFrom P ik ssid 0 cs tr, eI, eR) ∧
      eI.finalize = I.finalize sI ∧ eR.finalize = I.finalize sR := by
  have := converse_start P ik ssid cs _ _ (newSession_initiator P cI ssid mpkI certI uskI ik)
    (newSession_responder P cR ssid mpkR certR uskR ik)
  simp only [Eue.newSession] at this h
  rw [h] at this
  obtain ⟨ea, ep, h1, h2, h3⟩ := this
  exact ⟨ea, ep, h1, by simp [Eue.finalize, h2], by simp [Eue.finalize, h3]⟩

/-- C07 (failure): if the bare key exchange does not succeed, neither does the encrypted one. -/
theorem C07_eue_transparent_failure (I : Ibke) (P : SymPrims) (ik : ByteArr 32) (ssid : Ssid)
    (cI cR : I.SessCoins) (mpkI mpkR : I.MainPubkey) (certI certR : I.Certificate) (uskI uskR : I.UserPrivkey)
    (cs : List (EueCoins I))
    (h : converse I.run I.isDone (cs.map (·.ibke))
          (I.newSession cI ssid mpkI certI uskI .initiator) (I.newSession cR ssid mpkR certR uskR .responder) []
        = none) :
    converse (Eue.run P) Eue.isDone cs
          (Eue.newSession P cI ssid mpkI certI uskI .initiator ik)
          (Eue.newSession P cR ssid mpkR certR uskR .responder ik) [] = none := by
  have := converse_start P ik ssid cs _ _ (newSession_initiator P cI ssid mpkI certI uskI ik)
    (newSession_responder P cR ssid mpkR certR uskR ik)
  simp only [Eue.newSession] at this h
  rw [h] at this
  exact this

/-- Every reachable session is still in real mode (used by C08 and C09). -/
theorem C09_real_mode_invariant (I : Ibke) (P : SymPrims) (e0 e : Eue I) (h0 : e0.realMode = true)
    (h : Eue.Reach P e0 e) : e.realMode = true := by
  induction h with
  | start => exact h0
  | @ok e e' c inc out _ hrun ih =>
    obtain ⟨m, s, o, e1, _, _, h1, h2, _⟩ := Eue.run_ok_inv ih hrun
    subst h1; subst h2
    simp only [Eue.ratchet]
    split <;> exact ih
  | @err e e' c inc er _ hrun ih =>
    unfold Eue.run at hrun
    cases hd : e.decryptIncoming P inc with
    | none => rw [hd] at hrun; simp at hrun
    | some r =>
      obtain ⟨e1, om⟩ := r
      obtain ⟨rfl, m, rfl, _⟩ := decryptIncoming_inv ih hd
      rw [hd] at hrun
      have hreal : (if !e1.nextStepIsFirst then e1.ratchet P else { e1 with nextStepIsFirst := false } : Eue I).realMode = true := by
        split <;> simpa [Eue.ratchet] using ih
      simp only [hreal, if_true] at hrun
      split at hrun
      · simp at hrun
      · simp only [Step.err.injEq] at hrun
        rw [← hrun.1]
      · simp at hrun

/-- C08: in every reachable state, a successful step on a non-empty incoming message ran the wrapped protocol on the
authenticated decryption of that message under the current message key, and nothing else. -/
theorem C08_only_authenticated_input (I : Ibke) (P : SymPrims) (e0 e e' : Eue I) (c : EueCoins I)
    (inc : Bytes) (out : Option Bytes) (h0 : e0.realMode = true) (hreach : Eue.Reach P e0 e)
    (hne : inc ≠ []) (hrun : e.run P c inc = .ok e' out) :
    ∃ m o, authDecrypt P e.msgKey inc = .ok m ∧ I.run e.sess c.ibke m = .ok e'.sess o := by
  obtain ⟨m, s, o, e1, hm, hr, _, h2, _⟩ := Eue.run_ok_inv (C09_real_mode_invariant I P e0 e h0 hreach) hrun
  rcases hm with ⟨h, _⟩ | ⟨_, h⟩
  · exact absurd h hne
  · exact ⟨m, o, h, by rw [hr, h2]; rfl⟩

/-- C08/C09: in every reachable state a non-empty incoming message that does not authenticate under the current
message key makes the step panic — whatever the wrapped protocol is, and without dummy traffic. -/
theorem C09_decryption_failure_panics (I : Ibke) (P : SymPrims) (e0 e : Eue I) (c : EueCoins I)
    (inc : Bytes) (h0 : e0.realMode = true) (hreach : Eue.Reach P e0 e)
    (hne : inc ≠ []) (hbad : ∀ m, authDecrypt P e.msgKey inc ≠ .ok m) :
    e.run P c inc = .panic := by
  have hr := C09_real_mode_invariant I P e0 e h0 hreach
  unfold Eue.run Eue.decryptIncoming
  rw [if_pos ⟨List.length_pos_iff.mpr hne, hr⟩]
  cases hd : authDecrypt P e.msgKey inc with
  | panic => simp
  | err er => simp [Res.isOk]
  | ok m => exact absurd hd (hbad m)

/-- C09, the documented behaviour ("if a decryption error occurred, we exit real mode and will just start sending
zeros") fails for every wrapped protocol: no session created by `new_session` ever reaches simulation mode. -/
theorem C09_never_leaves_real_mode (I : Ibke) (P : SymPrims) (c : I.SessCoins) (ssid : Ssid) (mpk : I.MainPubkey)
    (cert : I.Certificate) (usk : I.UserPrivkey) (role : Role) (ik : ByteArr 32) (e : Eue I)
    (h : Eue.Reach P (Eue.newSession P c ssid mpk cert usk role ik) e) : e.realMode = true :=
  C09_real_mode_invariant I P _ e rfl h

private theorem runAll_inv (I : Ibke) (P : SymPrims) (ik : ByteArr 32) (ssid : Ssid)
    (hist : List (EueCoins I × Bytes)) : ∀ (n : Nat) (e e' : Eue I), AtKey P ik ssid n e →
      Eue.runAll P e hist = some e' → AtKey P ik ssid (n + 2 * hist.length) e' := by
  induction hist with
  | nil => intro n e e' h he; simp [Eue.runAll] at he; simpa [← he] using h
  | cons x rest ih =>
    obtain ⟨c, inc⟩ := x
    intro n e e' h he
    simp only [Eue.runAll] at he
    cases hrun : e.run P c inc with
    | panic => rw [hrun] at he; simp at he
    | err s er => rw [hrun] at he; simp at he
    | ok s out =>
      rw [hrun] at he
      obtain ⟨m, s', o, e1, _, _, h1, h2, _⟩ := Eue.run_ok_inv h.real hrun
      have hk : AtKey P ik ssid (n + 1) ({ e1 with sess := s' } : Eue I) := by
        subst h1
        rw [h.first]
        have := h.ratchet
        exact ⟨this.msg, this.chain, this.first, this.real⟩
      have := ih (n + 2) s e' (by rw [h2]; exact hk.ratchet) he
      have e2 : n + 2 * ((c, inc) :: rest).length = n + 2 + 2 * rest.length := by simp; omega
      rw [e2]; exact this

/-- The state after `j ≥ 0` successful calls. -/
private theorem position (I : Ibke) (P : SymPrims) (ik : ByteArr 32) (ssid : Ssid) (c : I.SessCoins)
    (mpk : I.MainPubkey) (cert : I.Certificate) (usk : I.UserPrivkey) (role : Role)
    (hist : List (EueCoins I × Bytes)) (e : Eue I)
    (h : Eue.runAll P (Eue.newSession P c ssid mpk cert usk role ik) hist = some e) :
    (role = .initiator ∧ hist = [] ∧ AtStart P ik ssid e) ∨
    (¬(role = .initiator ∧ hist = []) ∧ AtKey P ik ssid (recvIdx role hist.length) e) := by
  cases role with
  | responder =>
    right
    refine ⟨by simp, ?_⟩
    have := runAll_inv I P ik ssid hist 0 _ e (newSession_responder P c ssid mpk cert usk ik) h
    simpa [recvIdx] using this
  | initiator =>
    cases hist with
    | nil =>
      left
      simp [Eue.runAll] at h
      exact ⟨rfl, rfl, h ▸ newSession_initiator P c ssid mpk cert usk ik⟩
    | cons x rest =>
      right
      refine ⟨by simp, ?_⟩
      obtain ⟨cc, inc⟩ := x
      simp only [Eue.runAll] at h
      have hst := newSession_initiator P c ssid mpk cert usk ik
      cases hrun : (Eue.newSession P c ssid mpk cert usk .initiator ik).run P cc inc with
      | panic => rw [hrun] at h; simp at h
      | err s er => rw [hrun] at h; simp at h
      | ok s out =>
        rw [hrun] at h
        obtain ⟨m, s', o, e1, _, _, h1, h2, _⟩ := Eue.run_ok_inv hst.real hrun
        have hk : AtKey P ik ssid 0 ({ e1 with sess := s' } : Eue I) := by
          subst h1
          rw [hst.first]
          exact ⟨hst.msg, hst.chain, rfl, hst.real⟩
        have := runAll_inv I P ik ssid rest 1 s e (by rw [h2]; exact hk.ratchet) h
        have e2 : recvIdx .initiator ((cc, inc) :: rest).length = 1 + 2 * rest.length := by
          simp [recvIdx]; omega
        rw [e2]; exact this

/-- C10: take any session of any role and any history of `j` successful calls with arbitrary inputs. In the next
successful call, a non-empty incoming message was authenticated under the chain key whose number is the position of that
message on the wire (`2j` for the responder, `2j-1` for the initiator), and a non-empty outgoing message is sealed under the
chain key whose number is its own position (`2j` for the initiator, `2j+1` for the responder): the keys depend on the initial
key, the ssid and the position only. -/
theorem C10_ratchet_sync (I : Ibke) (P : SymPrims) (ik : ByteArr 32) (ssid : Ssid) (c : I.SessCoins)
    (mpk : I.MainPubkey) (cert : I.Certificate) (usk : I.UserPrivkey) (role : Role)
    (hist : List (EueCoins I × Bytes)) (e e' : Eue I) (cc : EueCoins I) (inc : Bytes) (out : Option Bytes)
    (h : Eue.runAll P (Eue.newSession P c ssid mpk cert usk role ik) hist = some e)
    (hrun : e.run P cc inc = .ok e' out) :
    (inc ≠ [] → ∃ m, authDecrypt P (msgKeyAt P ik ssid (recvIdx role hist.length)) inc = .ok m) ∧
    (∀ w, out = some w → w ≠ [] →
      ∃ m, w = authEncrypt P cc.nonce (msgKeyAt P ik ssid (sendIdx role hist.length)) m) := by
  rcases position I P ik ssid c mpk cert usk role hist e h with ⟨rfl, rfl, hk⟩ | ⟨hn, hk⟩
  · obtain ⟨m, s', o, e1, hm, _, h1, h2, h3⟩ := Eue.run_ok_inv hk.real hrun
    constructor
    · intro hne
      rcases hm with ⟨h, _⟩ | ⟨_, h⟩
      · exact absurd h hne
      · exact ⟨m, by rw [show recvIdx .initiator ([] : List (EueCoins I × Bytes)).length = 0 from rfl, ← hk.msg]; exact h⟩
    · intro w hw hwne
      rw [h3] at hw
      cases o with
      | none => simp at hw
      | some mo =>
        simp only [Option.map_some, Option.some.injEq] at hw
        split at hw
        · refine ⟨mo, ?_⟩
          rw [show sendIdx .initiator ([] : List (EueCoins I × Bytes)).length = 0 from rfl, ← hk.msg, ← hw, h1, hk.first]
          rfl
        · exact absurd hw.symm hwne
  · obtain ⟨m, s', o, e1, hm, _, h1, h2, h3⟩ := Eue.run_ok_inv hk.real hrun
    constructor
    · intro hne
      rcases hm with ⟨h, _⟩ | ⟨_, h⟩
      · exact absurd h hne
      · exact ⟨m, by rw [← hk.msg]; exact h⟩
    · intro w hw hwne
      rw [h3] at hw
      cases o with
      | none => simp at hw
      | some mo =>
        simp only [Option.map_some, Option.some.injEq] at hw
        split at hw
        · refine ⟨mo, ?_⟩
          have e2 : sendIdx role hist.length = recvIdx role hist.length + 1 := by
            cases role
            · cases hist with
              | nil => exact absurd ⟨rfl, rfl⟩ hn
              | cons x xs => simp only [sendIdx, recvIdx, List.length_cons]; omega
            · rfl
          rw [e2, ← hk.ratchet.msg, ← hw, h1, hk.first]
          rfl
        · exact absurd hw.symm hwne

/-- C10: the sender of a message and its receiver use the same key number: what the initiator sends in its `j`-th call
the responder receives in its `j`-th call, and what the responder sends in its `j`-th call the initiator receives in
its call `j+1`. -/
theorem C10_indices_match (j : Nat) :
    sendIdx .initiator j = recvIdx .responder j ∧ sendIdx .responder j = recvIdx .initiator (j + 1) := by
  simp [sendIdx, recvIdx]; omega

/-- Non-vacuity of C07, C08, C10: with the toy key exchange and toy primitives the bare run succeeds in three calls, and so does
the encrypted one; the encrypted run carries two messages and differs from the bare one. -/
example :
    (converse toyIbke.run toyIbke.isDone ([5, 6, 7] : List UInt8) (toyIbke.newSession () toyId1 () toyId1 () .initiator)
      (toyIbke.newSession () toyId1 () toyId2 () .responder) []).isSome ∧
    ((converse (Eue.run toyPrims) Eue.isDone
      ([⟨(5 : UInt8), toyNonce⟩, ⟨(6 : UInt8), toyNonce⟩, ⟨(7 : UInt8), toyNonce⟩] : List (EueCoins toyIbke))
      (Eue.newSession (I := toyIbke) toyPrims () toyId1 () toyId1 () .initiator toyId2)
      (Eue.newSession (I := toyIbke) toyPrims () toyId1 () toyId2 () .responder toyId2) []).map
        fun r => (r.1.map List.length, r.2.1.finalize.map (·.1.1), r.2.2.finalize.map (·.1.1)))
      = some ([77, 77], some toyId2.1, some toyId1.1) := by
  decide +kernel

/-- Non-vacuity of C09: a fresh responder session meets the hypotheses with a concrete 50-byte junk message. -/
example : ∀ m, authDecrypt toyPrims
    (Eue.newSession (I := toyIbke) toyPrims () toyId1 () toyId2 () .responder toyId2).msgKey (List.replicate 50 0) ≠ .ok m := by
  have : authDecrypt toyPrims
    (Eue.newSession (I := toyIbke) toyPrims () toyId1 () toyId2 () .responder toyId2).msgKey (List.replicate 50 0) = .err .mk := by
    decide +kernel
  intro m
  rw [this]
  simp

end Verif.Props
