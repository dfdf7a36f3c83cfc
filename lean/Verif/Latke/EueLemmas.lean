import Verif.Latke.EueSpec
import Verif.Props.AuthEnc

/-! # Helper lemmas for the EUE transform -/

namespace Verif.Latke
open Verif.Props

/-- The session is at chain position `n`, past its first step and in real mode. -/
structure AtKey {I : Ibke} (P : SymPrims) (ik : ByteArr 32) (ssid : Ssid) (n : Nat) (e : Eue I) : Prop where
  msg : e.msgKey = msgKeyAt P ik ssid n
  chain : e.chainKey = chainAt P ik ssid n
  first : e.nextStepIsFirst = false
  real : e.realMode = true

theorem AtKey.ratchet {I : Ibke} {P : SymPrims} {ik : ByteArr 32} {ssid : Ssid} {n : Nat} {e : Eue I}
    (h : AtKey P ik ssid n e) : AtKey P ik ssid (n + 1) (e.ratchet P) := by
  refine ⟨?_, ?_, h.first, h.real⟩
  · simp [Eue.ratchet, msgKeyAt, h.chain]
  · simp [Eue.ratchet, chainAt, h.chain]

theorem ratchet_sess {I : Ibke} (P : SymPrims) (e : Eue I) : (e.ratchet P).sess = e.sess := rfl

/-- Step of a session past its first step, on an honestly encrypted non-empty message. -/
theorem Eue.run_sync {I : Ibke} {P : SymPrims} {ik : ByteArr 32} {ssid : Ssid} {n : Nat} {e : Eue I}
    (h : AtKey P ik ssid n e) (c : EueCoins I) (nonce : ByteArr 12) (m : Bytes) :
    (∀ s out, I.run e.sess c.ibke m = .ok s out →
      ∃ e', e.run P c (authEncrypt P nonce (msgKeyAt P ik ssid n) m) =
          .ok e' (out.map fun m' => if m'.length > 0 then authEncrypt P c.nonce (msgKeyAt P ik ssid (n + 1)) m' else []) ∧
        AtKey P ik ssid (n + 2) e' ∧ e'.sess = s) ∧
    (∀ s er, I.run e.sess c.ibke m = .err s er →
      ∃ e', e.run P c (authEncrypt P nonce (msgKeyAt P ik ssid n) m) = .err e' er) ∧
    (I.run e.sess c.ibke m = .panic →
      e.run P c (authEncrypt P nonce (msgKeyAt P ik ssid n) m) = .panic) := by
  have hlen : (authEncrypt P nonce (msgKeyAt P ik ssid n) m).length > 0 := by
    rw [C02_authenc_length]; omega
  have hdec : e.decryptIncoming P (authEncrypt P nonce (msgKeyAt P ik ssid n) m) = some (e, some m) := by
    unfold Eue.decryptIncoming
    rw [if_pos ⟨hlen, h.real⟩, h.msg, C01_authenc_roundtrip]
    rfl
  have hr := h.ratchet
  refine ⟨?_, ?_, ?_⟩
  · intro s out hrun
    refine ⟨({ e.ratchet P with sess := s } : Eue I).ratchet P, ?_, ?_, rfl⟩
    · unfold Eue.run
      rw [hdec]
      simp only [h.first, Bool.not_false, if_true, hr.real, ratchet_sess, hrun]
      rw [← hr.msg]
    · have : AtKey P ik ssid (n + 1) ({ e.ratchet P with sess := s } : Eue I) :=
        ⟨hr.msg, hr.chain, hr.first, hr.real⟩
      exact this.ratchet
  · intro s er hrun
    refine ⟨{ e.ratchet P with sess := s }, ?_⟩
    unfold Eue.run
    rw [hdec]
    simp only [h.first, Bool.not_false, if_true, hr.real, ratchet_sess, hrun]
  · intro hrun
    unfold Eue.run
    rw [hdec]
    simp only [h.first, Bool.not_false, if_true, hr.real, ratchet_sess, hrun]

/-- State of a fresh initiator session. -/
structure AtStart {I : Ibke} (P : SymPrims) (ik : ByteArr 32) (ssid : Ssid) (e : Eue I) : Prop where
  msg : e.msgKey = msgKeyAt P ik ssid 0
  chain : e.chainKey = chainAt P ik ssid 0
  first : e.nextStepIsFirst = true
  real : e.realMode = true

/-- First step of the initiator, on the empty message. -/
theorem Eue.run_first {I : Ibke} {P : SymPrims} {ik : ByteArr 32} {ssid : Ssid} {e : Eue I}
    (h : AtStart P ik ssid e) (c : EueCoins I) :
    (∀ s out, I.run e.sess c.ibke [] = .ok s out →
      ∃ e', e.run P c [] =
          .ok e' (out.map fun m' => if m'.length > 0 then authEncrypt P c.nonce (msgKeyAt P ik ssid 0) m' else []) ∧
        AtKey P ik ssid 1 e' ∧ e'.sess = s) ∧
    (∀ s er, I.run e.sess c.ibke [] = .err s er → ∃ e', e.run P c [] = .err e' er) ∧
    (I.run e.sess c.ibke [] = .panic → e.run P c [] = .panic) := by
  have hdec : e.decryptIncoming P [] = some (e, some []) := by
    simp [Eue.decryptIncoming]
  refine ⟨?_, ?_, ?_⟩
  · intro s out hrun
    refine ⟨({ e with nextStepIsFirst := false, sess := s } : Eue I).ratchet P, ?_, ?_, rfl⟩
    · unfold Eue.run
      rw [hdec]
      simp only [h.first, Bool.not_true, Bool.false_eq_true, if_false, h.real, if_true, hrun, h.msg]
    · have : AtKey P ik ssid 0 ({ e with nextStepIsFirst := false, sess := s } : Eue I) :=
        ⟨h.msg, h.chain, rfl, h.real⟩
      exact this.ratchet
  · intro s er hrun
    refine ⟨{ e with nextStepIsFirst := false, sess := s }, ?_⟩
    unfold Eue.run
    rw [hdec]
    simp only [h.first, Bool.not_true, Bool.false_eq_true, if_false, h.real, if_true, hrun]
  · intro hrun
    unfold Eue.run
    rw [hdec]
    simp only [h.first, Bool.not_true, Bool.false_eq_true, if_false, h.real, if_true, hrun]

theorem newSession_initiator {I : Ibke} (P : SymPrims) (c : I.SessCoins) (ssid : Ssid) (mpk cert usk ik) :
    AtStart P ik ssid (Eue.newSession (I := I) P c ssid mpk cert usk .initiator ik) :=
  ⟨rfl, rfl, rfl, rfl⟩

theorem newSession_responder {I : Ibke} (P : SymPrims) (c : I.SessCoins) (ssid : Ssid) (mpk cert usk ik) :
    AtKey P ik ssid 0 (Eue.newSession (I := I) P c ssid mpk cert usk .responder ik) :=
  ⟨rfl, rfl, rfl, rfl⟩

/-- Bundled relation between a bare and an encrypted conversation outcome. -/
def ConvRel {I : Ibke} (P : SymPrims) (ik : ByteArr 32) (ssid : Ssid) (n : Nat) (cs : List (EueCoins I)) :
    Option (List Bytes × I.State × I.State) → Option (List Bytes × Eue I × Eue I) → Prop
  | none, r => r = none
  | some (tr, x, y), r => ∃ ea ep, r = some (encryptFrom P ik ssid n cs tr, ea, ep) ∧ ea.sess = x ∧ ep.sess = y

theorem converse_sync {I : Ibke} (P : SymPrims) (ik : ByteArr 32) (ssid : Ssid) (cs : List (EueCoins I)) :
    ∀ (n : Nat) (a p : Eue I) (nonce : ByteArr 12) (m : Bytes),
      AtKey P ik ssid n a → AtKey P ik ssid (n + 1) p →
      ConvRel P ik ssid (n + 1) cs
        (converse I.run I.isDone (cs.map (·.ibke)) a.sess p.sess m)
        (converse (Eue.run P) Eue.isDone cs a p (authEncrypt P nonce (msgKeyAt P ik ssid n) m)) := by
  induction cs with
  | nil => intro n a p nonce m _ _; simp [converse, ConvRel]
  | cons c cs ih =>
    intro n a p nonce m ha hp
    obtain ⟨hok, herr, hpan⟩ := Eue.run_sync ha c nonce m
    simp only [List.map_cons, converse, Eue.isDone]
    by_cases hd : I.isDone a.sess = true
    · simp [hd, ConvRel]
    simp only [hd, Bool.false_eq_true, if_false]
    cases hrun : I.run a.sess c.ibke m with
    | panic => rw [hpan hrun]; simp [ConvRel]
    | err s er =>
      obtain ⟨e', he⟩ := herr s er hrun
      rw [he]; simp [ConvRel]
    | ok s out =>
      obtain ⟨e', he, hk, hs⟩ := hok s out hrun
      rw [he]
      cases out with
      | none =>
        simp only [Option.map_none, hs, List.isEmpty_map]
        split
        · exact ⟨e', p, by simp [encryptFrom], hs, rfl⟩
        · rfl
      | some m' =>
        simp only [Option.map_some]
        by_cases hm : m' = []
        · simp [hm, ConvRel]
        · have hpos : m'.length > 0 := List.length_pos_iff.mpr hm
          have hne : authEncrypt P c.nonce (msgKeyAt P ik ssid (n + 1)) m' ≠ [] := by
            intro h0
            have := C02_authenc_length P c.nonce (msgKeyAt P ik ssid (n + 1)) m'
            rw [h0] at this; simp at this
          simp only [hm, if_false, hpos, if_true, hne]
          have := ih (n + 1) p e' c.nonce m' hp hk
          rw [hs] at this
          cases hb : converse I.run I.isDone (cs.map (·.ibke)) p.sess s m' with
          | none =>
            rw [hb] at this
            simp only [ConvRel] at this
            rw [this]; rfl
          | some r =>
            obtain ⟨tr, x, y⟩ := r
            rw [hb] at this
            obtain ⟨ea, ep, h1, h2, h3⟩ := this
            rw [h1]
            exact ⟨ep, ea, rfl, h3, h2⟩

theorem converse_start {I : Ibke} (P : SymPrims) (ik : ByteArr 32) (ssid : Ssid) (cs : List (EueCoins I))
    (a p : Eue I) (ha : AtStart P ik ssid a) (hp : AtKey P ik ssid 0 p) :
      ConvRel P ik ssid 0 cs
        (converse I.run I.isDone (cs.map (·.ibke)) a.sess p.sess [])
        (converse (Eue.run P) Eue.isDone cs a p []) := by
  cases cs with
  | nil => simp [converse, ConvRel]
  | cons c cs =>
    obtain ⟨hok, herr, hpan⟩ := Eue.run_first ha c
    simp only [List.map_cons, converse, Eue.isDone]
    by_cases hd : I.isDone a.sess = true
    · simp [hd, ConvRel]
    simp only [hd, Bool.false_eq_true, if_false]
    cases hrun : I.run a.sess c.ibke [] with
    | panic => rw [hpan hrun]; simp [ConvRel]
    | err s er =>
      obtain ⟨e', he⟩ := herr s er hrun
      rw [he]; simp [ConvRel]
    | ok s out =>
      obtain ⟨e', he, hk, hs⟩ := hok s out hrun
      rw [he]
      cases out with
      | none =>
        simp only [Option.map_none, hs, List.isEmpty_map]
        split
        · exact ⟨e', p, by simp [encryptFrom], hs, rfl⟩
        · rfl
      | some m' =>
        simp only [Option.map_some]
        by_cases hm : m' = []
        · simp [hm, ConvRel]
        · have hpos : m'.length > 0 := List.length_pos_iff.mpr hm
          have hne : authEncrypt P c.nonce (msgKeyAt P ik ssid 0) m' ≠ [] := by
            intro h0
            have := C02_authenc_length P c.nonce (msgKeyAt P ik ssid 0) m'
            rw [h0] at this; simp at this
          simp only [hm, if_false, hpos, if_true, hne]
          have := converse_sync P ik ssid cs 0 p e' c.nonce m' hp hk
          rw [hs] at this
          cases hb : converse I.run I.isDone (cs.map (·.ibke)) p.sess s m' with
          | none =>
            rw [hb] at this
            simp only [ConvRel] at this
            rw [this]; rfl
          | some r =>
            obtain ⟨tr, x, y⟩ := r
            rw [hb] at this
            obtain ⟨ea, ep, h1, h2, h3⟩ := this
            rw [h1]
            exact ⟨ep, ea, rfl, h3, h2⟩

/-- Inversion of `decryptIncoming` in real mode. -/
theorem decryptIncoming_inv {I : Ibke} {P : SymPrims} {e e1 : Eue I} {inc : Bytes} {om : Option Bytes}
    (hr : e.realMode = true) (h : e.decryptIncoming P inc = some (e1, om)) :
    e1 = e ∧ ∃ m, om = some m ∧ ((inc = [] ∧ m = []) ∨ (inc ≠ [] ∧ authDecrypt P e.msgKey inc = .ok m)) := by
  unfold Eue.decryptIncoming at h
  by_cases hi : inc.length > 0
  · have hne : inc ≠ [] := List.length_pos_iff.mp hi
    rw [if_pos ⟨hi, hr⟩] at h
    cases hd : authDecrypt P e.msgKey inc with
    | panic => rw [hd] at h; simp at h
    | err er => rw [hd] at h; simp [Res.isOk] at h
    | ok m =>
      rw [hd] at h
      simp only [Res.isOk, Bool.not_true, Bool.false_eq_true, if_false, Option.some.injEq, Prod.mk.injEq] at h
      exact ⟨h.1.symm, m, h.2.symm, Or.inr ⟨hne, rfl⟩⟩
  · have hne : inc = [] := by
      cases inc with
      | nil => rfl
      | cons => simp at hi
    rw [if_neg (fun hc => hi hc.1)] at h
    simp only [Option.some.injEq, Prod.mk.injEq] at h
    exact ⟨h.1.symm, [], h.2.symm, Or.inl ⟨hne, rfl⟩⟩

/-- Inversion of a successful step in real mode. -/
theorem Eue.run_ok_inv {I : Ibke} {P : SymPrims} {e e' : Eue I} {c : EueCoins I} {inc : Bytes}
    {out : Option Bytes} (hr : e.realMode = true) (h : e.run P c inc = .ok e' out) :
    ∃ (m : Bytes) (s : I.State) (o : Option Bytes) (e1 : Eue I),
      ((inc = [] ∧ m = []) ∨ (inc ≠ [] ∧ authDecrypt P e.msgKey inc = .ok m)) ∧
      I.run e.sess c.ibke m = .ok s o ∧
      e1 = (if !e.nextStepIsFirst then e.ratchet P else { e with nextStepIsFirst := false }) ∧
      e' = ({ e1 with sess := s } : Eue I).ratchet P ∧
      out = o.map fun m => if m.length > 0 then authEncrypt P c.nonce e1.msgKey m else [] := by
  unfold Eue.run at h
  cases hd : e.decryptIncoming P inc with
  | none => rw [hd] at h; simp at h
  | some r =>
    obtain ⟨e0, om⟩ := r
    obtain ⟨rfl, m, rfl, hm⟩ := decryptIncoming_inv hr hd
    rw [hd] at h
    have hreal : (if !e0.nextStepIsFirst then e0.ratchet P else { e0 with nextStepIsFirst := false } : Eue I).realMode = true := by
      split <;> simpa [Eue.ratchet] using hr
    have hsess : (if !e0.nextStepIsFirst then e0.ratchet P else { e0 with nextStepIsFirst := false } : Eue I).sess = e0.sess := by
      split <;> rfl
    simp only [hreal, if_true, hsess] at h
    cases hrun : I.run e0.sess c.ibke m with
    | panic => rw [hrun] at h; simp at h
    | err s er => rw [hrun] at h; simp at h
    | ok s o =>
      rw [hrun] at h
      simp only [Step.ok.injEq] at h
      exact ⟨m, s, o, _, hm, hrun, rfl, by rw [hreal]; exact h.1.symm, h.2.symm⟩

end Verif.Latke
