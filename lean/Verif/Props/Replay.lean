import Verif.Props.LatkeExact

/-! # C104: an encrypted message is accepted only where it was made for

Replays, reflections and messages of other sessions: for every history, a message that was sealed or opened under the key of one position and is delivered at another
makes the call panic, unless its HMAC tag is right under both keys. -/

namespace Verif.Props
open Verif Verif.Latke

/-! ## Specification -/

/-- The last 32 bytes of `w` are the HMAC tag of the bytes before them under the MAC half of both keys. -/
def TagClash (P : SymPrims) (k k' : AuthEncKey) (w : Bytes) : Prop :=
  ∃ body tag : Bytes, w = body ++ tag ∧ tag.length = 32 ∧ (P.hmac (k.1.drop 32) body).1 = tag ∧ (P.hmac (k'.1.drop 32) body).1 = tag

/-- The message crossed the wire in this call: it was the call's input, or what it sent. -/
def Event.Carries (ev : Event) (w : Bytes) : Prop := ev.incoming = w ∨ ev.outcome = some (some w)

/-! ## Proofs -/

/-- The tag of `w` is right under `k`. -/
private def Tagged (P : SymPrims) (k : AuthEncKey) (w : Bytes) : Prop :=
  ∃ body tag : Bytes, w = body ++ tag ∧ tag.length = 32 ∧ (P.hmac (k.1.drop 32) body).1 = tag

private theorem Tagged.clash {P : SymPrims} {k k' : AuthEncKey} {w : Bytes} (h : Tagged P k w) (h' : Tagged P k' w) : TagClash P k k' w := by
  obtain ⟨b, t, hw, ht, hm⟩ := h
  obtain ⟨b', t', hw', ht', hm'⟩ := h'
  obtain ⟨rfl, rfl⟩ := List.append_inj' (hw.symm.trans hw') (ht.trans ht'.symm)
  exact ⟨b, t, hw, ht, hm, hm'⟩

private theorem tagged_of_decrypt {P : SymPrims} {k : AuthEncKey} {w m : Bytes} (h : authDecrypt P k w = .ok m) : Tagged P k w := by
  unfold authDecrypt at h
  dsimp only at h
  split at h
  · simp at h
  · next b t hs =>
    split at h
    · simp at h
    · split at h
      · next hm => exact ⟨b, t, (splitEnd?_eq_some hs).1, (splitEnd?_eq_some hs).2, hm⟩
      · simp at h

private theorem tagged_of_opened {P : SymPrims} {k : AuthEncKey} {w m : Bytes} (hw : w ≠ []) (h : openedWith P k w = some m) : Tagged P k w := by
  rw [openedWith, if_neg hw] at h
  split at h
  · next hd => exact tagged_of_decrypt hd
  · simp at h

private theorem tagged_of_sealed {P : SymPrims} {nonce : ByteArr 12} {k : AuthEncKey} {m : Bytes} (h : sealedWith P nonce k m ≠ []) :
    Tagged P k (sealedWith P nonce k m) := by
  unfold sealedWith at h ⊢
  split
  · next hm => simp [hm] at h
  · exact ⟨_, _, rfl, (P.hmac _ _).2, rfl⟩

private theorem wrappedCalls_at {P : SymPrims} {ik : ByteArr 32} {ssid : Ssid} {role : Role} {T T' : List Event} (h : WrappedCalls P ik ssid role T T') :
    ∀ t1 ev t2, T = t1 ++ ev :: t2 → ∃ ev', WrappedCall P ik ssid role t1 ev ev' := by
  induction h with
  | nil => intro t1 ev t2 h; simp at h
  | @snoc t t' e e' _ hc ih =>
    intro t1 ev t2 h
    rcases List.eq_nil_or_concat t2 with rfl | ⟨t3, x, rfl⟩
    · obtain ⟨rfl, h2⟩ := List.append_inj' h rfl
      simp only [List.cons.injEq, and_true] at h2
      subst h2
      exact ⟨_, hc⟩
    · rw [List.concat_eq_append, ← List.cons_append, ← List.append_assoc] at h
      obtain ⟨rfl, _⟩ := List.append_inj' h rfl
      exact ih _ _ _ rfl

section
variable {I : Ibke} {P : SymPrims} {ik : ByteArr 32} {ssid : Ssid} {c : I.SessCoins} {mpk : I.MainPubkey} {cert : I.Certificate} {usk : I.UserPrivkey} {role : Role}

private theorem tagged_sent {t1 t2 : List Event} {ev : Event} {e : Eue I} (h : Trace (Eue.run P) (Eue.newSession P c ssid mpk cert usk role ik) (t1 ++ ev :: t2) e)
    {w : Bytes} (hw : w ≠ []) (hev : ev.outcome = some (some w)) : Tagged P (msgKeyAt P ik ssid (sendKeyNo role (oks t1))) w := by
  obtain ⟨t', z, _, hwc, _⟩ := C86_eue_is_wrapped I P ik ssid c mpk cert usk role _ e h
  obtain ⟨ev', _, nonce, ho⟩ := wrappedCalls_at hwc t1 ev t2 rfl
  rw [hev] at ho
  cases h1 : ev'.outcome with
  | none => rw [h1] at ho; simp at ho
  | some o =>
    cases o with
    | none => rw [h1] at ho; simp at ho
    | some m =>
      rw [h1] at ho
      simp only [Option.map_some, Option.some.injEq] at ho
      subst ho
      exact tagged_of_sealed hw

private theorem tagged_received {t1 t2 : List Event} {ev : Event} {e : Eue I}
    (h : Trace (Eue.run P) (Eue.newSession P c ssid mpk cert usk role ik) (t1 ++ ev :: t2) e)
    (hw : ev.incoming ≠ []) : Tagged P (msgKeyAt P ik ssid (recvKeyNo role (oks t1))) ev.incoming := by
  obtain ⟨t', z, _, hwc, _⟩ := C86_eue_is_wrapped I P ik ssid c mpk cert usk role _ e h
  obtain ⟨ev', ho, _⟩ := wrappedCalls_at hwc t1 ev t2 rfl
  exact tagged_of_opened hw ho

private theorem run_or_tagged {t : List Event} {e : Eue I} (h : Trace (Eue.run P) (Eue.newSession P c ssid mpk cert usk role ik) t e)
    (cc : EueCoins I) {w : Bytes} (hw : w ≠ []) : e.run P cc w = .panic ∨ Tagged P (msgKeyAt P ik ssid (recvKeyNo role (oks t))) w := by
  have := C86_eue_outcome I P ik ssid c mpk cert usk role t e h cc w
  cases ho : openedWith P (msgKeyAt P ik ssid (recvKeyNo role (oks t))) w with
  | some m => exact Or.inr (tagged_of_opened hw ho)
  | none =>
    rw [ho] at this
    left
    cases hr : e.run P cc w with
    | panic => rfl
    | ok s o => rw [hr] at this; simp [mapStep] at this
    | err s o => rw [hr] at this; simp [mapStep] at this

end

private theorem chainSteps_append (a b : List Bool) : chainSteps (a ++ b) = chainSteps a + chainSteps b := by
  simp only [chainSteps, List.count_append]; omega

private theorem oks_split (t1 : List Event) (ev : Event) (t2 : List Event) :
    chainSteps (oks (t1 ++ ev :: t2)) = chainSteps (oks t1) + (if ev.outcome.isSome then 2 else 1) + chainSteps (oks t2) := by
  have : oks (t1 ++ ev :: t2) = oks t1 ++ ([ev.outcome.isSome] ++ oks t2) := by simp [oks]
  rw [this, chainSteps_append, chainSteps_append, ← Nat.add_assoc]
  cases ev.outcome.isSome <;> rfl

private theorem chainSteps_pos {t : List Event} (h : t ≠ []) : 0 < chainSteps (oks t) := by
  cases t with
  | nil => exact absurd rfl h
  | cons a b =>
    have := oks_split [] a b
    simp only [List.nil_append] at this
    split at this <;> omega

/-! ## EUE -/

/-- C104: other sessions.  Take any two EUE sessions — other keys, session ids, roles, users, wrapped protocols — after any histories.  A non-empty message sent by the
first, delivered as the next message of the second, makes that call panic, unless its tag is right under the key it was sent with (position `sendKeyNo` of the first
session) and under the key the second session expects (position `recvKeyNo` of the second). -/
theorem C104_other_session (P : SymPrims) (I I' : Ibke) (ik ik' : ByteArr 32) (ssid ssid' : Ssid) (role role' : Role)
    (c : I.SessCoins) (mpk : I.MainPubkey) (cert : I.Certificate) (usk : I.UserPrivkey)
    (c' : I'.SessCoins) (mpk' : I'.MainPubkey) (cert' : I'.Certificate) (usk' : I'.UserPrivkey)
    (t1 t2 t' : List Event) (ev : Event) (e : Eue I) (e' : Eue I')
    (h : Trace (Eue.run P) (Eue.newSession P c ssid mpk cert usk role ik) (t1 ++ ev :: t2) e)
    (h' : Trace (Eue.run P) (Eue.newSession P c' ssid' mpk' cert' usk' role' ik') t' e')
    (w : Bytes) (hw : w ≠ []) (hev : ev.outcome = some (some w)) (cc : EueCoins I') :
    e'.run P cc w = .panic ∨
      TagClash P (msgKeyAt P ik ssid (sendKeyNo role (oks t1))) (msgKeyAt P ik' ssid' (recvKeyNo role' (oks t'))) w :=
  (run_or_tagged h' cc hw).imp id fun ht => (tagged_sent h hw hev).clash ht

/-- C104: replay.  A non-empty message that an EUE session accepted in any earlier call, delivered again as its next message, makes the call panic, unless its tag is
right under the keys of two different positions of the session's key chain.  (Not claimed: an initiator whose very first call was on an input and returned `Err`; there
the key has not moved.) -/
theorem C104_replay (P : SymPrims) (I : Ibke) (ik : ByteArr 32) (ssid : Ssid) (role : Role) (c : I.SessCoins) (mpk : I.MainPubkey) (cert : I.Certificate)
    (usk : I.UserPrivkey) (t1 t2 : List Event) (ev : Event) (e : Eue I)
    (h : Trace (Eue.run P) (Eue.newSession P c ssid mpk cert usk role ik) (t1 ++ ev :: t2) e) (hw : ev.incoming ≠ [])
    (hfirst : role = .initiator → t1 = [] → t2 = [] → ev.outcome.isSome = true) (cc : EueCoins I) :
    e.run P cc ev.incoming = .panic ∨ ∃ n n', n < n' ∧ TagClash P (msgKeyAt P ik ssid n) (msgKeyAt P ik ssid n') ev.incoming := by
  refine (run_or_tagged h cc hw).imp id fun ht => ⟨_, _, ?_, (tagged_received h hw).clash ht⟩
  have hs := oks_split t1 ev t2
  cases role with
  | responder => simp only [recvKeyNo]; split at hs <;> omega
  | initiator =>
    simp only [recvKeyNo]
    by_cases h1 : t1 = []
    · by_cases h2 : t2 = []
      · rw [if_pos (hfirst rfl h1 h2)] at hs; omega
      · have := chainSteps_pos h2
        split at hs <;> omega
    · have := chainSteps_pos h1
      split at hs <;> omega

/-- C104: reflection.  A non-empty message that an EUE session sent in any earlier call, delivered to the session itself, makes the call panic, unless its tag is right
under the keys of two different positions of the session's key chain. -/
theorem C104_reflection (P : SymPrims) (I : Ibke) (ik : ByteArr 32) (ssid : Ssid) (role : Role) (c : I.SessCoins) (mpk : I.MainPubkey) (cert : I.Certificate)
    (usk : I.UserPrivkey) (t1 t2 : List Event) (ev : Event) (e : Eue I)
    (h : Trace (Eue.run P) (Eue.newSession P c ssid mpk cert usk role ik) (t1 ++ ev :: t2) e)
    (w : Bytes) (hw : w ≠ []) (hev : ev.outcome = some (some w)) (cc : EueCoins I) :
    e.run P cc w = .panic ∨ ∃ n n', n < n' ∧ TagClash P (msgKeyAt P ik ssid n) (msgKeyAt P ik ssid n') w := by
  refine (run_or_tagged h cc hw).imp id fun ht => ⟨_, _, ?_, (tagged_sent h hw hev).clash ht⟩
  have hs := oks_split t1 ev t2
  rw [hev] at hs
  simp only [Option.isSome_some, if_true] at hs
  cases role <;> simp only [recvKeyNo, sendKeyNo] <;> omega

/-- Non-vacuity of C104: a session that has received and sent a message, and panics when it gets either of them again. -/
example :
    let e0 := Eue.newSession (I := toyIbke) toyPrims () toyId1 () toyId2 () .responder toyId2
    let w := authEncrypt toyPrims toyNonce (msgKeyAt toyPrims toyId2 toyId1 0) (toyId1.1 ++ [7])
    (match e0.run toyPrims ⟨(5 : UInt8), toyNonce⟩ w with
      | .ok e1 (some w') => w' != [] && (match e1.run toyPrims ⟨(5 : UInt8), toyNonce⟩ w with | .panic => true | _ => false) &&
          (match e1.run toyPrims ⟨(5 : UInt8), toyNonce⟩ w' with | .panic => true | _ => false)
      | _ => false) = true := by decide +kernel

/-! ## LATKE -/

section
variable {I : Ibke} {K : Pake} {P : SymPrims}

private theorem okOutput_panic {σ ε : Type} {x : Step σ ε (Option Bytes)} (h : x = .panic) : okOutput x = none := by rw [h]; rfl

private theorem run_none {s : Latke I K} {c : LatkeCoins I K} {w : Bytes} (h : (s.run P c w).map (·.2) = none) : s.run P c w = none := by
  cases hr : s.run P c w with
  | none => rfl
  | some x => rw [hr] at h; simp at h

private theorem joined_some {role : Role} {tr : List (Bytes × Option Bytes)} {tP tE : List Event} (h : Joined role (eventsOf tr) tP tE) :
    ∀ ev ∈ tE, ev.outcome.isSome = true := by
  have hall : ∀ ev ∈ eventsOf tr, ev.outcome.isSome = true := by
    intro ev hev
    simp only [eventsOf, List.mem_map] at hev
    obtain ⟨x, _, rfl⟩ := hev
    rfl
  generalize eventsOf tr = T at h hall
  cases h with
  | merged _ =>
    intro ev hev
    rcases List.mem_cons.mp hev with rfl | h2
    · rfl
    · exact hall _ (by simp [h2])
  | apart _ => exact fun ev hev => hall _ (by simp [hev])

end

/-- C104: LATKE.  Take any LATKE session after any history of calls with arbitrary inputs (a PAKE that has nothing to send being done, as all three of the crate are).
Its calls are those of its PAKE session `q`, followed, once that is done with a key `k`, by encrypted calls `tE`.  Every non-empty message received or sent in one of the
encrypted calls, delivered to the session as its next message, makes that call panic, unless its tag is right under the keys of two different positions of the session's
key chain. -/
theorem C104_latke_replay {I : Ibke} {K : Pake} (P : SymPrims)
    (hnone : ∀ q c inc q', K.run q c inc = .ok q' none → K.isDone q' = true)
    (n : K.NewCoins) (ssid : Ssid) (pw : LatkePwfile I) (role : Role) (peer : PeerModel) (hist : List (LatkeCoins I K × Bytes))
    (s : Latke I K) (tr : List (Bytes × Option Bytes))
    (h : latkeHistory P (Latke.newSession n ssid pw role peer) hist = some (s, tr)) :
    ∃ tP q, Trace K.run (K.new n ssid (Latke.pakeInput pw role peer) role) tP q ∧
      (eventsOf tr = tP ∨ K.isDone q = true ∧ ∃ k tE, K.finalize q = some k ∧ Joined role (eventsOf tr) tP tE ∧
        ∀ ev ∈ tE, ∀ w, w ≠ [] → Event.Carries ev w → ∀ c, s.run P c w = none ∨
          ∃ n n', n < n' ∧ TagClash P (msgKeyAt P k ssid n) (msgKeyAt P k ssid n') w) := by
  obtain ⟨tP, q, hP, hc⟩ := C87_latke_is_pake_then_eue P hnone n ssid pw role peer hist s tr h
  refine ⟨tP, q, hP, ?_⟩
  rcases hc with ⟨_, h1, _⟩ | ⟨_, h1, _⟩ | ⟨hd, k, sc, tE, e, hk, hE, hj, _, _, hrun⟩
  · exact Or.inl h1
  · exact Or.inl h1
  · refine Or.inr ⟨hd, k, tE, hk, hj, ?_⟩
    intro ev hev w hw hcar c
    have hok := joined_some hj ev hev
    obtain ⟨t1, t2, rfl⟩ := List.append_of_mem hev
    rcases hcar with rfl | hcar
    · exact (C104_replay P I k ssid role sc pw.mpk pw.cert pw.usk t1 t2 ev e hE hw (fun _ _ _ => hok) c.eue).imp
        (fun hp => run_none (by rw [hrun, okOutput_panic hp])) id
    · exact (C104_reflection P I k ssid role sc pw.mpk pw.cert pw.usk t1 t2 ev e hE w hw hcar c.eue).imp
        (fun hp => run_none (by rw [hrun, okOutput_panic hp])) id

/-- C104: two LATKE sessions — any users, passwords, session ids, roles, PAKEs and wrapped protocols — after any histories.  The first is still in its PAKE, or in its
encrypted calls `tE` under a PAKE key `k`; the second is still in its PAKE, or every non-empty message sent in a call of `tE` makes it panic, unless the tag is right under
the key the message was sent with and under the key the second session expects, which is that of its own PAKE key and of its own number of encrypted calls. -/
theorem C104_latke_other_session {I I' : Ibke} {K K' : Pake} (P : SymPrims)
    (hnone : ∀ q c inc q', K.run q c inc = .ok q' none → K.isDone q' = true)
    (hnone' : ∀ q c inc q', K'.run q c inc = .ok q' none → K'.isDone q' = true)
    (n : K.NewCoins) (ssid : Ssid) (pw : LatkePwfile I) (role : Role) (peer : PeerModel) (hist : List (LatkeCoins I K × Bytes))
    (s : Latke I K) (tr : List (Bytes × Option Bytes)) (h : latkeHistory P (Latke.newSession n ssid pw role peer) hist = some (s, tr))
    (n' : K'.NewCoins) (ssid' : Ssid) (pw' : LatkePwfile I') (role' : Role) (peer' : PeerModel) (hist' : List (LatkeCoins I' K' × Bytes))
    (s' : Latke I' K') (tr' : List (Bytes × Option Bytes)) (h' : latkeHistory P (Latke.newSession n' ssid' pw' role' peer') hist' = some (s', tr')) :
    ∃ tP q tP' q', Trace K.run (K.new n ssid (Latke.pakeInput pw role peer) role) tP q ∧
      Trace K'.run (K'.new n' ssid' (Latke.pakeInput pw' role' peer') role') tP' q' ∧
      (eventsOf tr = tP ∨ (K'.isDone q' = false ∧ eventsOf tr' = tP') ∨ ∃ k tE, K.finalize q = some k ∧ Joined role (eventsOf tr) tP tE ∧
        ∀ t1 ev t2 w, tE = t1 ++ ev :: t2 → w ≠ [] → ev.outcome = some (some w) → ∀ c, s'.run P c w = none ∨
          ∃ k' tE', K'.finalize q' = some k' ∧ Joined role' (eventsOf tr') tP' tE' ∧
            TagClash P (msgKeyAt P k ssid (sendKeyNo role (oks t1))) (msgKeyAt P k' ssid' (recvKeyNo role' (oks tE'))) w) := by
  obtain ⟨tP, q, hP, hc⟩ := C87_latke_is_pake_then_eue P hnone n ssid pw role peer hist s tr h
  obtain ⟨tP', q', hP', hc'⟩ := C87_latke_is_pake_then_eue P hnone' n' ssid' pw' role' peer' hist' s' tr' h'
  refine ⟨tP, q, tP', q', hP, hP', ?_⟩
  rcases hc with ⟨_, h1, _⟩ | ⟨_, h1, _⟩ | ⟨hd, k, sc, tE, e, hk, hE, hj, _, _, _⟩
  · exact Or.inl h1
  · exact Or.inl h1
  · right
    rcases hc' with ⟨h0, h1, _⟩ | ⟨hd', h1, hl, _, _, hrun⟩ | ⟨hd', k', sc', tE', e', hk', hE', hj', _, _, hrun⟩
    · exact Or.inl ⟨h0, h1⟩
    · refine Or.inr ⟨k, tE, hk, hj, ?_⟩
      intro t1 ev t2 w ht hw hev c
      subst ht
      cases hk' : K'.finalize q' with
      | none => exact Or.inl (run_none (by rw [hrun, hk']; rfl))
      | some k' =>
        have := C104_other_session P I I' k k' ssid ssid' role role' sc pw.mpk pw.cert pw.usk c.sess pw'.mpk pw'.cert pw'.usk t1 t2 [] ev e _ hE .nil w hw hev c.eue
        refine this.imp (fun hp => run_none (by rw [hrun, hk', Option.bind_some, okOutput_panic hp])) fun hc => ⟨k', [], rfl, ?_, hc⟩
        rw [h1]
        simpa using Joined.apart (role := role') (tP := tP') (tE := []) (fun _ => hl)
    · refine Or.inr ⟨k, tE, hk, hj, ?_⟩
      intro t1 ev t2 w ht hw hev c
      subst ht
      have := C104_other_session P I I' k k' ssid ssid' role role' sc pw.mpk pw.cert pw.usk sc' pw'.mpk pw'.cert pw'.usk t1 t2 tE' ev e e' hE hE' w hw hev c.eue
      exact this.imp (fun hp => run_none (by rw [hrun, okOutput_panic hp])) fun hc => ⟨k', tE', hk', hj', hc⟩

/-! ## PAKE sessions that end with different keys -/

section
variable {I : Ibke} {K : Pake}

/-- The first encrypted message, opened under another key. -/
private theorem responder_panics (P : SymPrims) (kI kR : SessKey) (ssid : Ssid) (c : I.SessCoins) (mpk : I.MainPubkey) (cert : I.Certificate) (usk : I.UserPrivkey)
    (cc : EueCoins I) (nonce : ByteArr 12) (m : Bytes) :
    (Eue.newSession P c ssid mpk cert usk .responder kR).run P cc (authEncrypt P nonce (msgKeyAt P kI ssid 0) m) = .panic ∨
      TagClash P (msgKeyAt P kI ssid 0) (msgKeyAt P kR ssid 0) (authEncrypt P nonce (msgKeyAt P kI ssid 0) m) :=
  (run_or_tagged (t := []) (role := .responder) (ik := kR) .nil cc (authEncrypt_ne_nil P nonce (msgKeyAt P kI ssid 0) m)).imp id
    fun h => Tagged.clash ⟨_, _, rfl, (P.hmac _ _).2, rfl⟩ h

/-- One call of the responder that panics stops the two users. -/
private theorem drive_stops (P : SymPrims) {a p a' : Latke I K} {c : LatkeCoins I K} {inc : Bytes} {o : Option Bytes} (rest : List (LatkeCoins I K))
    (ha : a.isDone = false) (hp : p.isDone = false) (hr : a.run P c inc = some (a', o)) (hn : ∀ c, p.run P c (o.getD []) = none) :
    Latke.drive P (c :: rest) a p inc = none := by
  rw [Latke.drive]
  simp only [ha, Bool.false_eq_true, if_false, hr]
  cases rest with
  | nil => simp [Latke.drive, hp]
  | cons d ds => simp [Latke.drive, hp, hn]

end

/-- C104: if the PAKE runs to its end on both sides but with keys `kI` and `kR`, the last call being the initiator's (CAKE, CPace), then the users never complete LATKE, however
many calls they make: the responder panics on the first encrypted message — unless the tag of that message is right under both keys of position 0. -/
theorem C104_keys_differ_odd (I : Ibke) (K : Pake) (P : SymPrims) (ssid : Ssid) (pwI pwR : LatkePwfile I) (peerI peerR : PeerModel) (nI nR : K.NewCoins)
    (pre : List (LatkeCoins I K)) (c0 : LatkeCoins I K) (rest : List (LatkeCoins I K)) (hpar : pre.length % 2 = 0)
    (trP : List Bytes) (qI qR : K.State) (kI kR : SessKey)
    (hP : converse K.run K.isDone ((pre ++ [c0]).map (·.pake)) (K.new nI ssid (Latke.pakeInput pwI .initiator peerI) .initiator)
      (K.new nR ssid (Latke.pakeInput pwR .responder peerR) .responder) [] = some (trP, qI, qR))
    (hkI : K.finalize qI = some kI) (hkR : K.finalize qR = some kR)
    (z : I.State) (m : Bytes) (hm : m ≠ [])
    (hI : I.run (I.newSession c0.sess ssid pwI.mpk pwI.cert pwI.usk .initiator) c0.eue.ibke [] = .ok z (some m)) :
    Latke.drive P (pre ++ c0 :: rest) (Latke.newSession nI ssid pwI .initiator peerI : Latke I K) (Latke.newSession nR ssid pwR .responder peerR) [] = none ∨
      TagClash P (msgKeyAt P kI ssid 0) (msgKeyAt P kR ssid 0) (authEncrypt P c0.eue.nonce (msgKeyAt P kI ssid 0) m) := by
  obtain ⟨l, o, ql, q', w, tl, qo, h1, h2, h3, h4, h5, h6, h7, h8, h9⟩ :=
    drive_pake P ssid pre c0 rest (Latke.newSession nI ssid pwI .initiator peerI : Latke I K)
      (Latke.newSession nR ssid pwR .responder peerR : Latke I K) _ _ [] [] pwI pwR .initiator .responder trP qI qR
      ⟨rfl, rfl, rfl, rfl, rfl, rfl⟩ ⟨rfl, rfl, rfl, rfl, rfl, rfl⟩ hP
  simp only [hpar, if_true] at h1 h2 h7 h9
  obtain ⟨rfl, rfl⟩ := h7
  have hpan := responder_panics (I := I) P kI kR ssid
  by_cases hc : TagClash P (msgKeyAt P kI ssid 0) (msgKeyAt P kR ssid 0) (authEncrypt P c0.eue.nonce (msgKeyAt P kI ssid 0) m)
  · exact Or.inr hc
  left
  have hmg := run_merge P l qI kI c0 w (by rw [h1.pake]; exact h3) h1.ibke h1.role (by rw [h1.pake]; exact h4) h5 hkI
  obtain ⟨e', he, _⟩ := (Eue.run_first (newSession_initiator (I := I) P c0.sess ssid pwI.mpk pwI.cert pwI.usk kI) c0.eue).1 z (some m) hI
  have hlen : m.length > 0 := List.length_pos_iff.mpr hm
  simp only [Option.map_some, hlen, if_true] at he
  obtain ⟨l2, hl2, _⟩ := run_inIbke P (s := { l with pakeState := qI, transcript := l.transcript ++ w, ibkeState := some (Eue.newSession P c0.sess l.ssid l.pwfile.mpk l.pwfile.cert l.pwfile.usk l.role kI) })
    (e := Eue.newSession P c0.sess ssid pwI.mpk pwI.cert pwI.usk .initiator kI) (e' := e') (t := l.transcript ++ w)
    ⟨h5, by rw [h1.ssid, h1.pw, h1.role], rfl⟩ c0 [] _ he
  rw [h9, drive_stops P rest h1.not_done h2.not_done (hmg.trans hl2), Option.map_none]
  intro d
  have hg : o.getEue P o.pakeState d = some (Eue.newSession P d.sess ssid pwR.mpk pwR.cert pwR.usk .responder kR) := by
    simp [Latke.getEue, h2.ibke, h2.pake, hkR, h2.ssid, h2.pw, h2.role]
  rw [run_lazy P o _ d _ (by rw [h2.pake]; exact h6) hg]
  have hp := (hpan d.sess pwR.mpk pwR.cert pwR.usk d.eue c0.eue.nonce m).resolve_right hc
  unfold Latke.run Latke.pakePhase
  simp [h2.pake, h6, Latke.getEue, hp]

/-- C104: the same when the last PAKE call is the responder's (KC-SPAKE2). -/
theorem C104_keys_differ_even (I : Ibke) (K : Pake) (P : SymPrims) (ssid : Ssid) (pwI pwR : LatkePwfile I) (peerI peerR : PeerModel) (nI nR : K.NewCoins)
    (pre : List (LatkeCoins I K)) (c0 c1 : LatkeCoins I K) (rest : List (LatkeCoins I K)) (hpar : pre.length % 2 = 1)
    (trP : List Bytes) (qI qR : K.State) (kI kR : SessKey)
    (hP : converse K.run K.isDone ((pre ++ [c0]).map (·.pake)) (K.new nI ssid (Latke.pakeInput pwI .initiator peerI) .initiator)
      (K.new nR ssid (Latke.pakeInput pwR .responder peerR) .responder) [] = some (trP, qI, qR))
    (hkI : K.finalize qI = some kI) (hkR : K.finalize qR = some kR)
    (hnd : I.isDone (I.newSession c0.sess ssid pwR.mpk pwR.cert pwR.usk .responder) = false)
    (z : I.State) (m : Bytes) (hm : m ≠ [])
    (hI : I.run (I.newSession c1.sess ssid pwI.mpk pwI.cert pwI.usk .initiator) c1.eue.ibke [] = .ok z (some m)) :
    Latke.drive P (pre ++ c0 :: c1 :: rest) (Latke.newSession nI ssid pwI .initiator peerI : Latke I K) (Latke.newSession nR ssid pwR .responder peerR) [] = none ∨
      TagClash P (msgKeyAt P kI ssid 0) (msgKeyAt P kR ssid 0) (authEncrypt P c1.eue.nonce (msgKeyAt P kI ssid 0) m) := by
  obtain ⟨l, o, ql, q', w, tl, qo, h1, h2, h3, h4, h5, h6, h7, h8, h9⟩ :=
    drive_pake P ssid pre c0 (c1 :: rest) (Latke.newSession nI ssid pwI .initiator peerI : Latke I K)
      (Latke.newSession nR ssid pwR .responder peerR : Latke I K) _ _ [] [] pwI pwR .initiator .responder trP qI qR
      ⟨rfl, rfl, rfl, rfl, rfl, rfl⟩ ⟨rfl, rfl, rfl, rfl, rfl, rfl⟩ hP
  simp only [hpar, Nat.one_ne_zero, if_false] at h1 h2 h7 h9
  obtain ⟨rfl, rfl⟩ := h7
  have hpan := responder_panics (I := I) P kI kR ssid
  by_cases hc : TagClash P (msgKeyAt P kI ssid 0) (msgKeyAt P kR ssid 0) (authEncrypt P c1.eue.nonce (msgKeyAt P kI ssid 0) m)
  · exact Or.inr hc
  left
  have hmr : l.run P c0 w = some ({ l with pakeState := qR, ibkeState := some (Eue.newSession P c0.sess ssid pwR.mpk pwR.cert pwR.usk .responder kR), transcript := tl ++ w }, none) := by
    unfold Latke.run Latke.pakePhase
    simp only [h1.pake, h3, Bool.not_false, if_true, h4, h5, Latke.getEue, h1.ibke, hkR, h1.role, h1.ssid, h1.pw, h1.tr]
    simp only [reduceCtorEq, if_false]
    cases w <;> simp
  have hg : o.getEue P o.pakeState c1 = some (Eue.newSession P c1.sess ssid pwI.mpk pwI.cert pwI.usk .initiator kI) := by
    simp [Latke.getEue, h2.ibke, h2.pake, hkI, h2.ssid, h2.pw, h2.role]
  obtain ⟨e', he, _⟩ := (Eue.run_first (newSession_initiator (I := I) P c1.sess ssid pwI.mpk pwI.cert pwI.usk kI) c1.eue).1 z (some m) hI
  have hlen : m.length > 0 := List.length_pos_iff.mpr hm
  simp only [Option.map_some, hlen, if_true] at he
  have hor := run_lazy P o _ c1 [] (by rw [h2.pake]; exact h6) hg
  obtain ⟨o2, ho2, _⟩ := run_inIbke P (s := { o with ibkeState := some (Eue.newSession P c1.sess ssid pwI.mpk pwI.cert pwI.usk .initiator kI) })
    (e := Eue.newSession P c1.sess ssid pwI.mpk pwI.cert pwI.usk .initiator kI) (e' := e') (t := o.transcript)
    ⟨by rw [← h2.pake] at h6; exact h6, rfl, rfl⟩ c1 [] _ he
  rw [h9, Latke.drive]
  simp only [h1.not_done, Bool.false_eq_true, if_false, hmr, Option.getD_none]
  rw [drive_stops P rest h2.not_done _ (hor.trans ho2), Option.map_none]
  · intro d
    have hp := (hpan c0.sess pwR.mpk pwR.cert pwR.usk d.eue c1.eue.nonce m).resolve_right hc
    unfold Latke.run Latke.pakePhase
    simp [h5, Latke.getEue, hp]
  · simpa [Latke.isDone, Eue.isDone, Eue.newSession] using hnd

/-- A PAKE of the crate for the example below. -/
private abbrev exK : Pake := kcSpake2Pake toyPrims toySpake2

/-- The messages of two LATKE users passing on each other's messages, and after each call of the encrypted exchange: does the caller panic when it gets its own message
again, or the one it has just received. -/
private def replays : Nat → Latke toyIbke exK → Latke toyIbke exK → Bytes → List (Bool × Bool)
  | 0, _, _, _ => []
  | f + 1, a, p, inc => match a.run toyPrims ⟨(), (), ⟨(5 : UInt8), toyNonce⟩⟩ inc with
    | none => []
    | some (a', o) => (if a'.ibkeState.isSome && o.isSome then
        [((a'.run toyPrims ⟨(), (), ⟨(5 : UInt8), toyNonce⟩⟩ (o.getD [])).isNone, (a'.run toyPrims ⟨(), (), ⟨(5 : UInt8), toyNonce⟩⟩ inc).isNone)] else []) ++
      replays f p a' (o.getD [])

/-- Non-vacuity of C104 for LATKE: with KC-SPAKE2 and the toy exchange, both users reach the encrypted calls and panic on replays and reflections. -/
example : (replays 7 (Latke.newSession (3 : UInt8) toyId1 ⟨(), toyId1, ()⟩ .initiator .postSpecified)
      (Latke.newSession (4 : UInt8) toyId1 ⟨(), toyId2, ()⟩ .responder .postSpecified) []).drop 1 = [(true, true)] := by decide +kernel

/-- Non-vacuity of `C104_keys_differ_odd`: two users of CPace, one of them expecting a certain peer and the other not: the PAKE ends on both sides with different keys,
the initiator's first message is not empty, and the users do not complete. -/
example : let K : Pake := cpacePake toyCpace
    let c : LatkeCoins toyIbke K := ⟨(3 : UInt8), (), ⟨(5 : UInt8), toyNonce⟩⟩
    let i : Latke toyIbke K := Latke.newSession () toyId1 ⟨(), toyId1, ()⟩ .initiator .postSpecified
    let r : Latke toyIbke K := Latke.newSession () toyId1 ⟨(), toyId2, ()⟩ .responder (.preSpecified toyId1)
    (match converse K.run K.isDone ([c, c, c].map (·.pake)) i.pakeState r.pakeState [] with
      | some (_, qI, qR) => (K.finalize qI).isSome && (K.finalize qR).isSome && K.finalize qI != K.finalize qR
      | none => false) = true ∧
    (match toyIbke.run (toyIbke.newSession c.sess toyId1 () toyId1 () .initiator) c.eue.ibke [] with
      | .ok _ (some m) => m != []
      | _ => false) = true ∧
    Latke.drive toyPrims [c, c, c, c, c, c] i r [] = none := by decide +kernel

end Verif.Props
