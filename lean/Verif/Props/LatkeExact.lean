import Verif.Props.LatkeAuth
import Verif.Props.SymExact
import Verif.Props.ChipExact

/-! # C86, C87: the outcome of every EUE call and of every LATKE call

C86: an EUE session is the wrapped session with its messages opened and sealed; for every history with failed calls anywhere and every next call,
the outcome of the call is the stated function of the outcome of the wrapped call.
C87: a LATKE session is its PAKE followed by the EUE session keyed by it, call by call, for arbitrary incoming messages. -/

namespace Verif.Props
open Verif Verif.Latke

/-! ## Specification -/

/-- What the wrapped protocol gets for an incoming message: nothing for nothing, else the authenticated decryption, if there is one. -/
def openedWith (P : SymPrims) (key : AuthEncKey) (inc : Bytes) : Option Bytes :=
  if inc = [] then some [] else match authDecrypt P key inc with
    | .ok m => some m
    | _ => none

/-- What is sent for a message of the wrapped protocol. -/
def sealedWith (P : SymPrims) (nonce : ByteArr 12) (key : AuthEncKey) (m : Bytes) : Bytes :=
  if m = [] then [] else authEncrypt P nonce key m

/-- Change the state or the output of a call's result, keeping how it ended. -/
def mapStep {σ τ ε α β : Type} (f : σ → τ) (g : α → β) : Step σ ε α → Step τ ε β
  | .ok s a => .ok (f s) (g a)
  | .err s e => .err (f s) e
  | .panic => .panic

/-- Which calls of a history returned `Ok`. -/
def oks (t : List Event) : List Bool := t.map fun ev => ev.outcome.isSome

/-- The wrapped call `ev'` behind the call `ev`, the one after the calls `t` of a session in role `role`: its input is the opened input of `ev`, it
ended the same way, and what it sent was sealed, both under the keys of this position. -/
def WrappedCall (P : SymPrims) (ik : ByteArr 32) (ssid : Ssid) (role : Role) (t : List Event) (ev ev' : Event) : Prop :=
  openedWith P (msgKeyAt P ik ssid (recvKeyNo role (oks t))) ev.incoming = some ev'.incoming ∧
  ∃ nonce, ev.outcome = ev'.outcome.map (Option.map (sealedWith P nonce (msgKeyAt P ik ssid (sendKeyNo role (oks t)))))

/-- `t'` are the wrapped calls behind the calls `t`. -/
inductive WrappedCalls (P : SymPrims) (ik : ByteArr 32) (ssid : Ssid) (role : Role) : List Event → List Event → Prop
  | nil : WrappedCalls P ik ssid role [] []
  | snoc {t t' ev ev'} : WrappedCalls P ik ssid role t t' → WrappedCall P ik ssid role t ev ev' →
      WrappedCalls P ik ssid role (t ++ [ev]) (t' ++ [ev'])

/-! ## C86 -/

section
variable {I : Ibke} {P : SymPrims}

private theorem eue_run_nf {e : Eue I} (hr : e.realMode = true) (c : EueCoins I) (inc : Bytes) (e1 : Eue I)
    (h1 : e1 = (if !e.nextStepIsFirst then e.ratchet P else { e with nextStepIsFirst := false })) :
    mapStep Eue.sess id (e.run P c inc) = match openedWith P e.msgKey inc with
      | none => .panic
      | some m => mapStep id (Option.map (sealedWith P c.nonce e1.msgKey)) (I.run e.sess c.ibke m) := by
  have hreal : e1.realMode = true := by subst h1; split <;> simpa [Eue.ratchet] using hr
  have hsess : e1.sess = e.sess := by subst h1; split <;> rfl
  have hfin : ∀ m : Bytes, (if m.length > 0 then authEncrypt P c.nonce e1.msgKey m else []) = sealedWith P c.nonce e1.msgKey m := by
    intro m
    unfold sealedWith
    cases m <;> simp
  have key : ∀ m, e.decryptIncoming P inc = some (e, some m) → mapStep Eue.sess id (e.run P c inc) =
      mapStep id (Option.map (sealedWith P c.nonce e1.msgKey)) (I.run e.sess c.ibke m) := by
    intro m hd
    unfold Eue.run
    rw [hd]
    simp only [← h1, hreal, if_true, hsess]
    cases I.run e.sess c.ibke m with
    | panic => rfl
    | err s er => rfl
    | ok s o => simp [mapStep, Eue.ratchet, hfin]
  unfold openedWith
  by_cases hi : inc = []
  · subst hi
    rw [if_pos rfl]
    exact key [] (by simp [Eue.decryptIncoming])
  · rw [if_neg hi]
    have hl : inc.length > 0 ∧ e.realMode = true := ⟨by cases inc <;> simp at hi ⊢, hr⟩
    cases ha : authDecrypt P e.msgKey inc with
    | ok m => exact key m (by simp [Eue.decryptIncoming, hl, ha, Res.isOk])
    | err x => simp [Eue.run, Eue.decryptIncoming, hl, ha, Res.isOk, mapStep]
    | panic => simp [Eue.run, Eue.decryptIncoming, hl, ha, mapStep]

private theorem calls_of_trace {e0 e : Eue I} {t : List Event} (h : Trace (Eue.run P) e0 t e) : Eue.Calls P e0 (oks t) e := by
  induction h with
  | nil => exact .nil
  | ok _ hr ih => simpa [oks] using Eue.Calls.ok ih hr
  | err _ hr ih => simpa [oks] using Eue.Calls.err ih hr

end

/-- C86: take any EUE session after any history `t` of calls, successful or not, with arbitrary inputs. The next call panics if its input is non-empty
and does not authenticate under the key of this position; otherwise it ends exactly as the wrapped session's call on the opened input does (`Ok`,
that `Err`, or panic), leaves the wrapped session in the same state, and sends exactly the sealed output, or nothing if there is none. -/
theorem C86_eue_outcome (I : Ibke) (P : SymPrims) (ik : ByteArr 32) (ssid : Ssid) (c : I.SessCoins) (mpk : I.MainPubkey) (cert : I.Certificate)
    (usk : I.UserPrivkey) (role : Role) (t : List Event) (e : Eue I)
    (h : Trace (Eue.run P) (Eue.newSession P c ssid mpk cert usk role ik) t e) (cc : EueCoins I) (inc : Bytes) :
    mapStep Eue.sess id (e.run P cc inc) =
      match openedWith P (msgKeyAt P ik ssid (recvKeyNo role (oks t))) inc with
      | none => .panic
      | some m => mapStep id (Option.map (sealedWith P cc.nonce (msgKeyAt P ik ssid (sendKeyNo role (oks t))))) (I.run e.sess cc.ibke m) := by
  have hp := calls_pos I P ik ssid c mpk cert usk role _ e (calls_of_trace h)
  rcases hp with ⟨rfl, h0, hs⟩ | ⟨hn, hs⟩
  · rw [h0, eue_run_nf hs.real cc inc _ rfl, hs.msg, hs.first]
    simp [recvKeyNo, sendKeyNo, chainSteps, hs.msg]
  · rw [eue_run_nf hs.real cc inc _ rfl, hs.msg, hs.first]
    have hq : recvKeyNo role (oks t) + 1 = sendKeyNo role (oks t) := by
      cases role with
      | responder => rfl
      | initiator =>
        simp only [recvKeyNo, sendKeyNo]
        have : oks t ≠ [] := fun h => hn ⟨rfl, h⟩
        have : 0 < chainSteps (oks t) := by
          cases ho : oks t with
          | nil => exact absurd ho this
          | cons b l => cases b <;> simp [chainSteps] <;> omega
        omega
    simp only [Bool.not_false, if_true, hs.ratchet.msg, hq]

/-- C86: an EUE session after any history is a wrapped session after the opened history: the wrapped calls behind the calls made form a history of the
wrapped session, which is done, and finalizes, exactly when and as the EUE session does. -/
theorem C86_eue_is_wrapped (I : Ibke) (P : SymPrims) (ik : ByteArr 32) (ssid : Ssid) (c : I.SessCoins) (mpk : I.MainPubkey) (cert : I.Certificate)
    (usk : I.UserPrivkey) (role : Role) (t : List Event) (e : Eue I)
    (h : Trace (Eue.run P) (Eue.newSession P c ssid mpk cert usk role ik) t e) :
    ∃ t' z, Trace I.run (I.newSession c ssid mpk cert usk role) t' z ∧ WrappedCalls P ik ssid role t t' ∧
      e.isDone = I.isDone z ∧ e.finalize = I.finalize z := by
  suffices H : ∃ t', Trace I.run (I.newSession c ssid mpk cert usk role) t' e.sess ∧ WrappedCalls P ik ssid role t t' by
    obtain ⟨t', h1, h2⟩ := H
    exact ⟨t', e.sess, h1, h2, rfl, rfl⟩
  induction h with
  | nil => exact ⟨[], .nil, .nil⟩
  | @ok t s cc m s' o h hr ih =>
    obtain ⟨t', h1, h2⟩ := ih
    have := C86_eue_outcome I P ik ssid c mpk cert usk role t s h cc m
    rw [hr] at this
    cases ho : openedWith P (msgKeyAt P ik ssid (recvKeyNo role (oks t))) m with
    | none => rw [ho] at this; simp [mapStep] at this
    | some m' =>
      rw [ho] at this
      dsimp only at this
      cases hi : I.run s.sess cc.ibke m' with
      | panic => rw [hi] at this; simp [mapStep] at this
      | err _ _ => rw [hi] at this; simp [mapStep] at this
      | ok z o' =>
        rw [hi] at this
        simp only [mapStep, id, Step.ok.injEq] at this
        rw [this.1]
        exact ⟨_, .ok h1 hi, .snoc h2 ⟨ho, cc.nonce, by simp [this.2]⟩⟩
  | @err t s cc m s' er h hr ih =>
    obtain ⟨t', h1, h2⟩ := ih
    have := C86_eue_outcome I P ik ssid c mpk cert usk role t s h cc m
    rw [hr] at this
    cases ho : openedWith P (msgKeyAt P ik ssid (recvKeyNo role (oks t))) m with
    | none => rw [ho] at this; simp [mapStep] at this
    | some m' =>
      rw [ho] at this
      dsimp only at this
      cases hi : I.run s.sess cc.ibke m' with
      | panic => rw [hi] at this; simp [mapStep] at this
      | ok _ _ => rw [hi] at this; simp [mapStep] at this
      | err z er' =>
        rw [hi] at this
        simp only [mapStep, id, Step.err.injEq] at this
        rw [this.1]
        exact ⟨_, .err h1 hi, .snoc h2 ⟨ho, cc.nonce, by simp⟩⟩

/-- Non-vacuity of C86: a history with a failed call, after which the next call authenticates under the key of the new position. -/
example :
    let e0 := Eue.newSession (I := toyErrIbke) toyPrims () toyId1 () toyId2 () .responder toyId2
    let w := authEncrypt toyPrims toyNonce (msgKeyAt toyPrims toyId2 toyId1 0) [9]
    let w' := authEncrypt toyPrims toyNonce (msgKeyAt toyPrims toyId2 toyId1 1) (toyId1.1 ++ [7])
    (match e0.run toyPrims ⟨(5 : UInt8), toyNonce⟩ w with
      | .err e1 _ => (match e1.run toyPrims ⟨(5 : UInt8), toyNonce⟩ w' with | .ok _ (some _) => true | _ => false)
      | _ => false) = true := by decide +kernel

/-! ## C87 -/

/-- What a call that must succeed returns: its output, or `none` for a panic. -/
def okOutput {σ ε : Type} : Step σ ε (Option Bytes) → Option (Option Bytes)
  | .ok _ o => some o
  | _ => none

/-- The LATKE calls made of the PAKE calls `tP` and the encrypted calls `tE`: one after the other, except that an initiator whose PAKE ended without a
message makes the first encrypted call, on no input, in the same LATKE call. -/
inductive Joined (role : Role) : List Event → List Event → List Event → Prop
  | merged {t i o tE} : role = .initiator → Joined role (t ++ ⟨i, some o⟩ :: tE) (t ++ [⟨i, some none⟩]) (⟨[], some o⟩ :: tE)
  | apart {tP tE} : (role = .initiator → ∀ i, tP.getLast? ≠ some ⟨i, some none⟩) → Joined role (tP ++ tE) tP tE

/-- The calls of a LATKE history as events. -/
def eventsOf (tr : List (Bytes × Option Bytes)) : List Event := tr.map fun x => ⟨x.1, some x.2⟩

section
variable {I : Ibke} {K : Pake} {P : SymPrims}

/-- Invariant: the three kinds of states of a LATKE session. -/
private def LInv (P : SymPrims) (n : K.NewCoins) (ssid : Ssid) (pw : LatkePwfile I) (role : Role) (peer : PeerModel)
    (tr : List (Bytes × Option Bytes)) (s : Latke I K) : Prop :=
  s.ssid = ssid ∧ s.pwfile = pw ∧ s.role = role ∧ s.transcript = wireBytes tr ∧
  ∃ tP, Trace K.run (K.new n ssid (Latke.pakeInput pw role peer) role) tP s.pakeState ∧
    ((s.ibkeState = none ∧ eventsOf tr = tP ∧ ∀ i, tP.getLast? ≠ some ⟨i, some none⟩) ∨
      (K.isDone s.pakeState = true ∧ ∃ k sc tE e, K.finalize s.pakeState = some k ∧ s.ibkeState = some e ∧
        Trace (Eue.run P) (Eue.newSession P sc ssid pw.mpk pw.cert pw.usk role k) tE e ∧ Joined role (eventsOf tr) tP tE))

private theorem wireBytes_snoc (tr : List (Bytes × Option Bytes)) (i : Bytes) (o : Option Bytes) :
    wireBytes (tr ++ [(i, o)]) = wireBytes tr ++ i ++ o.getD [] := by
  simp [wireBytes]

private theorem eventsOf_snoc (tr : List (Bytes × Option Bytes)) (i : Bytes) (o : Option Bytes) :
    eventsOf (tr ++ [(i, o)]) = eventsOf tr ++ [⟨i, some o⟩] := by
  simp [eventsOf]

private theorem Joined.snoc {role : Role} {evs tP tE : List Event} (h : Joined role evs tP tE) (ev : Event) :
    Joined role (evs ++ [ev]) tP (tE ++ [ev]) := by
  cases h with
  | merged hr => simpa using Joined.merged (tE := _ ++ [ev]) hr
  | apart ha => rw [List.append_assoc]; exact Joined.apart ha

private theorem linv_step (hnone : ∀ q c inc q', K.run q c inc = .ok q' none → K.isDone q' = true)
    {n : K.NewCoins} {ssid : Ssid} {pw : LatkePwfile I} {role : Role}
    {peer : PeerModel} {tr : List (Bytes × Option Bytes)} {s s' : Latke I K} {c : LatkeCoins I K} {inc : Bytes} {out : Option Bytes}
    (ih : LInv P n ssid pw role peer tr s) (hrun : s.run P c inc = some (s', out)) :
    LInv P n ssid pw role peer (tr ++ [(inc, out)]) s' := by
  obtain ⟨i1, i2, i3, i4, tP, hP, hc⟩ := ih
  have htr := run_transcript hrun
  have h4 : s'.transcript = wireBytes (tr ++ [(inc, out)]) := by rw [htr, i4, wireBytes_snoc]
  unfold Latke.run at hrun
  by_cases hd : K.isDone s.pakeState = true
  · -- the PAKE was done before
    have hp : s.pakePhase c inc = some (s.pakeState, false, none) := by simp [Latke.pakePhase, hd]
    rw [hp] at hrun
    simp only at hrun
    have fin : ∀ e e' sc tE k, K.finalize s.pakeState = some k → s.getEue P s.pakeState c = some e →
        Trace (Eue.run P) (Eue.newSession P sc ssid pw.mpk pw.cert pw.usk role k) tE e → Joined role (eventsOf tr) tP tE →
        e.run P c.eue inc = .ok e' out → LInv P n ssid pw role peer (tr ++ [(inc, out)]) s' := by
      intro e e' sc tE k hk hg ht hj hr
      rw [hg] at hrun
      simp only [Bool.false_eq_true, if_false, hr, Option.some.injEq, Prod.mk.injEq] at hrun
      obtain ⟨rfl, -⟩ := hrun
      refine ⟨i1, i2, i3, h4, tP, hP, Or.inr ⟨hd, k, sc, _, e', hk, rfl, Trace.ok ht hr, ?_⟩⟩
      rw [eventsOf_snoc]
      exact hj.snoc _
    have hrun0 := hrun
    rcases hc with ⟨c1, c2, c3⟩ | ⟨_, k, sc, tE, e, hk, he, ht, hj⟩
    · cases hk : K.finalize s.pakeState with
      | none => simp [Latke.getEue, c1, hk] at hrun
      | some k =>
        have hg : s.getEue P s.pakeState c = some (Eue.newSession P c.sess ssid pw.mpk pw.cert pw.usk role k) := by
          simp [Latke.getEue, c1, hk, i1, i2, i3]
        rw [hg] at hrun0
        simp only [Bool.false_eq_true, if_false] at hrun0
        cases hr : (Eue.newSession P c.sess ssid pw.mpk pw.cert pw.usk role k).run P c.eue inc with
        | panic => rw [hr] at hrun0; simp at hrun0
        | err _ _ => rw [hr] at hrun0; simp at hrun0
        | ok e' o' =>
          rw [hr] at hrun0
          simp only [Option.some.injEq, Prod.mk.injEq] at hrun0
          obtain ⟨-, rfl⟩ := hrun0
          refine fin _ e' c.sess [] k hk hg Trace.nil ?_ hr
          rw [c2]
          simpa using Joined.apart (role := role) (tP := tP) (tE := []) (fun _ => c3)
    · have hg : s.getEue P s.pakeState c = some e := by simp [Latke.getEue, he]
      rw [hg] at hrun0
      simp only [Bool.false_eq_true, if_false] at hrun0
      cases hr : e.run P c.eue inc with
      | panic => rw [hr] at hrun0; simp at hrun0
      | err _ _ => rw [hr] at hrun0; simp at hrun0
      | ok e' o' =>
        rw [hr] at hrun0
        simp only [Option.some.injEq, Prod.mk.injEq] at hrun0
        obtain ⟨-, rfl⟩ := hrun0
        exact fin e e' sc tE k hk hg ht hj hr
  · -- a PAKE call
    rcases hc with ⟨c1, c2, c3⟩ | ⟨h, _⟩
    case inr => exact absurd h hd
    have hd : K.isDone s.pakeState = false := by simpa using hd
    cases hr : K.run s.pakeState c.pake inc with
    | panic => simp [Latke.pakePhase, hd, hr] at hrun
    | err _ _ => simp [Latke.pakePhase, hd, hr] at hrun
    | ok q o =>
      have hp : s.pakePhase c inc = some (q, K.isDone q, o) := by simp [Latke.pakePhase, hd, hr]
      rw [hp] at hrun
      cases o with
      | some m =>
        simp only [Option.some.injEq, Prod.mk.injEq] at hrun
        obtain ⟨rfl, rfl⟩ := hrun
        refine ⟨i1, i2, i3, h4, _, Trace.ok hP hr, Or.inl ⟨c1, ?_, by simp⟩⟩
        rw [eventsOf_snoc, c2]
      | none =>
        have hq := hnone _ _ _ _ hr
        simp only [hq, if_true] at hrun
        cases hk : K.finalize q with
        | none => simp [Latke.getEue, c1, hk] at hrun
        | some k =>
          have hg : s.getEue P q c = some (Eue.newSession P c.sess ssid pw.mpk pw.cert pw.usk role k) := by
            simp [Latke.getEue, c1, hk, i1, i2, i3]
          rw [hg] at hrun
          simp only at hrun
          by_cases hrole : role = .initiator
          · rw [if_pos (i3.trans hrole)] at hrun
            cases he : (Eue.newSession P c.sess ssid pw.mpk pw.cert pw.usk role k).run P c.eue [] with
            | panic => rw [he] at hrun; simp at hrun
            | err _ _ => rw [he] at hrun; simp at hrun
            | ok e' o' =>
              rw [he] at hrun
              simp only [Option.some.injEq, Prod.mk.injEq] at hrun
              obtain ⟨rfl, rfl⟩ := hrun
              refine ⟨i1, i2, i3, h4, _, Trace.ok hP hr, Or.inr ⟨hq, k, c.sess, _, e', hk, rfl, Trace.ok Trace.nil he, ?_⟩⟩
              rw [eventsOf_snoc, c2]
              exact Joined.merged hrole
          · rw [if_neg (by rw [i3]; exact hrole)] at hrun
            simp only [Option.some.injEq, Prod.mk.injEq] at hrun
            obtain ⟨rfl, rfl⟩ := hrun
            refine ⟨i1, i2, i3, h4, _, Trace.ok hP hr, Or.inr ⟨hq, k, c.sess, _, _, hk, rfl, Trace.nil, ?_⟩⟩
            rw [eventsOf_snoc, c2]
            have := Joined.apart (role := role) (tP := tP ++ [⟨inc, some none⟩]) (tE := []) (fun h => absurd h hrole)
            simpa using this

private theorem linv_history (hnone : ∀ q c inc q', K.run q c inc = .ok q' none → K.isDone q' = true)
    {n : K.NewCoins} {ssid : Ssid} {pw : LatkePwfile I} {role : Role}
    {peer : PeerModel} (hist : List (LatkeCoins I K × Bytes)) :
    ∀ (s sf : Latke I K) (tr0 tr), LInv P n ssid pw role peer tr0 s → latkeHistory P s hist = some (sf, tr) →
      LInv P n ssid pw role peer (tr0 ++ tr) sf := by
  induction hist with
  | nil => intro s sf tr0 tr h0 h; simp [latkeHistory] at h; obtain ⟨rfl, rfl⟩ := h; simpa using h0
  | cons x rest ih =>
    obtain ⟨c, inc⟩ := x
    intro s sf tr0 tr h0 h
    simp only [latkeHistory] at h
    split at h
    · simp at h
    · next s1 out hr =>
      split at h
      · simp at h
      · next sf' tr' hh =>
        simp only [Option.some.injEq, Prod.mk.injEq] at h
        obtain ⟨rfl, rfl⟩ := h
        have := ih _ _ _ _ (linv_step hnone h0 hr) hh
        simpa using this

end

/-- C87: take any LATKE session after any history `tr` of calls with arbitrary inputs (a PAKE that has nothing to send being done, as all three of the
crate are: `C17_pakes_done_when_silent`). It is in one of three situations.
1. The PAKE is running: the calls so far are exactly those of a PAKE session on the session's PAKE input. The next call is that session's next call: a
   message is sent as it is; when there is none the encrypted exchange is started with the PAKE key, and an initiator makes its first call; anything
   else is a panic.
2. The PAKE is done, its last call having sent a message. The next call starts the encrypted exchange with the PAKE key and is its first call.
3. The encrypted exchange is running: the calls so far are those of the PAKE session and then those of an EUE session started with the PAKE key, and the
   next call is that session's next call, a panic unless it is `Ok`.
The session is done exactly in situation 3 when the EUE session is, and it finalizes only there, to the reported id and the KDF of all bytes on the wire. -/
theorem C87_latke_is_pake_then_eue {I : Ibke} {K : Pake} (P : SymPrims)
    (hnone : ∀ q c inc q', K.run q c inc = .ok q' none → K.isDone q' = true)
    (n : K.NewCoins) (ssid : Ssid) (pw : LatkePwfile I) (role : Role) (peer : PeerModel) (hist : List (LatkeCoins I K × Bytes))
    (s : Latke I K) (tr : List (Bytes × Option Bytes))
    (h : latkeHistory P (Latke.newSession n ssid pw role peer) hist = some (s, tr)) :
    ∃ tP q, Trace K.run (K.new n ssid (Latke.pakeInput pw role peer) role) tP q ∧
      ((K.isDone q = false ∧ eventsOf tr = tP ∧ s.isDone = false ∧ s.finalize P = none ∧
          ∀ c inc, (s.run P c inc).map (·.2) = match K.run q c.pake inc with
            | .ok _ (some m) => some (some m)
            | .ok q' none => (K.finalize q').bind fun k =>
                if role = .initiator then okOutput ((Eue.newSession P c.sess ssid pw.mpk pw.cert pw.usk role k).run P c.eue []) else some none
            | _ => none) ∨
        (K.isDone q = true ∧ eventsOf tr = tP ∧ (∀ i, tP.getLast? ≠ some ⟨i, some none⟩) ∧ s.isDone = false ∧ s.finalize P = none ∧
          ∀ c inc, (s.run P c inc).map (·.2) = (K.finalize q).bind fun k =>
            okOutput ((Eue.newSession P c.sess ssid pw.mpk pw.cert pw.usk role k).run P c.eue inc)) ∨
        (K.isDone q = true ∧ ∃ k sc tE e, K.finalize q = some k ∧
          Trace (Eue.run P) (Eue.newSession P sc ssid pw.mpk pw.cert pw.usk role k) tE e ∧ Joined role (eventsOf tr) tP tE ∧
          s.isDone = e.isDone ∧ s.finalize P = (e.finalize).map (fun r => (r.1, latkeFinalKey P (wireBytes tr) r.2)) ∧
          ∀ c inc, (s.run P c inc).map (·.2) = okOutput (e.run P c.eue inc))) := by
  have h0 : LInv (K := K) P n ssid pw role peer [] (Latke.newSession n ssid pw role peer) :=
    ⟨rfl, rfl, rfl, rfl, [], Trace.nil, Or.inl ⟨rfl, rfl, by simp⟩⟩
  obtain ⟨i1, i2, i3, i4, tP, hP, hc⟩ := linv_history hnone hist _ _ _ _ h0 h
  simp only [List.nil_append] at i4 hc
  refine ⟨tP, s.pakeState, hP, ?_⟩
  rcases hc with ⟨c1, c2, c3⟩ | ⟨hd, k, sc, tE, e, hk, he, ht, hj⟩
  · have hdn : s.isDone = false := by simp [Latke.isDone, c1]
    have hfn : s.finalize P = none := by simp [Latke.finalize, c1]
    by_cases hd : K.isDone s.pakeState = true
    · refine Or.inr (Or.inl ⟨hd, c2, c3, hdn, hfn, ?_⟩)
      intro c inc
      unfold Latke.run
      rw [show s.pakePhase c inc = some (s.pakeState, false, none) by simp [Latke.pakePhase, hd]]
      cases hk : K.finalize s.pakeState with
      | none => simp [Latke.getEue, c1, hk]
      | some k =>
        simp only [Latke.getEue, c1, hk, i1, i2, i3, Bool.false_eq_true, if_false, Option.bind_some]
        cases (Eue.newSession P c.sess ssid pw.mpk pw.cert pw.usk role k).run P c.eue inc <;> simp [okOutput]
    · have hd : K.isDone s.pakeState = false := by simpa using hd
      refine Or.inl ⟨hd, c2, hdn, hfn, ?_⟩
      intro c inc
      unfold Latke.run
      cases hr : K.run s.pakeState c.pake inc with
      | panic => simp [Latke.pakePhase, hd, hr]
      | err _ _ => simp [Latke.pakePhase, hd, hr]
      | ok q o =>
        cases o with
        | some m => simp [Latke.pakePhase, hd, hr]
        | none =>
          have hq := hnone _ _ _ _ hr
          rw [show s.pakePhase c inc = some (q, true, none) by simp [Latke.pakePhase, hd, hr, hq]]
          cases hk : K.finalize q with
          | none => simp [Latke.getEue, c1, hk]
          | some k =>
            simp only [Latke.getEue, c1, hk, i1, i2, i3, if_true, Option.bind_some]
            by_cases hrole : role = .initiator
            · simp only [hrole, if_true]
              cases (Eue.newSession P c.sess ssid pw.mpk pw.cert pw.usk .initiator k).run P c.eue [] <;> simp [okOutput]
            · simp [hrole]
  · refine Or.inr (Or.inr ⟨hd, k, sc, tE, e, hk, ht, hj, by simp [Latke.isDone, he], ?_, ?_⟩)
    · simp only [Latke.finalize, he, i4]
      cases e.finalize <;> rfl
    · intro c inc
      unfold Latke.run
      rw [show s.pakePhase c inc = some (s.pakeState, false, none) by simp [Latke.pakePhase, hd]]
      simp only [Latke.getEue, he, Bool.false_eq_true, if_false]
      cases e.run P c.eue inc <;> simp [okOutput]

/-- A PAKE of the crate for the example below. -/
private abbrev exK : Pake := kcSpake2Pake toyPrims toySpake2

/-- Is the PAKE done, has the encrypted exchange started, is the session done: after each call of two users passing on each other's messages. -/
private def situations : Nat → Latke toyIbke exK → Latke toyIbke exK → Bytes → List (Bool × Bool × Bool)
  | 0, _, _, _ => []
  | f + 1, a, p, inc => match a.run toyPrims ⟨(), (), ⟨(5 : UInt8), toyNonce⟩⟩ inc with
    | none => []
    | some (a', o) => (exK.isDone a'.pakeState, a'.ibkeState.isSome, a'.isDone) :: situations f p a' (o.getD [])

/-- Non-vacuity of C87: with KC-SPAKE2 and the toy exchange the initiator goes through situations 1, 2 and 3, and the responder through 1 and 3. -/
example : situations 7 (Latke.newSession (3 : UInt8) toyId1 ⟨(), toyId1, ()⟩ .initiator .postSpecified)
      (Latke.newSession (4 : UInt8) toyId1 ⟨(), toyId2, ()⟩ .responder .postSpecified) [] =
    [(false, false, false), (false, false, false), (true, false, false), (true, true, false), (true, true, false), (true, true, true),
      (true, true, true)] := by decide +kernel

end Verif.Props
