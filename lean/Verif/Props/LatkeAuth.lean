import Verif.Props.EndToEnd
import Verif.Props.Eue
import Verif.Props.Fg

/-! # C66: what a completed LATKE session guarantees against an arbitrary network, composed with the IBKE authentication theorems

All statements are about the messages the session actually received: a history `hist` of LATKE calls with arbitrary incoming messages, and the
list `tr` of (incoming, outgoing) wire messages of those calls. -/

namespace Verif.Props
open Verif Verif.Latke

/-! ## Specification: an IBKE run carried by sealed wire messages -/

/-- `w` carries the `j`-th call `ev` of a wrapped session in role `role`, under the keys derived from `k` and `ssid`: a non-empty message handed to
the wrapped protocol is the authenticated decryption, under the key of its wire position, of the incoming wire message; a non-empty
message produced by it was sealed under the key of its own wire position; and nothing is sent exactly when it produced nothing. -/
def CarriesCall (P : SymPrims) (k : SessKey) (ssid : Ssid) (role : Role) (j : Nat) (w : Bytes × Option Bytes) (ev : Event) : Prop :=
  (ev.incoming ≠ [] → authDecrypt P (msgKeyAt P k ssid (recvIdx role j)) w.1 = .ok ev.incoming) ∧
  ∃ o, ev.outcome = some o ∧ (o = none ↔ w.2 = none) ∧
    ∀ m, o = some m → m ≠ [] → ∃ nonce, w.2 = some (authEncrypt P nonce (msgKeyAt P k ssid (sendIdx role j)) m)

/-- The calls `t` of the wrapped session were carried, in order, by the wire exchanges `ws`. -/
def CarriesRun (P : SymPrims) (k : SessKey) (ssid : Ssid) (role : Role) (ws : List (Bytes × Option Bytes)) (t : List Event) : Prop :=
  ws.length = t.length ∧ ∀ j w ev, ws[j]? = some w → t[j]? = some ev → CarriesCall P k ssid role j w ev

/-! ## The EUE session inside a LATKE session -/

/-- Key position of an EUE session after `j` successful calls. -/
def PosAt {I : Ibke} (P : SymPrims) (k : SessKey) (ssid : Ssid) (role : Role) (j : Nat) (e : Eue I) : Prop :=
  (role = .initiator ∧ j = 0 ∧ AtStart P k ssid e) ∨ (¬(role = .initiator ∧ j = 0) ∧ AtKey P k ssid (recvIdx role j) e)

theorem posAt_new {I : Ibke} (P : SymPrims) (c : I.SessCoins) (ssid : Ssid) (mpk cert usk) (role : Role) (k : SessKey) :
    PosAt P k ssid role 0 (Eue.newSession (I := I) P c ssid mpk cert usk role k) := by
  cases role with
  | initiator => exact Or.inl ⟨rfl, rfl, newSession_initiator P c ssid mpk cert usk k⟩
  | responder => exact Or.inr ⟨by simp, newSession_responder P c ssid mpk cert usk k⟩

/-- One successful EUE call. -/
theorem posAt_step {I : Ibke} {P : SymPrims} {k : SessKey} {ssid : Ssid} {role : Role} {j : Nat} {e e' : Eue I} {c : EueCoins I} {inc : Bytes}
    {out : Option Bytes} (hp : PosAt P k ssid role j e) (h : e.run P c inc = .ok e' out) :
    ∃ m o, I.run e.sess c.ibke m = .ok e'.sess o ∧ CarriesCall P k ssid role j (inc, out) ⟨m, some o⟩ ∧
      PosAt P k ssid role (j + 1) e' ∧ (inc = [] → m = []) := by
  have hr : e.realMode = true := by rcases hp with ⟨_, _, h⟩ | ⟨_, h⟩ <;> exact h.real
  have hk : e.msgKey = msgKeyAt P k ssid (recvIdx role j) := by
    rcases hp with ⟨rfl, rfl, h⟩ | ⟨_, h⟩
    · exact h.msg
    · exact h.msg
  obtain ⟨m, s, o, e1, hm, hrun, he1, rfl, rfl⟩ := Eue.run_ok_inv hr h
  have h1 : AtKey P k ssid (sendIdx role j) ({ e1 with nextStepIsFirst := false } : Eue I) ∧ e1.nextStepIsFirst = false := by
    subst he1
    rcases hp with ⟨rfl, rfl, hs⟩ | ⟨hn, hs⟩
    · simp only [hs.first, Bool.not_true, Bool.false_eq_true, if_false]
      exact ⟨⟨hs.msg, hs.chain, rfl, hs.real⟩, trivial⟩
    · simp only [hs.first, Bool.not_false, if_true]
      have hq : recvIdx role j + 1 = sendIdx role j := by
        cases role with
        | initiator => simp only [recvIdx, sendIdx]; simp at hn; omega
        | responder => simp [recvIdx, sendIdx]
      have := hs.ratchet
      rw [hq] at this
      exact ⟨⟨this.msg, this.chain, rfl, this.real⟩, this.first⟩
  refine ⟨m, o, hrun, ⟨?_, o, rfl, by simp, ?_⟩, Or.inr ⟨by simp, ?_⟩, ?_⟩
  · intro hne
    rcases hm with ⟨_, rfl⟩ | ⟨_, hd⟩
    · exact absurd rfl hne
    · rw [← hk]; exact hd
  · rintro m' rfl hne
    refine ⟨c.nonce, ?_⟩
    have : m'.length > 0 := by cases m' with | nil => exact absurd rfl hne | cons => simp
    simp only [Option.map_some, this, if_true]
    rw [← h1.1.msg]
  · have ha : AtKey P k ssid (sendIdx role j) ({ e1 with sess := s } : Eue I) := ⟨h1.1.msg, h1.1.chain, h1.2, h1.1.real⟩
    have := ha.ratchet
    have hq : sendIdx role j + 1 = recvIdx role (j + 1) := by cases role <;> simp [recvIdx, sendIdx] <;> omega
    rw [hq] at this
    exact this
  · intro hi
    rcases hm with ⟨_, h⟩ | ⟨h, _⟩
    · exact h
    · exact absurd hi h

theorem CarriesRun.snoc {P : SymPrims} {k : SessKey} {ssid : Ssid} {role : Role} {ws : List (Bytes × Option Bytes)} {t : List Event}
    (h : CarriesRun P k ssid role ws t) {w ev} (hc : CarriesCall P k ssid role t.length w ev) :
    CarriesRun P k ssid role (ws ++ [w]) (t ++ [ev]) := by
  refine ⟨by simp [h.1], ?_⟩
  intro j w' ev' h1 h2
  by_cases hj : j < t.length
  · rw [List.getElem?_append_left (by rw [h.1]; exact hj)] at h1
    rw [List.getElem?_append_left hj] at h2
    exact h.2 j w' ev' h1 h2
  · have hl : j < (t ++ [ev]).length := by
      by_contra hc
      rw [List.getElem?_eq_none (by omega)] at h2
      simp at h2
    simp at hl
    have : j = t.length := by omega
    subst this
    rw [List.getElem?_append_right (by rw [h.1])] at h1
    rw [List.getElem?_append_right (le_refl _)] at h2
    simp [h.1] at h1 h2
    subst h1 h2
    exact hc

/-- What is known of the session inside a LATKE session with wire exchanges `tr`. -/
def InnerSound {I : Ibke} {K : Pake} (P : SymPrims) (n : K.NewCoins) (ssid : Ssid) (pw : LatkePwfile I) (role : Role)
    (peer : PeerModel) (tr : List (Bytes × Option Bytes)) (e : Eue I) : Prop :=
  ∃ (tP : List Event) (q : K.State) (k : SessKey) (c : I.SessCoins) (t : List Event) (ws : List (Bytes × Option Bytes)),
    Trace K.run (K.new n ssid (Latke.pakeInput pw role peer) role) tP q ∧ tP.map (·.incoming) <+: tr.map (·.1) ∧ K.finalize q = some k ∧
    Trace I.run (I.newSession c ssid pw.mpk pw.cert pw.usk role) t e.sess ∧ ws.Sublist tr ∧ CarriesRun P k ssid role ws t ∧
    PosAt P k ssid role t.length e

/-- Invariant of a LATKE session with wire exchanges `tr`. -/
def LatkeSound {I : Ibke} {K : Pake} (P : SymPrims) (n : K.NewCoins) (ssid : Ssid) (pw : LatkePwfile I) (role : Role)
    (peer : PeerModel) (tr : List (Bytes × Option Bytes)) (s : Latke I K) : Prop :=
  s.ssid = ssid ∧ s.pwfile = pw ∧ s.role = role ∧
  (∃ tP, Trace K.run (K.new n ssid (Latke.pakeInput pw role peer) role) tP s.pakeState ∧ tP.map (·.incoming) <+: tr.map (·.1) ∧
    (K.isDone s.pakeState = false → tP.length = tr.length)) ∧
  ∀ e, s.ibkeState = some e → InnerSound P n ssid pw role peer tr e

private theorem prefix_snoc {α : Type} {a b : List α} (x : α) (h : a <+: b) : a <+: b ++ [x] := h.trans (List.prefix_append _ _)

private theorem latkeSound_step {I : Ibke} {K : Pake} {P : SymPrims} {n : K.NewCoins} {ssid : Ssid} {pw : LatkePwfile I} {role : Role}
    {peer : PeerModel} {tr : List (Bytes × Option Bytes)} {s s' : Latke I K} {c : LatkeCoins I K} {inc : Bytes} {out : Option Bytes}
    (ih : LatkeSound P n ssid pw role peer tr s) (hrun : s.run P c inc = some (s', out)) :
    LatkeSound P n ssid pw role peer (tr ++ [(inc, out)]) s' := by
  obtain ⟨i1, i2, i3, ⟨tP, hP, hpre, hlen⟩, i5⟩ := ih
  unfold Latke.run at hrun
  -- an inner session that is not used in this call
  have keep : ∀ e, InnerSound (K := K) P n ssid pw role peer tr e → InnerSound (K := K) P n ssid pw role peer (tr ++ [(inc, out)]) e := by
    rintro e ⟨tP, q, k, c, t, ws, h1, h2, h3, h4, h5, h6, h7⟩
    refine ⟨tP, q, k, c, t, ws, h1, ?_, h3, h4, h5.trans (List.sublist_append_left _ _), h6, h7⟩
    rw [List.map_append]; exact h2.trans (List.prefix_append _ _)
  -- an inner session on which one call is made; the message it gets is the incoming one or empty
  have call : ∀ e e' inc', InnerSound (K := K) P n ssid pw role peer (tr ++ [(inc, out)]) e →
      (∃ (tP : List Event) (q : K.State) (k : SessKey) (c : I.SessCoins) (t : List Event) (ws : List (Bytes × Option Bytes)),
        Trace K.run (K.new n ssid (Latke.pakeInput pw role peer) role) tP q ∧ tP.map (·.incoming) <+: (tr ++ [(inc, out)]).map (·.1) ∧
        K.finalize q = some k ∧ Trace I.run (I.newSession c ssid pw.mpk pw.cert pw.usk role) t e.sess ∧ ws.Sublist tr ∧
        CarriesRun P k ssid role ws t ∧ PosAt P k ssid role t.length e) →
      (inc' = inc ∨ inc' = []) → e.run P c.eue inc' = .ok e' out → InnerSound (K := K) P n ssid pw role peer (tr ++ [(inc, out)]) e' := by
    rintro e e' inc' - ⟨tP, q, k, c', t, ws, h1, h2, h3, h4, h5, h6, h7⟩ hinc hr
    obtain ⟨m, o, g1, g2, g3, g4⟩ := posAt_step h7 hr
    refine ⟨tP, q, k, c', t ++ [⟨m, some o⟩], ws ++ [(inc, out)], h1, h2, h3, Trace.ok h4 g1, h5.append (List.Sublist.refl _), h6.snoc ?_,
      by simpa using g3⟩
    rcases hinc with rfl | rfl
    · exact g2
    · obtain ⟨_, o', ho, ho2, ho3⟩ := g2
      exact ⟨fun hne => absurd (g4 rfl) hne, o', ho, ho2, ho3⟩
  split at hrun
  · simp at hrun
  · next q j o hp =>
    -- the PAKE phase
    have hpake : ∃ tP', Trace K.run (K.new n ssid (Latke.pakeInput pw role peer) role) tP' q ∧
        tP'.map (·.incoming) <+: (tr ++ [(inc, out)]).map (·.1) ∧ (K.isDone q = false → tP'.length = (tr ++ [(inc, out)]).length) := by
      unfold Latke.pakePhase at hp
      split at hp
      · next hnd =>
        split at hp
        · next p' o' hr =>
          simp only [Option.some.injEq, Prod.mk.injEq] at hp
          obtain ⟨rfl, _⟩ := hp
          have hl := hlen (by simpa using hnd)
          refine ⟨_, Trace.ok hP hr, ?_, fun _ => by simp [hl]⟩
          have he : tP.map (·.incoming) = tr.map (·.1) := hpre.eq_of_length (by simp [hl])
          simp [he]
        · simp at hp
        · simp at hp
      · next hnd =>
        simp only [Option.some.injEq, Prod.mk.injEq] at hp
        obtain ⟨rfl, _⟩ := hp
        refine ⟨_, hP, ?_, fun h => ?_⟩
        · rw [List.map_append]; exact hpre.trans (List.prefix_append _ _)
        · simp [h] at hnd
    obtain ⟨tP', hP', hpre', hlen'⟩ := hpake
    have hget : ∀ e, s.getEue P q c = some e →
        ∃ (tP : List Event) (q : K.State) (k : SessKey) (c : I.SessCoins) (t : List Event) (ws : List (Bytes × Option Bytes)),
        Trace K.run (K.new n ssid (Latke.pakeInput pw role peer) role) tP q ∧ tP.map (·.incoming) <+: (tr ++ [(inc, out)]).map (·.1) ∧
        K.finalize q = some k ∧ Trace I.run (I.newSession c ssid pw.mpk pw.cert pw.usk role) t e.sess ∧ ws.Sublist tr ∧
        CarriesRun P k ssid role ws t ∧ PosAt P k ssid role t.length e := by
      intro e he
      unfold Latke.getEue at he
      split at he
      · next e0 h0 =>
        simp only [Option.some.injEq] at he
        subst he
        obtain ⟨tP, q, k, c, t, ws, h1, h2, h3, h4, h5, h6, h7⟩ := i5 _ h0
        refine ⟨tP, q, k, c, t, ws, h1, ?_, h3, h4, h5, h6, h7⟩
        rw [List.map_append]; exact h2.trans (List.prefix_append _ _)
      · split at he
        · simp at he
        · next k hk =>
          simp only [Option.some.injEq] at he
          subst he
          rw [i1, i2, i3]
          exact ⟨tP', q, k, c.sess, [], [], hP', hpre', hk, Trace.nil, List.nil_sublist _, ⟨rfl, by simp⟩, posAt_new P _ _ _ _ _ _ _⟩
    have hget' : ∀ e, s.getEue P q c = some e → InnerSound (K := K) P n ssid pw role peer (tr ++ [(inc, out)]) e := by
      intro e he
      obtain ⟨tP, q, k, c, t, ws, h1, h2, h3, h4, h5, h6, h7⟩ := hget e he
      exact ⟨tP, q, k, c, t, ws, h1, h2, h3, h4, h5.trans (List.sublist_append_left _ _), h6, h7⟩
    have fin : ∀ (s2 : Latke I K) (e1 : Eue I), s2.ssid = s.ssid → s2.pwfile = s.pwfile → s2.role = s.role → s2.pakeState = q →
        s2.ibkeState = some e1 → InnerSound (K := K) P n ssid pw role peer (tr ++ [(inc, out)]) e1 →
        LatkeSound P n ssid pw role peer (tr ++ [(inc, out)]) s2 := by
      intro s2 e1 g1 g2 g3 g4 g5 hex
      refine ⟨g1.trans i1, g2.trans i2, g3.trans i3, ⟨tP', by rw [g4]; exact hP', hpre', by rw [g4]; exact hlen'⟩, ?_⟩
      intro e he
      rw [g5, Option.some.injEq] at he
      rw [← he]
      exact hex
    cases o with
    | some m =>
      simp only [Option.some.injEq, Prod.mk.injEq] at hrun
      obtain ⟨rfl, -⟩ := hrun
      exact ⟨i1, i2, i3, ⟨tP', hP', hpre', hlen'⟩, fun e he => keep e (i5 e he)⟩
    | none =>
      cases hg : s.getEue P q c with
      | none => simp [hg] at hrun
      | some e0 =>
        simp only [hg] at hrun
        by_cases hj : j = true
        · by_cases hrole : s.role = .initiator
          · cases hr : e0.run P c.eue [] with
            | panic => simp [hj, hrole, hr] at hrun
            | err _ _ => simp [hj, hrole, hr] at hrun
            | ok e1 o1 =>
              simp only [hj, hrole, hr, if_true, Option.some.injEq, Prod.mk.injEq] at hrun
              obtain ⟨hs, rfl⟩ := hrun
              rw [← hs]
              exact fin _ e1 rfl rfl hrole.symm rfl rfl (call e0 e1 [] (hget' _ hg) (hget _ hg) (Or.inr rfl) hr)
          · simp only [hj, hrole, if_true, if_false, Option.some.injEq, Prod.mk.injEq] at hrun
            rw [← hrun.1]
            exact fin _ e0 rfl rfl rfl rfl rfl (hget' _ hg)
        · cases hr : e0.run P c.eue inc with
          | panic => simp [hj, hr] at hrun
          | err _ _ => simp [hj, hr] at hrun
          | ok e1 o1 =>
            simp only [hj, hr, Bool.false_eq_true, if_false, Option.some.injEq, Prod.mk.injEq] at hrun
            obtain ⟨hs, rfl⟩ := hrun
            rw [← hs]
            exact fin _ e1 rfl rfl rfl rfl rfl (call e0 e1 inc (hget' _ hg) (hget _ hg) (Or.inl rfl) hr)

private theorem latkeSound_history {I : Ibke} {K : Pake} {P : SymPrims} {n : K.NewCoins} {ssid : Ssid} {pw : LatkePwfile I} {role : Role}
    {peer : PeerModel} (hist : List (LatkeCoins I K × Bytes)) :
    ∀ (s sf : Latke I K) (tr0 tr), LatkeSound P n ssid pw role peer tr0 s → latkeHistory P s hist = some (sf, tr) →
      LatkeSound P n ssid pw role peer (tr0 ++ tr) sf := by
  induction hist with
  | nil => intro s sf tr0 tr h0 h; simp [latkeHistory] at h; obtain ⟨rfl, rfl⟩ := h; simpa using h0
  | cons x rest ih =>
    obtain ⟨c, inc⟩ := x
    intro s sf tr0 tr h0 h
    simp only [latkeHistory] at h
    split at h
    · simp at h
    · next s1 out hr =>
      split at h
      · simp at h
      · next sf' tr' hh =>
        simp only [Option.some.injEq, Prod.mk.injEq] at h
        obtain ⟨rfl, rfl⟩ := h
        have := ih _ _ _ _ (latkeSound_step h0 hr) hh
        simpa using this

/-- C66 (composition): take any LATKE session, any history `hist` of its calls with arbitrary incoming messages, and let `tr` be the messages it
received and sent. If the session is done and reports `(id, key)`, then
* the PAKE, started on the session's own PAKE input and fed the first of the received messages, output a key `k`;
* the IBKE, started with the password file's main public key, certificate and user key, went through a history `t` that ended done with
  output `(id, kk)`;
* each IBKE call was carried by one of the received/sent messages, in order, authenticated under the key derived from `k`, the ssid and the
  call number only;
* `key` is the KDF of all messages and `kk`. -/
theorem C66_latke_composition {I : Ibke} {K : Pake} (P : SymPrims) (n : K.NewCoins) (ssid : Ssid) (pw : LatkePwfile I) (role : Role)
    (peer : PeerModel) (hist : List (LatkeCoins I K × Bytes)) (s : Latke I K) (tr : List (Bytes × Option Bytes))
    (h : latkeHistory P (Latke.newSession n ssid pw role peer) hist = some (s, tr)) (hd : s.isDone = true)
    (id : Id) (key : SessKey) (hf : s.finalize P = some (id, key)) :
    ∃ (tP : List Event) (q : K.State) (k : SessKey) (c : I.SessCoins) (t : List Event) (z : I.State) (kk : SessKey)
        (ws : List (Bytes × Option Bytes)),
      Trace K.run (K.new n ssid (Latke.pakeInput pw role peer) role) tP q ∧ tP.map (·.incoming) <+: tr.map (·.1) ∧ K.finalize q = some k ∧
      Trace I.run (I.newSession c ssid pw.mpk pw.cert pw.usk role) t z ∧ I.isDone z = true ∧ I.finalize z = some (id, kk) ∧
      ws.Sublist tr ∧ CarriesRun P k ssid role ws t ∧
      key = latkeFinalKey P (wireBytes tr) kk := by
  have h0 : LatkeSound P n ssid pw role peer [] (Latke.newSession n ssid pw role peer) :=
    ⟨rfl, rfl, rfl, ⟨[], Trace.nil, List.prefix_refl _, fun _ => rfl⟩, by intro e he; simp [Latke.newSession] at he⟩
  obtain ⟨_, _, _, _, h5⟩ := latkeSound_history hist _ _ _ _ h0 h
  obtain ⟨e, kk, he, hi, hk⟩ := C13_key_is_kdf_of_wire P n ssid pw role peer hist s tr id key h hf
  obtain ⟨tP, q, k, c, t, ws, h1, h2, h3, h4, h6, h7, _⟩ := h5 e he
  refine ⟨tP, q, k, c, t, e.sess, kk, ws, h1, by simpa using h2, h3, h4, ?_, hi, by simpa using h6, h7, hk⟩
  unfold Latke.isDone at hd
  rw [he] at hd
  exact hd

/-- The last call of a carried run with a non-empty incoming message. -/
private theorem carried_last {P : SymPrims} {k : SessKey} {ssid : Ssid} {role : Role} {ws tr : List (Bytes × Option Bytes)} {t : List Event}
    (hs : ws.Sublist tr) (h : CarriesRun P k ssid role ws t) {m : Bytes} {o} (hl : t.getLast? = some ⟨m, o⟩) (hm : m ≠ []) :
    ∃ w ∈ tr.map (·.1), authDecrypt P (msgKeyAt P k ssid (recvIdx role (t.length - 1))) w = .ok m := by
  rw [List.getLast?_eq_getElem?] at hl
  have hlt : t.length - 1 < t.length := by
    by_contra hc
    rw [List.getElem?_eq_none (by omega)] at hl; simp at hl
  have hlw : t.length - 1 < ws.length := by rw [h.1]; exact hlt
  have hw : ws[t.length - 1]? = some ws[t.length - 1] := List.getElem?_eq_getElem hlw
  have hc := h.2 _ _ _ hw hl
  refine ⟨_, List.mem_map.2 ⟨_, hs.subset (List.getElem_mem hlw), rfl⟩, hc.1 hm⟩

/-- Any call of a carried run with a non-empty incoming message. -/
private theorem carried_at {P : SymPrims} {k : SessKey} {ssid : Ssid} {role : Role} {ws tr : List (Bytes × Option Bytes)} {t : List Event}
    (hs : ws.Sublist tr) (h : CarriesRun P k ssid role ws t) {j : Nat} {m : Bytes} {o} (hl : t[j]? = some ⟨m, o⟩) (hm : m ≠ []) :
    ∃ w ∈ tr.map (·.1), authDecrypt P (msgKeyAt P k ssid (recvIdx role j)) w = .ok m := by
  have hlt : j < t.length := by
    by_contra hc
    rw [List.getElem?_eq_none (by omega)] at hl; simp at hl
  have hlw : j < ws.length := by rw [h.1]; exact hlt
  have hw : ws[j]? = some ws[j] := List.getElem?_eq_getElem hlw
  have hc := h.2 _ _ _ hw hl
  exact ⟨_, List.mem_map.2 ⟨_, hs.subset (List.getElem_mem hlw), rfl⟩, hc.1 hm⟩

/-- What a carried run sends at call `j`. -/
private theorem carried_sent {P : SymPrims} {k : SessKey} {ssid : Ssid} {role : Role} {ws tr : List (Bytes × Option Bytes)} {t : List Event}
    (hs : ws.Sublist tr) (h : CarriesRun P k ssid role ws t) {j : Nat} {m inc : Bytes} (hl : t[j]? = some ⟨inc, some (some m)⟩) (hm : m ≠ []) :
    ∃ nonce, some (authEncrypt P nonce (msgKeyAt P k ssid (sendIdx role j)) m) ∈ tr.map (·.2) := by
  have hlt : j < t.length := by
    by_contra hc
    rw [List.getElem?_eq_none (by omega)] at hl; simp at hl
  have hlw : j < ws.length := by rw [h.1]; exact hlt
  have hw : ws[j]? = some ws[j] := List.getElem?_eq_getElem hlw
  obtain ⟨_, o, ho, _, hc⟩ := h.2 _ _ _ hw hl
  simp only [Option.some.injEq] at ho
  obtain ⟨nonce, hn⟩ := hc m ho.symm hm
  exact ⟨nonce, List.mem_map.2 ⟨_, hs.subset (List.getElem_mem hlw), hn⟩⟩

/-- A carried run consists of successful calls only. -/
private theorem carried_okCount {P : SymPrims} {k : SessKey} {ssid : Ssid} {role : Role} {ws : List (Bytes × Option Bytes)} {t : List Event}
    (h : CarriesRun P k ssid role ws t) : okCount t = t.length := by
  unfold okCount
  rw [List.countP_eq_length]
  intro ev hev
  obtain ⟨j, hj, rfl⟩ := List.getElem_of_mem hev
  obtain ⟨_, o, ho, _⟩ := h.2 j _ _ (List.getElem?_eq_getElem (by rw [h.1]; exact hj)) (List.getElem?_eq_getElem hj)
  simp [ho]

/-- The received wire message number `j` of the wrapped protocol in `tr`: it authenticates, under the key derived from the PAKE key `k`, the ssid and
the position, and decrypts to `m`. -/
def ReceivedSealed (P : SymPrims) (k : SessKey) (ssid : Ssid) (role : Role) (tr : List (Bytes × Option Bytes)) (j : Nat) (m : Bytes) : Prop :=
  ∃ w ∈ tr.map (·.1), authDecrypt P (msgKeyAt P k ssid (recvIdx role j)) w = .ok m

/-- The session sent, in call number `j` of the wrapped protocol, the message `m` sealed under the key derived from `k`, the ssid and the position. -/
def SentSealed (P : SymPrims) (k : SessKey) (ssid : Ssid) (role : Role) (tr : List (Bytes × Option Bytes)) (j : Nat) (m : Bytes) : Prop :=
  ∃ nonce, some (authEncrypt P nonce (msgKeyAt P k ssid (sendIdx role j)) m) ∈ tr.map (·.2)

/-- The PAKE of a LATKE session, started on the session's own PAKE input and fed a prefix of the received messages, output `k`. -/
def PakeOutput {I : Ibke} (K : Pake) (n : K.NewCoins) (ssid : Ssid) (pw : LatkePwfile I) (role : Role) (peer : PeerModel)
    (tr : List (Bytes × Option Bytes)) (k : SessKey) : Prop :=
  ∃ tP q, Trace K.run (K.new n ssid (Latke.pakeInput pw role peer) role) tP q ∧ tP.map (·.incoming) <+: tr.map (·.1) ∧ K.finalize q = some k

/-- C66 for Signed-DH over any PAKE: if a LATKE session completes and reports `id`, then its PAKE output a key `k`, and one of the received
messages authenticates and decrypts under a key derived from `k` to `eph ‖ ephSig ‖ id ‖ pk ‖ dhPk ‖ certSig`, where `certSig` verifies under the
password-derived main key on `(id, pk, dhPk)` and `ephSig` verifies under `pk` on the peer's role byte, this ssid and `eph`. -/
theorem C66_latke_sigdh_authentication {K : Pake} (P : SymPrims) (G : Ed25519) (D : X25519) (n : K.NewCoins) (ssid : Ssid)
    (pw : LatkePwfile (sigDhIbke P G D)) (role : Role) (peer : PeerModel) (hist : List (LatkeCoins (sigDhIbke P G D) K × Bytes))
    (s : Latke (sigDhIbke P G D) K) (tr : List (Bytes × Option Bytes))
    (h : latkeHistory P (Latke.newSession n ssid pw role peer) hist = some (s, tr)) (hd : s.isDone = true) (id : Id) (key : SessKey)
    (hf : s.finalize P = some (id, key)) :
    ∃ (k : SessKey) (pk : G.Pk) (pkb dhPk eph : ByteArr 32) (ephSig certSig : ByteArr 64),
      PakeOutput K n ssid pw role peer tr k ∧
      ReceivedSealed P k ssid role tr (if role = .initiator then 1 else 0)
        (eph.1 ++ ephSig.1 ++ (id.1 ++ pkb.1 ++ dhPk.1 ++ certSig.1)) ∧
      G.pkFromBytes pkb = some pk ∧
      G.verify pw.mpk (id.1 ++ (G.pkToBytes pk).1 ++ dhPk.1) certSig = true ∧
      G.verify pk ([if role = .initiator then 0x01 else 0x00] ++ ssid.1 ++ eph.1) ephSig = true := by
  obtain ⟨tP, q, k, c, t, z, kk, ws, p1, p2, p3, ht, hz, hfz, hs, hc, _⟩ := C66_latke_composition P n ssid pw role peer hist s tr h hd id key hf
  have hcnt := ((C41_sigdh_one_shot P G D ssid pw.mpk pw.cert pw.usk role t z ht).2.2).1 hz
  rw [carried_okCount hc] at hcnt
  cases role with
  | initiator =>
    obtain ⟨x, _, eph, dhPk, pkb, es, cs, pk, id', _, hl, h0, h1, h2, h3⟩ :=
      C33_sigdh_authentication_initiator P G D ssid pw.mpk pw.cert pw.usk t z ht hz
    rw [hfz] at h3
    simp only [Option.some.injEq, Prod.mk.injEq] at h3
    obtain ⟨rfl, -⟩ := h3
    have hr := carried_last hs hc hl (by
      intro hcc; have := congrArg List.length hcc; simp [eph.2] at this)
    rw [hcnt] at hr
    exact ⟨k, pk, pkb, dhPk, eph, es, cs, ⟨tP, q, p1, p2, p3⟩, hr, h0, h1, h2⟩
  | responder =>
    obtain ⟨x, _, eph, dhPk, pkb, es, cs, pk, id', hl, h0, h1, h2, h3⟩ :=
      C33_sigdh_authentication_responder P G D ssid pw.mpk pw.cert pw.usk t z ht hz
    rw [hfz] at h3
    simp only [Option.some.injEq, Prod.mk.injEq] at h3
    obtain ⟨rfl, -⟩ := h3
    have hr := carried_last hs hc hl (by
      intro hcc; have := congrArg List.length hcc; simp [eph.2] at this)
    rw [hcnt] at hr
    exact ⟨k, pk, pkb, dhPk, eph, es, cs, ⟨tP, q, p1, p2, p3⟩, hr, h0, h1, h2⟩

private theorem authDecrypt_ne_nil {P : SymPrims} {key : AuthEncKey} {m pt : Bytes} (h : authDecrypt P key m = .ok pt) : m ≠ [] := by
  rintro rfl
  simp [authDecrypt, splitEnd?, TAGLEN] at h

/-- C66 for SIGMA-R over any PAKE, initiator: a LATKE session that completes and reports `id` sent `nonce ‖ pk` with its own nonce and a fresh KEM key,
received `nB ‖ ct`, and received a message that decrypts under "enc_key_b" of the decapsulated secret to `sig ‖ mac ‖ id ‖ upk ‖ csig`, all sealed
under keys derived from its PAKE output, where `csig` verifies under the main key on `(id, upk)` and `sig` verifies under `upk` on the responder's role
byte, this session's nonce and ssid, the KEM values and that certificate. -/
theorem C66_latke_sigma_authentication_initiator {K : Pake} (P : SymPrims) (G : SigmaScheme) (E : Kem) (n : K.NewCoins) (ssid : Ssid)
    (pw : LatkePwfile (sigmaIbke P G E)) (peer : PeerModel) (hist : List (LatkeCoins (sigmaIbke P G E) K × Bytes))
    (s : Latke (sigmaIbke P G E) K) (tr : List (Bytes × Option Bytes))
    (h : latkeHistory P (Latke.newSession n ssid pw .initiator peer) hist = some (s, tr)) (hd : s.isDone = true) (id : Id) (key : SessKey)
    (hf : s.finalize P = some (id, key)) :
    ∃ (k : SessKey) (kc : E.KeyCoins) (pk : E.Pk) (sk : E.Sk) (nonce nB : Nonce) (ct : ByteArr 736) (upk : G.Pk) (upkb : ByteArr G.pkLen)
        (sig csig : ByteArr G.sigLen) (mac : ByteArr 32) (m4 : Bytes),
      PakeOutput K n ssid pw .initiator peer tr k ∧
      E.keygen kc = (pk, sk) ∧ SentSealed P k ssid .initiator tr 0 (nonce.1 ++ (E.pkToBytes pk).1) ∧
      ReceivedSealed P k ssid .initiator tr 1 (nB.1 ++ ct.1) ∧ ReceivedSealed P k ssid .initiator tr 2 m4 ∧
      authDecrypt P (P.hkdfExpand (E.decap ct sk).1 (ascii "enc_key_b") 64) m4 = .ok (sig.1 ++ mac.1 ++ (id.1 ++ upkb.1 ++ csig.1)) ∧
      mac = P.hmac (P.hkdfExpand (E.decap ct sk).1 (ascii "mac_key") 32).1 ([0x01] ++ id.1) ∧
      G.pkFromBytes upkb = some upk ∧
      G.verify pw.mpk (id.1 ++ (G.pkToBytes upk).1) csig = true ∧
      G.verify upk ([0x01] ++ nonce.1 ++ ssid.1 ++ ct.1 ++ (E.pkToBytes pk).1 ++ (id.1 ++ upkb.1 ++ csig.1)) sig = true := by
  obtain ⟨tP, q, k, c, t, z, kk, ws, p1, p2, p3, ht, hz, hfz, hs, hc, _⟩ :=
    C66_latke_composition P n ssid pw .initiator peer hist s tr h hd id key hf
  have hcnt := ((C41_sigma_one_shot P G E c ssid pw.mpk pw.cert pw.usk .initiator t z ht).2.2).1 hz
  rw [carried_okCount hc] at hcnt
  obtain ⟨kc, pk, sk, nB, ct, m3, m4, ss, cb, sig, csig, upkb, upk, id', hkg, h2t, hl, rfl, rfl, hdec, hk, h1, h2, h3⟩ :=
    C34_sigma_authentication_initiator P G E c ssid pw.mpk pw.cert pw.usk t z ht hz
  rw [hfz] at h3
  simp only [Option.some.injEq, Prod.mk.injEq] at h3
  obtain ⟨rfl, _⟩ := h3
  have hr := carried_last hs hc hl (authDecrypt_ne_nil hdec)
  rw [hcnt] at hr
  have t0 : t[0]? = some ⟨[], some (some (c.1 ++ (E.pkToBytes pk).1))⟩ := by
    rw [← List.getElem?_take_of_lt (show 0 < 2 by omega), h2t]; rfl
  have t1 : t[1]? = some ⟨nB.1 ++ ct.1, some (some m3)⟩ := by
    rw [← List.getElem?_take_of_lt (show 1 < 2 by omega), h2t]; rfl
  refine ⟨k, kc, pk, sk, c, nB, ct, upk, upkb, sig, csig, _, m4, ⟨tP, q, p1, p2, p3⟩, hkg, carried_sent hs hc t0 ?_, carried_at hs hc t1 ?_, hr,
    hdec, rfl, hk, h1, h2⟩
  · intro hcc; have := congrArg List.length hcc; simp [(E.pkToBytes pk).2] at this
  · intro hcc; have := congrArg List.length hcc; simp [ct.2] at this

/-- C66 for SIGMA-R over any PAKE, responder: the mirror statement. -/
theorem C66_latke_sigma_authentication_responder {K : Pake} (P : SymPrims) (G : SigmaScheme) (E : Kem) (n : K.NewCoins) (ssid : Ssid)
    (pw : LatkePwfile (sigmaIbke P G E)) (peer : PeerModel) (hist : List (LatkeCoins (sigmaIbke P G E) K × Bytes))
    (s : Latke (sigmaIbke P G E) K) (tr : List (Bytes × Option Bytes))
    (h : latkeHistory P (Latke.newSession n ssid pw .responder peer) hist = some (s, tr)) (hd : s.isDone = true) (id : Id) (key : SessKey)
    (hf : s.finalize P = some (id, key)) :
    ∃ (k : SessKey) (ec : E.EncCoins) (ss : ByteArr 32) (nonce nA : Nonce) (pkb : ByteArr 672) (ct : ByteArr 736) (upk : G.Pk)
        (upkb : ByteArr G.pkLen) (sig csig : ByteArr G.sigLen) (mac : ByteArr 32) (m3 : Bytes),
      PakeOutput K n ssid pw .responder peer tr k ∧
      ReceivedSealed P k ssid .responder tr 0 (nA.1 ++ pkb.1) ∧ E.encap ec (E.pkFromBytes pkb) = (ss, ct) ∧
      SentSealed P k ssid .responder tr 0 (nonce.1 ++ ct.1) ∧ ReceivedSealed P k ssid .responder tr 1 m3 ∧
      authDecrypt P (P.hkdfExpand ss.1 (ascii "enc_key_a") 64) m3 = .ok (sig.1 ++ mac.1 ++ (id.1 ++ upkb.1 ++ csig.1)) ∧
      mac = P.hmac (P.hkdfExpand ss.1 (ascii "mac_key") 32).1 ([0x00] ++ id.1) ∧
      G.pkFromBytes upkb = some upk ∧
      G.verify pw.mpk (id.1 ++ (G.pkToBytes upk).1) csig = true ∧
      G.verify upk ([0x00] ++ nonce.1 ++ ssid.1 ++ (E.pkToBytes (E.pkFromBytes pkb)).1 ++ ct.1 ++ (id.1 ++ upkb.1 ++ csig.1)) sig = true := by
  obtain ⟨tP, q, k, c, t, z, kk, ws, p1, p2, p3, ht, hz, hfz, hs, hc, _⟩ :=
    C66_latke_composition P n ssid pw .responder peer hist s tr h hd id key hf
  have hcnt := ((C41_sigma_one_shot P G E c ssid pw.mpk pw.cert pw.usk .responder t z ht).2.2).1 hz
  rw [carried_okCount hc] at hcnt
  obtain ⟨ec, ss, ct, nA, pkb, m3, m4, cb, sig, csig, upkb, upk, id', henc, hh, hl, rfl, hdec, hk, h1, h2, h3⟩ :=
    C34_sigma_authentication_responder P G E c ssid pw.mpk pw.cert pw.usk t z ht hz
  rw [hfz] at h3
  simp only [Option.some.injEq, Prod.mk.injEq] at h3
  obtain ⟨rfl, _⟩ := h3
  have hr := carried_last hs hc hl (authDecrypt_ne_nil hdec)
  rw [hcnt] at hr
  rw [List.head?_eq_getElem?] at hh
  refine ⟨k, ec, ss, c, nA, pkb, ct, upk, upkb, sig, csig, _, m3, ⟨tP, q, p1, p2, p3⟩, carried_at hs hc hh ?_, henc, carried_sent hs hc hh ?_, hr,
    hdec, rfl, hk, h1, h2⟩
  · intro hcc; have := congrArg List.length hcc; simp [pkb.2] at this
  · intro hcc; have := congrArg List.length hcc; simp [ct.2] at this

/-- C66 for HMQV-C over any PAKE: a LATKE session that completes and reports `id` received, sealed under keys derived from its PAKE output,
`ephb ‖ … ‖ id ‖ upk ‖ sig` with `sig` verifying under the main key on `(id, upk)`, and the confirmation MAC ("mac1" for an initiator, "mac0" for a
responder) derived from its own HMQV point for that id, key and ephemeral, where its own ephemeral `x` is the one whose public part it sent. -/
theorem C66_latke_hmqv_authentication {K : Pake} (P : SymPrims) (G : Ed25519) (R : Group) (n : K.NewCoins) (ssid : Ssid)
    (pw : LatkePwfile (hmqvIbke P G R)) (role : Role) (peer : PeerModel) (hist : List (LatkeCoins (hmqvIbke P G R) K × Bytes))
    (s : Latke (hmqvIbke P G R) K) (tr : List (Bytes × Option Bytes))
    (h : latkeHistory P (Latke.newSession n ssid pw role peer) hist = some (s, tr)) (hd : s.isDone = true) (id : Id) (key : SessKey)
    (hf : s.finalize P = some (id, key)) :
    ∃ (k : SessKey) (x : R.Scalar) (ephb upkb : ByteArr 32) (eph upk : R.Pt) (sig : ByteArr 64) (prk rest : Bytes),
      PakeOutput K n ssid pw role peer tr k ∧ SentSealed P k ssid role tr 0 ((R.compress (x • R.base)).1 ++ rest) ∧
      prk = (R.compress (hmqvPoint R x pw.usk (HmqvCert.id pw.cert) id ephb eph upk)).1 ∧
      (role = .initiator → ReceivedSealed P k ssid role tr 1
        (ephb.1 ++ (P.hkdfExpand prk (ssid.1 ++ ascii "mac1") 32).1 ++ (id.1 ++ upkb.1 ++ sig.1))) ∧
      (role = .responder → ReceivedSealed P k ssid role tr 0 (ephb.1 ++ (id.1 ++ upkb.1 ++ sig.1)) ∧
        ReceivedSealed P k ssid role tr 1 (P.hkdfExpand prk (ssid.1 ++ ascii "mac0") 32).1) ∧
      R.decompress ephb = some eph ∧ R.decompress upkb = some upk ∧
      G.verify pw.mpk (id.1 ++ (R.compress upk).1) sig = true := by
  obtain ⟨tP, q, k, c, t, z, kk, ws, p1, p2, p3, ht, hz, hfz, hs, hc, _⟩ := C66_latke_composition P n ssid pw role peer hist s tr h hd id key hf
  have hcnt := ((C41_hmqv_one_shot P G R ssid pw.mpk pw.cert pw.usk role t z ht).2.2).1 hz
  rw [carried_okCount hc] at hcnt
  cases role with
  | initiator =>
    obtain ⟨x, rest, ephb, upkb, eph, upk, sig, id', prk, reply, hh, hprk, hl, d1, d2, h1, h3⟩ :=
      C35_hmqv_authentication_initiator P G R ssid pw.mpk pw.cert pw.usk t z ht hz
    rw [hfz] at h3
    simp only [Option.some.injEq, Prod.mk.injEq] at h3
    obtain ⟨rfl, _⟩ := h3
    have hr := carried_last hs hc hl (by
      intro hcc; have := congrArg List.length hcc; simp [ephb.2] at this)
    rw [hcnt] at hr
    rw [List.head?_eq_getElem?] at hh
    have hsent := carried_sent hs hc hh (by
      intro hcc; have := congrArg List.length hcc; simp [(R.compress (x • R.base)).2] at this)
    exact ⟨k, x, ephb, upkb, eph, upk, sig, prk, rest, ⟨tP, q, p1, p2, p3⟩, hsent, hprk, fun _ => hr, by simp, d1, d2, h1⟩
  | responder =>
    obtain ⟨x, rest, ephb, upkb, eph, upk, sig, id', prk, hm, hprk, hl, d1, d2, h1, h3⟩ :=
      C35_hmqv_authentication_responder P G R ssid pw.mpk pw.cert pw.usk t z ht hz
    rw [hfz] at h3
    simp only [Option.some.injEq, Prod.mk.injEq] at h3
    obtain ⟨rfl, _⟩ := h3
    have hr := carried_last hs hc hl (by
      intro hcc; have := congrArg List.length hcc; simp [(P.hkdfExpand prk _ 32).2] at this)
    rw [hcnt] at hr
    obtain ⟨j, hj, hje⟩ := List.getElem_of_mem hm
    have hj0 : j = 0 := by
      by_contra hj0
      have : j = t.length - 1 := by omega
      subst this
      rw [List.getLast?_eq_getElem?, List.getElem?_eq_getElem hj, hje] at hl
      simp at hl
    subst hj0
    have hh : t[0]? = _ := (List.getElem?_eq_getElem hj).trans (congrArg some hje)
    have hr0 := carried_at hs hc hh (by
      intro hcc; have := congrArg List.length hcc; simp [ephb.2] at this)
    have hsent := carried_sent hs hc hh (by
      intro hcc; have := congrArg List.length hcc; simp [(R.compress (x • R.base)).2] at this)
    exact ⟨k, x, ephb, upkb, eph, upk, sig, prk, rest, ⟨tP, q, p1, p2, p3⟩, hsent, hprk, by simp, fun _ => ⟨hr0, hr⟩, d1, d2, h1⟩

/-- C66 for FG-IBKE-C over any PAKE (no certificates; the id is authenticated through the confirmation MAC): a LATKE session that completes and
reports `id` received, sealed under keys derived from its PAKE output, `id ‖ xb ‖ ephb …` and the confirmation MAC computed from its own shared points
for that id, the main public key, its extracted key, and the ephemeral `x` whose public part it sent. -/
theorem C66_latke_fg_authentication {K : Pake} (P : SymPrims) (R : Group) (n : K.NewCoins) (ssid : Ssid)
    (pw : LatkePwfile (fgIbke P R)) (role : Role) (peer : PeerModel) (hist : List (LatkeCoins (fgIbke P R) K × Bytes))
    (s : Latke (fgIbke P R) K) (tr : List (Bytes × Option Bytes))
    (h : latkeHistory P (Latke.newSession n ssid pw role peer) hist = some (s, tr)) (hd : s.isDone = true) (id : Id) (key : SessKey)
    (hf : s.finalize P = some (id, key)) :
    ∃ (k : SessKey) (x : R.Scalar) (xb ephb : ByteArr 32) (X eph mpk alpha beta : R.Pt) (macs rest : Bytes),
      PakeOutput K n ssid pw role peer tr k ∧
      SentSealed P k ssid role tr 0 ((FgCert.id pw.cert).1 ++ (R.compress (FgCert.X pw.cert)).1 ++ (R.compress (x • R.base)).1 ++ rest) ∧
      R.decompress xb = some X ∧ R.decompress ephb = some eph ∧ R.decompress pw.mpk = some mpk ∧
      alpha = x • eph ∧ beta = (x + FgCert.xhat pw.cert) • (eph + X + R.hashToScalar ([0x02] ++ id.1 ++ xb.1) • mpk) ∧
      macs = (P.hkdfExpand ((R.compress alpha).1 ++ (R.compress beta).1) (ascii "fg-expand") 96).1 ∧
      (role = .initiator → ReceivedSealed P k ssid role tr 1 (id.1 ++ xb.1 ++ ephb.1 ++ (macs.drop 32).take 32)) ∧
      (role = .responder → ReceivedSealed P k ssid role tr 0 (id.1 ++ xb.1 ++ ephb.1) ∧ ReceivedSealed P k ssid role tr 1 (macs.take 32)) := by
  obtain ⟨tP, q, k, c, t, z, kk, ws, p1, p2, p3, ht, hz, hfz, hs, hc, _⟩ := C66_latke_composition P n ssid pw role peer hist s tr h hd id key hf
  have hcnt := ((C41_fg_one_shot P R ssid pw.mpk pw.cert role t z ht).2.2).1 hz
  rw [carried_okCount hc] at hcnt
  cases role with
  | initiator =>
    obtain ⟨x, id', xb, ephb, X, eph, mpk, alpha, beta, m1, m2, m3, d1, d2, d3, rfl, rfl, rfl, rfl, hh, hl, h3⟩ :=
      C36_fg_confirmation_initiator P R ssid pw.mpk pw.cert t z ht hz
    rw [hfz] at h3
    simp only [Option.some.injEq, Prod.mk.injEq] at h3
    obtain ⟨rfl, _⟩ := h3
    have hr := carried_last hs hc hl (by
      intro hcc; have := congrArg List.length hcc; simp [xb.2] at this)
    rw [hcnt] at hr
    rw [List.head?_eq_getElem?] at hh
    have hsent := carried_sent hs hc hh (by
      intro hcc; have := congrArg List.length hcc; simp [(R.compress (x • R.base)).2] at this)
    exact ⟨k, x, xb, ephb, X, eph, mpk, _, _, _, [], ⟨tP, q, p1, p2, p3⟩, by simpa [SentSealed] using hsent, d1, d2, d3, rfl, rfl, rfl, fun _ => hr, by simp⟩
  | responder =>
    obtain ⟨x, id', xb, ephb, X, eph, mpk, alpha, beta, m1, m2, m3, rest, d1, d2, d3, rfl, rfl, rfl, rfl, rfl, hh, hl, h3⟩ :=
      C36_fg_confirmation_responder P R ssid pw.mpk pw.cert t z ht hz
    rw [hfz] at h3
    simp only [Option.some.injEq, Prod.mk.injEq] at h3
    obtain ⟨rfl, _⟩ := h3
    have hr := carried_last hs hc hl (by
      intro hcc; have := congrArg List.length hcc; simp [(P.hkdfExpand _ _ 96).2] at this)
    rw [hcnt] at hr
    rw [List.head?_eq_getElem?] at hh
    have hr0 := carried_at hs hc hh (by
      intro hcc; have := congrArg List.length hcc; simp [xb.2] at this)
    have hsent := carried_sent hs hc hh (by
      intro hcc; have := congrArg List.length hcc; simp [(R.compress (x • R.base)).2] at this)
    exact ⟨k, x, xb, ephb, X, eph, mpk, _, _, _, rest, ⟨tP, q, p1, p2, p3⟩, hsent, d1, d2, d3, rfl, rfl, rfl, by simp, fun _ => ⟨hr0, hr⟩⟩

/-- Both users of the driver loop go through histories in the sense of C13 and C66. -/
theorem histories_of_drive {I : Ibke} {K : Pake} (P : SymPrims) (cs : List (LatkeCoins I K)) :
    ∀ (a p : Latke I K) (inc : Bytes) (sent) (a' p' : Latke I K), Latke.drive P cs a p inc = some (sent, a', p') →
      (∃ hist tr, latkeHistory P a hist = some (a', tr)) ∧ (∃ hist tr, latkeHistory P p hist = some (p', tr)) := by
  induction cs with
  | nil =>
    intro a p inc sent a' p' h
    simp only [Latke.drive] at h
    split at h
    · simp only [Option.some.injEq, Prod.mk.injEq] at h
      obtain ⟨-, rfl, rfl⟩ := h
      exact ⟨⟨[], [], rfl⟩, ⟨[], [], rfl⟩⟩
    · simp at h
  | cons c cs ih =>
    intro a p inc sent a' p' h
    simp only [Latke.drive] at h
    split at h
    · simp at h
    · split at h
      · simp at h
      · next a1 out hr =>
        split at h
        · simp at h
        · next hd =>
          simp only [Option.some.injEq, Prod.mk.injEq] at h
          obtain ⟨-, rfl, rfl⟩ := h
          obtain ⟨h1, ⟨hist, tr, h2⟩⟩ := ih _ _ _ _ _ _ hd
          exact ⟨⟨(c, inc) :: hist, (inc, out) :: tr, by simp [latkeHistory, hr, h2]⟩, h1⟩

/-- Non-vacuity of C13 and C66: for every protocol pair that succeeds end to end (for instance those of the C12 instances) there are histories ending in
completed sessions in both roles that report an id and a key. -/
theorem C66_hypotheses_met {I : Ibke} {K : Pake} {P : SymPrims} {seedRng password idI idR ssid ucI ucR ecI ecR nI nR pre coins}
    (h : LatkeSucceeds I K P seedRng password idI idR ssid ucI ucR ecI ecR nI nR pre coins) :
    (∃ hist tr s key, latkeHistory P (Latke.newSession (K := K) nI ssid (Latke.genPwfile I P seedRng ucI ecI password idI) .initiator
        (peerModels pre idI idR).1) hist = some (s, tr) ∧ s.isDone = true ∧ s.finalize P = some (idR, key)) ∧
    (∃ hist tr s key, latkeHistory P (Latke.newSession (K := K) nR ssid (Latke.genPwfile I P seedRng ucR ecR password idR) .responder
        (peerModels pre idI idR).2) hist = some (s, tr) ∧ s.isDone = true ∧ s.finalize P = some (idI, key)) := by
  obtain ⟨sent, LI, LR, key, hd, _, d1, d2, f1, f2⟩ := h
  obtain ⟨⟨hi, ti, r1⟩, ⟨hr, tr, r2⟩⟩ := histories_of_drive P _ _ _ _ _ _ _ hd
  exact ⟨⟨hi, ti, LI, key, r1, d1, f1⟩, ⟨hr, tr, LR, key, r2, d2, f2⟩⟩

/-- The hypothesis of C17 (a PAKE that has nothing to send is done) holds of all three PAKEs of the crate. -/
theorem C17_pakes_done_when_silent (P : SymPrims) (S : Spake2) (E : Kem) (L : CpaceLib) :
    (∀ q c inc q', (kcSpake2Pake P S).run q c inc = .ok q' none → (kcSpake2Pake P S).isDone q' = true) ∧
    (∀ q c inc q', (cakePake P E).run q c inc = .ok q' none → (cakePake P E).isDone q' = true) ∧
    (∀ q c inc q', (cpacePake L).run q c inc = .ok q' none → (cpacePake L).isDone q' = true) := by
  refine ⟨?_, ?_, ?_⟩
  · suffices H : ∀ (q : KcSpake2 S) (c : Unit) (inc : Bytes) (q' : KcSpake2 S), KcSpake2.run P q c inc = .ok q' none → q'.done = true from H
    intro q c inc q' h
    simp only [KcSpake2.run] at h
    split at h
    · split at h <;> simp at h
    · split at h
      · simp at h
      · split at h <;> simp at h
    · split at h
      · simp at h
      · split at h
        · simp at h
        · split at h
          · simp at h
          · split at h <;> simp at h
    · split at h
      · simp at h
      · split at h
        · simp at h
        · simp only [Step.ok.injEq] at h; rw [← h.1]
    · simp at h
  · suffices H : ∀ (q : Cake E) (c : KemCoins E) (inc : Bytes) (q' : Cake E), Cake.run P q c inc = .ok q' none → q'.done = true from H
    intro q c inc q' h
    simp only [Cake.run] at h
    split at h
    · next s o hs =>
      simp only [Step.ok.injEq] at h
      obtain ⟨rfl, rfl⟩ := h
      split at hs
      · unfold Cake.step0 at hs
        split at hs
        · simp at hs
        · simp [Option.bind_eq_some_iff] at hs
      · simp [Cake.step1, Option.bind_eq_some_iff] at hs
      · simp only [Cake.step2, Option.bind_eq_bind, Option.bind_eq_some_iff, Option.pure_def, Option.some.injEq, Prod.mk.injEq] at hs
        obtain ⟨_, _, _, _, _, _, _, _, h1, _⟩ := hs
        rw [← h1]
      · simp at hs
    · simp at h
  · suffices H : ∀ (q : Cpace L) (c : L.Coins) (inc : Bytes) (q' : Cpace L), Cpace.run q c inc = .ok q' none → q'.done = true from H
    intro q c inc q' h
    simp only [Cpace.run] at h
    split at h
    · next s o hs =>
      simp only [Step.ok.injEq] at h
      obtain ⟨rfl, rfl⟩ := h
      unfold Cpace.body at hs
      split at hs
      · split at hs
        · simp at hs
        · simp [Option.bind_eq_some_iff] at hs
      · simp [Option.bind_eq_some_iff] at hs
      · simp only [Option.bind_eq_bind, Option.bind_eq_some_iff, Option.pure_def, Option.some.injEq, Prod.mk.injEq] at hs
        obtain ⟨_, _, _, _, _, _, h1, _⟩ := hs
        rw [← h1]
      · simp at hs
    · simp at h

end Verif.Props
