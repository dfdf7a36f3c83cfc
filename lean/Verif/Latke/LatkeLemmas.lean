import Verif.Latke.Latke
import Verif.Latke.EueLemmas

/-! # Helper lemmas for LATKE -/

namespace Verif.Latke
open Verif.Props

variable {I : Ibke} {K : Pake}

/-- A LATKE state whose PAKE is done and whose IBKE session exists. -/
structure InIbke (s : Latke I K) (e : Eue I) (t : Bytes) : Prop where
  pakeDone : K.isDone s.pakeState = true
  ibke : s.ibkeState = some e
  tr : s.transcript = t

theorem authEncrypt_length_pos (P : SymPrims) (nonce : ByteArr 12) (k : AuthEncKey) (m : Bytes) :
    (authEncrypt P nonce k m).length > 0 := by
  rw [C02_authenc_length]; omega

theorem authEncrypt_ne_nil (P : SymPrims) (nonce : ByteArr 12) (k : AuthEncKey) (m : Bytes) :
    authEncrypt P nonce k m ≠ [] := List.length_pos_iff.mp (authEncrypt_length_pos P nonce k m)

/-- In the IBKE phase a LATKE step is an EUE step plus transcript update. -/
theorem run_inIbke (P : SymPrims) {s : Latke I K} {e e' : Eue I} {t : Bytes} (h : InIbke s e t)
    (c : LatkeCoins I K) (inc : Bytes) (out : Option Bytes) (hr : e.run P c.eue inc = .ok e' out) :
    ∃ s', s.run P c inc = some (s', out) ∧ InIbke s' e' (t ++ inc ++ out.getD []) ∧ s'.role = s.role := by
  refine ⟨{ s with ibkeState := some e', transcript := t ++ inc ++ out.getD [] }, ?_, ⟨h.pakeDone, rfl, rfl⟩, rfl⟩
  unfold Latke.run Latke.pakePhase
  simp only [h.pakeDone, Bool.not_true, Bool.false_eq_true, if_false, Latke.getEue, h.ibke, hr, h.tr]
  cases inc with
  | nil => cases out <;> simp
  | cons x xs => cases out <;> simp

/-- The IBKE phase: from the state in which `a` is about to receive wire message number `n`. -/
theorem drive_ibke (P : SymPrims) (ik : ByteArr 32) (ssid : Ssid) (cs : List (LatkeCoins I K)) :
    ∀ (n : Nat) (a p : Latke I K) (ea ep : Eue I) (t : Bytes) (nonce : ByteArr 12) (m : Bytes)
      (tr : List Bytes) (x y : I.State),
      AtKey P ik ssid n ea → AtKey P ik ssid (n + 1) ep →
      InIbke a ea t → InIbke p ep (t ++ authEncrypt P nonce (msgKeyAt P ik ssid n) m) →
      converse I.run I.isDone (cs.map (·.eue.ibke)) ea.sess ep.sess m = some (tr, x, y) →
      ∃ a' p' ea' ep', Latke.drive P cs a p (authEncrypt P nonce (msgKeyAt P ik ssid n) m)
          = some ((encryptFrom P ik ssid (n + 1) (cs.map (·.eue)) tr).map some ++ [none], a', p') ∧
        InIbke a' ea' (t ++ authEncrypt P nonce (msgKeyAt P ik ssid n) m ++
          (encryptFrom P ik ssid (n + 1) (cs.map (·.eue)) tr).flatten) ∧
        InIbke p' ep' (t ++ authEncrypt P nonce (msgKeyAt P ik ssid n) m ++
          (encryptFrom P ik ssid (n + 1) (cs.map (·.eue)) tr).flatten) ∧
        ea'.sess = x ∧ ep'.sess = y := by
  induction cs with
  | nil => intro n a p ea ep t nonce m tr x y _ _ _ _ h; simp [converse] at h
  | cons c cs ih =>
    intro n a p ea ep t nonce m tr x y hka hkp ha hp h
    obtain ⟨hok, herr, hpan⟩ := Eue.run_sync hka c.eue nonce m
    simp only [List.map_cons, converse] at h
    by_cases hd : I.isDone ea.sess = true
    · simp [hd] at h
    simp only [hd, Bool.false_eq_true, if_false] at h
    have hnd : a.isDone = false := by
      simp only [Latke.isDone, ha.ibke, Eue.isDone]
      simpa using hd
    cases hrun : I.run ea.sess c.eue.ibke m with
    | panic => rw [hrun] at h; simp at h
    | err s er => rw [hrun] at h; simp at h
    | ok s out =>
      rw [hrun] at h
      obtain ⟨e', he, hk, hs⟩ := hok s out hrun
      obtain ⟨a', ha1, ha2, _⟩ := run_inIbke P ha c _ _ he
      unfold Latke.drive
      simp only [hnd, Bool.false_eq_true, if_false]
      rw [ha1]
      cases out with
      | none =>
        simp only [Option.map_none] at h ha2 ⊢
        split at h
        · rename_i hcond
          simp only [Bool.and_eq_true, List.isEmpty_iff, List.map_eq_nil_iff] at hcond
          obtain ⟨⟨hda, hdp⟩, rfl⟩ := hcond
          simp only [Option.some.injEq, Prod.mk.injEq] at h
          obtain ⟨rfl, rfl, rfl⟩ := h
          have hpd : p.isDone = true := by simp [Latke.isDone, hp.ibke, Eue.isDone, hdp]
          refine ⟨a', p, e', ep, ?_, ?_, ?_, hs, rfl⟩
          · simp [Latke.drive, hpd, encryptFrom]
          · simpa [encryptFrom] using ha2
          · simpa [encryptFrom] using hp
        · simp at h
      | some m' =>
        simp only [Option.map_some] at h ha2 ⊢
        by_cases hm : m' = []
        · simp [hm] at h
        · have hpos : m'.length > 0 := List.length_pos_iff.mpr hm
          simp only [hm, if_false] at h
          simp only [hpos, if_true, Option.getD_some] at ha2 ⊢
          cases hb : converse I.run I.isDone (cs.map (·.eue.ibke)) ep.sess s m' with
          | none => rw [hb] at h; simp at h
          | some r =>
            obtain ⟨tr', x', y'⟩ := r
            rw [hb] at h
            simp only [Option.some.injEq, Prod.mk.injEq] at h
            obtain ⟨rfl, rfl, rfl⟩ := h
            obtain ⟨p', a'', ep', ea', h1, h2, h3, h4, h5⟩ := ih (n + 1) p a' ep e' _ c.eue.nonce m' tr' x' y' hkp hk hp ha2 (by rw [hs]; exact hb)
            refine ⟨a'', p', ea', ep', ?_, ?_, ?_, h5, h4⟩
            · rw [h1]; simp [encryptFrom]
            · simpa [encryptFrom, List.append_assoc] using h3
            · simpa [encryptFrom, List.append_assoc] using h2

/-- Whole IBKE phase, from the initiator's first IBKE call made on the empty message (PAKE already done, both EUE sessions created). -/
theorem drive_ibke_start (P : SymPrims) (ik : ByteArr 32) (ssid : Ssid) (cs : List (LatkeCoins I K))
    (a p : Latke I K) (ea ep : Eue I) (t : Bytes) (tr : List Bytes) (x y : I.State)
    (hka : AtStart P ik ssid ea) (hkp : AtKey P ik ssid 0 ep)
    (ha : InIbke a ea t) (hp : InIbke p ep t)
    (h : converse I.run I.isDone (cs.map (·.eue.ibke)) ea.sess ep.sess [] = some (tr, x, y)) :
      ∃ a' p' ea' ep', Latke.drive P cs a p []
          = some ((encryptFrom P ik ssid 0 (cs.map (·.eue)) tr).map some ++ [none], a', p') ∧
        InIbke a' ea' (t ++ (encryptFrom P ik ssid 0 (cs.map (·.eue)) tr).flatten) ∧
        InIbke p' ep' (t ++ (encryptFrom P ik ssid 0 (cs.map (·.eue)) tr).flatten) ∧
        ea'.sess = x ∧ ep'.sess = y := by
  cases cs with
  | nil => simp [converse] at h
  | cons c cs =>
    obtain ⟨hok, herr, hpan⟩ := Eue.run_first hka c.eue
    simp only [List.map_cons, converse] at h
    by_cases hd : I.isDone ea.sess = true
    · simp [hd] at h
    simp only [hd, Bool.false_eq_true, if_false] at h
    have hnd : a.isDone = false := by
      simp only [Latke.isDone, ha.ibke, Eue.isDone]
      simpa using hd
    cases hrun : I.run ea.sess c.eue.ibke [] with
    | panic => rw [hrun] at h; simp at h
    | err s er => rw [hrun] at h; simp at h
    | ok s out =>
      rw [hrun] at h
      obtain ⟨e', he, hk, hs⟩ := hok s out hrun
      obtain ⟨a', ha1, ha2, _⟩ := run_inIbke P ha c _ _ he
      unfold Latke.drive
      simp only [hnd, Bool.false_eq_true, if_false]
      rw [ha1]
      cases out with
      | none =>
        simp only [Option.map_none] at h ha2 ⊢
        split at h
        · rename_i hcond
          simp only [Bool.and_eq_true, List.isEmpty_iff, List.map_eq_nil_iff] at hcond
          obtain ⟨⟨hda, hdp⟩, rfl⟩ := hcond
          simp only [Option.some.injEq, Prod.mk.injEq] at h
          obtain ⟨rfl, rfl, rfl⟩ := h
          have hpd : p.isDone = true := by simp [Latke.isDone, hp.ibke, Eue.isDone, hdp]
          refine ⟨a', p, e', ep, ?_, ?_, ?_, hs, rfl⟩
          · simp [Latke.drive, hpd, encryptFrom]
          · simpa [encryptFrom] using ha2
          · simpa [encryptFrom] using hp
        · simp at h
      | some m' =>
        simp only [Option.map_some] at h ha2 ⊢
        by_cases hm : m' = []
        · simp [hm] at h
        · have hpos : m'.length > 0 := List.length_pos_iff.mpr hm
          simp only [hm, if_false] at h
          simp only [hpos, if_true, Option.getD_some] at ha2 ⊢
          cases hb : converse I.run I.isDone (cs.map (·.eue.ibke)) ep.sess s m' with
          | none => rw [hb] at h; simp at h
          | some r =>
            obtain ⟨tr', x', y'⟩ := r
            rw [hb] at h
            simp only [Option.some.injEq, Prod.mk.injEq] at h
            obtain ⟨rfl, rfl, rfl⟩ := h
            obtain ⟨p', a'', ep', ea', h1, h2, h3, h4, h5⟩ :=
              drive_ibke P ik ssid cs 0 p a' ep e' t c.eue.nonce m' tr' x' y' hkp hk hp
                (by simpa using ha2) (by rw [hs]; exact hb)
            refine ⟨a'', p', ea', ep', ?_, ?_, ?_, h5, h4⟩
            · rw [h1]; simp [encryptFrom]
            · simpa [encryptFrom, List.append_assoc] using h3
            · simpa [encryptFrom, List.append_assoc] using h2

/-- A LATKE state in the PAKE phase. -/
structure InPake (s : Latke I K) (q : K.State) (t : Bytes) (ssid : Ssid) (pw : LatkePwfile I) (role : Role) : Prop where
  pake : s.pakeState = q
  ibke : s.ibkeState = none
  tr : s.transcript = t
  ssid : s.ssid = ssid
  pw : s.pwfile = pw
  role : s.role = role

theorem InPake.not_done {s : Latke I K} {q t ssid pw role} (h : InPake s q t ssid pw role) : s.isDone = false := by
  simp [Latke.isDone, h.ibke]

/-- A PAKE step that sends something. -/
theorem run_inPake (P : SymPrims) {s : Latke I K} {q q' : K.State} {t ssid pw role}
    (h : InPake s q t ssid pw role) (c : LatkeCoins I K) (inc m : Bytes)
    (hnd : K.isDone q = false) (hr : K.run q c.pake inc = .ok q' (some m)) :
    ∃ s', s.run P c inc = some (s', some m) ∧ InPake s' q' (t ++ inc ++ m) ssid pw role := by
  refine ⟨{ s with pakeState := q', transcript := t ++ inc ++ m }, ?_, ⟨rfl, h.ibke, rfl, h.ssid, h.pw, h.role⟩⟩
  unfold Latke.run Latke.pakePhase
  simp only [h.pake, hnd, Bool.not_false, if_true, hr, h.tr, h.ibke]
  cases inc <;> simp

/-- The PAKE phase: `a` runs alternately with `p`, up to the last PAKE call, which is made by `a` or `p` depending on parity. -/
theorem drive_pake (P : SymPrims) (ssid : Ssid) (pre : List (LatkeCoins I K)) :
    ∀ (c0 : LatkeCoins I K) (rest : List (LatkeCoins I K)) (a p : Latke I K) (qa qp : K.State) (ta : Bytes) (m : Bytes)
      (pwa pwp : LatkePwfile I) (ra rp : Role) (tr : List Bytes) (x y : K.State),
      InPake a qa ta ssid pwa ra → InPake p qp (ta ++ m) ssid pwp rp →
      converse K.run K.isDone ((pre ++ [c0]).map (·.pake)) qa qp m = some (tr, x, y) →
      -- the last call: its caller, the other party, the message it gets and the common transcript before it
      ∃ (l o : Latke I K) (ql q' : K.State) (w tl : Bytes) (qo : K.State),
        InPake l ql tl ssid (if pre.length % 2 = 0 then pwa else pwp) (if pre.length % 2 = 0 then ra else rp) ∧
        InPake o qo (tl ++ w) ssid (if pre.length % 2 = 0 then pwp else pwa) (if pre.length % 2 = 0 then rp else ra) ∧
        K.isDone ql = false ∧ K.run ql c0.pake w = .ok q' none ∧ K.isDone q' = true ∧ K.isDone qo = true ∧
        (if pre.length % 2 = 0 then x = q' ∧ y = qo else x = qo ∧ y = q') ∧
        tl ++ w = ta ++ m ++ tr.flatten ∧
        Latke.drive P (pre ++ c0 :: rest) a p m = (Latke.drive P (c0 :: rest) l o w).map fun r =>
            (tr.map some ++ r.1, if pre.length % 2 = 0 then r.2.1 else r.2.2, if pre.length % 2 = 0 then r.2.2 else r.2.1) := by
  induction pre with
  | nil =>
    intro c0 rest a p qa qp ta m pwa pwp ra rp tr x y ha hp h
    simp only [List.nil_append, List.map_cons, List.map_nil, converse] at h
    by_cases hd : K.isDone qa = true
    · simp [hd] at h
    simp only [hd, Bool.false_eq_true, if_false] at h
    cases hrun : K.run qa c0.pake m with
    | panic => rw [hrun] at h; simp at h
    | err s er => rw [hrun] at h; simp at h
    | ok s out =>
      rw [hrun] at h
      cases out with
      | none =>
        simp only [List.isEmpty_nil, Bool.and_true] at h
        split at h
        · rename_i hcond
          simp only [Bool.and_eq_true] at hcond
          simp only [Option.some.injEq, Prod.mk.injEq] at h
          obtain ⟨rfl, rfl, rfl⟩ := h
          refine ⟨a, p, qa, s, m, ta, qp, ?_, ?_, by simpa using hd, hrun, hcond.1, hcond.2, ?_, ?_, ?_⟩
          · simpa using ha
          · simpa using hp
          · simp
          · simp
          · simp
        · simp at h
      | some m' =>
        by_cases hm : m' = [] <;> simp [hm] at h
  | cons c pre ih =>
    intro c0 rest a p qa qp ta m pwa pwp ra rp tr x y ha hp h
    simp only [List.cons_append, List.map_cons, converse] at h
    by_cases hd : K.isDone qa = true
    · simp [hd] at h
    simp only [hd, Bool.false_eq_true, if_false] at h
    cases hrun : K.run qa c.pake m with
    | panic => rw [hrun] at h; simp at h
    | err s er => rw [hrun] at h; simp at h
    | ok s out =>
      rw [hrun] at h
      cases out with
      | none =>
        simp at h
      | some m' =>
        by_cases hm : m' = []
        · simp [hm] at h
        simp only [hm, if_false] at h
        cases hb : converse K.run K.isDone ((pre ++ [c0]).map (·.pake)) qp s m' with
        | none => rw [hb] at h; simp at h
        | some r =>
          obtain ⟨tr', x', y'⟩ := r
          rw [hb] at h
          simp only [Option.some.injEq, Prod.mk.injEq] at h
          obtain ⟨rfl, rfl, rfl⟩ := h
          obtain ⟨a', ha1, ha2⟩ := run_inPake P ha c m m' (by simpa using hd) hrun
          obtain ⟨l, o, ql, q', w, tl, qo, h1, h2, h3, h4, h5, h6, h7, h8, h9⟩ :=
            ih c0 rest p a' qp s (ta ++ m) m' pwp pwa rp ra tr' x' y' hp ha2 hb
          rcases Nat.mod_two_eq_zero_or_one pre.length with hpar | hpar
          · have hpar' : (c :: pre).length % 2 = 1 := by simp only [List.length_cons]; omega
            simp only [hpar, hpar', if_true, Nat.one_ne_zero, if_false] at h1 h2 h7 h9 ⊢
            refine ⟨l, o, ql, q', w, tl, qo, h1, h2, h3, h4, h5, h6, h7.symm, ?_, ?_⟩
            · rw [h8]; simp [List.append_assoc]
            · simp only [List.cons_append]
              rw [Latke.drive]
              simp only [ha.not_done, Bool.false_eq_true, if_false, ha1, Option.getD_some, h9, List.map_cons, List.cons_append]
              cases Latke.drive P (c0 :: rest) l o w <;> rfl
          · have hpar' : (c :: pre).length % 2 = 0 := by simp only [List.length_cons]; omega
            simp only [hpar, hpar', if_true, Nat.one_ne_zero, if_false] at h1 h2 h7 h9 ⊢
            refine ⟨l, o, ql, q', w, tl, qo, h1, h2, h3, h4, h5, h6, h7.symm, ?_, ?_⟩
            · rw [h8]; simp [List.append_assoc]
            · simp only [List.cons_append]
              rw [Latke.drive]
              simp only [ha.not_done, Bool.false_eq_true, if_false, ha1, Option.getD_some, h9, List.map_cons, List.cons_append]
              cases Latke.drive P (c0 :: rest) l o w <;> rfl

/-- Creating the EUE session lazily in a call is the same as having created it before the call. -/
theorem run_lazy (P : SymPrims) (a : Latke I K) (e : Eue I) (c : LatkeCoins I K) (inc : Bytes)
    (hd : K.isDone a.pakeState = true) (hg : a.getEue P a.pakeState c = some e) :
    a.run P c inc = ({ a with ibkeState := some e } : Latke I K).run P c inc := by
  unfold Latke.run Latke.pakePhase
  simp only [hd, Bool.not_true, Bool.false_eq_true, if_false, hg]
  simp only [Latke.getEue]

theorem drive_lazy_active (P : SymPrims) (a p : Latke I K) (e : Eue I) (c : LatkeCoins I K) (cs : List (LatkeCoins I K))
    (inc : Bytes) (hd : K.isDone a.pakeState = true) (hn : a.ibkeState = none)
    (hg : a.getEue P a.pakeState c = some e) (hnd : e.isDone = false) :
    Latke.drive P (c :: cs) a p inc = Latke.drive P (c :: cs) { a with ibkeState := some e } p inc := by
  have h1 : a.isDone = false := by simp [Latke.isDone, hn]
  have h2 : ({ a with ibkeState := some e } : Latke I K).isDone = false := by simp [Latke.isDone, hnd]
  simp only [Latke.drive, h1, h2, run_lazy P a e c inc hd hg]

theorem drive_lazy_passive (P : SymPrims) (a p : Latke I K) (e : Eue I) (c d : LatkeCoins I K) (cs : List (LatkeCoins I K))
    (inc : Bytes) (hd : K.isDone p.pakeState = true) (hn : p.ibkeState = none)
    (hg : p.getEue P p.pakeState d = some e) (hnd : e.isDone = false) :
    Latke.drive P (c :: d :: cs) a p inc = Latke.drive P (c :: d :: cs) a { p with ibkeState := some e } inc := by
  rw [Latke.drive, Latke.drive]
  split
  · rfl
  · cases a.run P c inc with
    | none => rfl
    | some r =>
      obtain ⟨a', out⟩ := r
      simp only
      rw [drive_lazy_active P p a' e d cs _ hd hn hg hnd]

/-- The call in which the initiator finishes the PAKE also makes its first IBKE step. -/
theorem run_merge (P : SymPrims) (l : Latke I K) (q' : K.State) (k : SessKey) (c : LatkeCoins I K) (w : Bytes)
    (hnd : K.isDone l.pakeState = false) (hn : l.ibkeState = none) (hrole : l.role = .initiator)
    (hrun : K.run l.pakeState c.pake w = .ok q' none) (hd : K.isDone q' = true) (hk : K.finalize q' = some k) :
    l.run P c w = ({ l with pakeState := q', transcript := l.transcript ++ w, ibkeState := some (Eue.newSession P c.sess l.ssid l.pwfile.mpk l.pwfile.cert l.pwfile.usk l.role k) } : Latke I K).run P c [] := by
  unfold Latke.run Latke.pakePhase
  simp only [hnd, Bool.not_false, if_true, hrun, hd, hrole, Bool.not_true, Bool.false_eq_true, if_false, Latke.getEue, hn, hk]
  cases w <;> simp

theorem converse_done {σ ε κ : Type} (run : σ → κ → Bytes → Step σ ε (Option Bytes)) (done : σ → Bool) (cs : List κ) :
    ∀ (a p : σ) (inc : Bytes) (tr : List Bytes) (x y : σ), converse run done cs a p inc = some (tr, x, y) →
      done x = true ∧ done y = true ∧ done a = false ∧ cs.length = tr.length + 1 ∧ (2 ≤ cs.length → done p = false) := by
  induction cs with
  | nil => intro a p inc tr x y h; simp [converse] at h
  | cons c cs ih =>
    intro a p inc tr x y h
    simp only [converse] at h
    by_cases hd : done a = true
    · simp [hd] at h
    simp only [hd, Bool.false_eq_true, if_false] at h
    cases hrun : run a c inc with
    | panic => rw [hrun] at h; simp at h
    | err s er => rw [hrun] at h; simp at h
    | ok s out =>
      rw [hrun] at h
      cases out with
      | none =>
        simp only at h
        split at h
        · rename_i hcond
          simp only [Bool.and_eq_true, List.isEmpty_iff] at hcond
          simp only [Option.some.injEq, Prod.mk.injEq] at h
          obtain ⟨rfl, rfl, rfl⟩ := h
          refine ⟨hcond.1.1, hcond.1.2, by simpa using hd, by simp [hcond.2], by simp [hcond.2]⟩
        · simp at h
      | some m' =>
        simp only at h
        by_cases hm : m' = []
        · simp [hm] at h
        simp only [hm, if_false] at h
        cases hb : converse run done cs p s m' with
        | none => rw [hb] at h; simp at h
        | some r =>
          obtain ⟨tr', x', y'⟩ := r
          rw [hb] at h
          simp only [Option.some.injEq, Prod.mk.injEq] at h
          obtain ⟨rfl, rfl, rfl⟩ := h
          obtain ⟨h1, h2, h3, h4, h5⟩ := ih p s m' tr' _ _ hb
          exact ⟨h2, h1, by simpa using hd, by simp [h4], fun _ => h3⟩

theorem InIbke.finalize {P : SymPrims} {s : Latke I K} {e : Eue I} {t : Bytes} {x : I.State} {id : Id} {k : SessKey}
    (h : InIbke s e t) (hs : e.sess = x) (hf : I.finalize x = some (id, k)) :
    s.finalize P = some (id, latkeFinalKey P t k) := by
  simp [Latke.finalize, h.ibke, Eue.finalize, hs, hf, h.tr]

theorem InIbke.isDone {s : Latke I K} {e : Eue I} {t : Bytes} {x : I.State}
    (h : InIbke s e t) (hs : e.sess = x) (hd : I.isDone x = true) : s.isDone = true := by
  simp [Latke.isDone, h.ibke, Eue.isDone, hs, hd]

/-- Generalisation to arbitrary initial PAKE states of the case "the initiator makes the last PAKE call" (an odd number of PAKE calls, e.g. CAKE and CPace).
If the PAKE alone succeeds with equal keys and the IBKE alone succeeds with equal keys on the coins the LATKE calls use, then
the LATKE driver loop terminates after exactly (PAKE calls + IBKE calls - 1) calls, none of them panicking, both users are done and
they output `(id of the peer, common key)`; the wire carries the PAKE messages followed by the encrypted IBKE messages, and the
key is the KDF of exactly that transcript and the IBKE key. -/
theorem latke_agreement_odd (I : Ibke) (K : Pake) (P : SymPrims) (ssid : Ssid)
    (pwI pwR : LatkePwfile I) (q0I q0R : K.State)
    (pre : List (LatkeCoins I K)) (c0 c1 : LatkeCoins I K) (rest : List (LatkeCoins I K))
    (hpar : pre.length % 2 = 0)
    (trP : List Bytes) (qI qR : K.State) (k : SessKey)
    (hP : converse K.run K.isDone ((pre ++ [c0]).map (·.pake))
        q0I q0R [] = some (trP, qI, qR))
    (hkI : K.finalize qI = some k) (hkR : K.finalize qR = some k)
    (trI : List Bytes) (sI sR : I.State) (idOfR idOfI : Id) (kk : SessKey)
    (hI : converse I.run I.isDone ((c0 :: c1 :: rest).map (·.eue.ibke))
        (I.newSession c0.sess ssid pwI.mpk pwI.cert pwI.usk .initiator)
        (I.newSession c1.sess ssid pwR.mpk pwR.cert pwR.usk .responder) [] = some (trI, sI, sR))
    (hfI : I.finalize sI = some (idOfR, kk)) (hfR : I.finalize sR = some (idOfI, kk)) :
    ∃ LI LR wire, Latke.drive P (pre ++ c0 :: c1 :: rest)
        (⟨ssid, pwI, .initiator, q0I, none, []⟩ : Latke I K)
        (⟨ssid, pwR, .responder, q0R, none, []⟩ : Latke I K) []
          = some (wire.map some ++ [none], LI, LR) ∧
      wire = trP ++ encryptFrom P k ssid 0 ((c0 :: c1 :: rest).map (·.eue)) trI ∧
      LI.isDone = true ∧ LR.isDone = true ∧
      LI.finalize P = some (idOfR, latkeFinalKey P wire.flatten kk) ∧
      LR.finalize P = some (idOfI, latkeFinalKey P wire.flatten kk) := by
  obtain ⟨l, o, ql, q', w, tl, qo, h1, h2, h3, h4, h5, h6, h7, h8, h9⟩ :=
    drive_pake P ssid pre c0 (c1 :: rest) (⟨ssid, pwI, .initiator, q0I, none, []⟩ : Latke I K)
      (⟨ssid, pwR, .responder, q0R, none, []⟩ : Latke I K) _ _ [] [] pwI pwR .initiator .responder trP qI qR
      ⟨rfl, rfl, rfl, rfl, rfl, rfl⟩ ⟨rfl, rfl, rfl, rfl, rfl, rfl⟩ hP
  simp only [hpar, if_true] at h1 h2 h7 h9
  obtain ⟨rfl, rfl⟩ := h7
  obtain ⟨hdx, hdy, hda, _, hdp⟩ := converse_done _ _ _ _ _ _ _ _ _ hI
  -- the initiator's merged call
  have hm := run_merge P l qI k c0 w (by rw [h1.pake]; exact h3) h1.ibke h1.role (by rw [h1.pake]; exact h4) h5 hkI
  -- eager versions
  generalize hl' : ({ l with pakeState := qI, transcript := l.transcript ++ w, ibkeState := some (Eue.newSession P c0.sess l.ssid l.pwfile.mpk l.pwfile.cert l.pwfile.usk l.role k) } : Latke I K) = l' at hm
  have hg : o.getEue P o.pakeState c1 = some (Eue.newSession P c1.sess ssid pwR.mpk pwR.cert pwR.usk .responder k) := by
    simp [Latke.getEue, h2.ibke, h2.pake, hkR, h2.ssid, h2.pw, h2.role]
  have hl'd : l'.isDone = false := by
    subst hl'
    simp [Latke.isDone, Eue.isDone, Eue.newSession, h1.ssid, h1.pw, h1.role, hda]
  have hld : l.isDone = false := h1.not_done
  have hdrive : Latke.drive P (c0 :: c1 :: rest) l o w
      = Latke.drive P (c0 :: c1 :: rest) l' { o with ibkeState := some (Eue.newSession P c1.sess ssid pwR.mpk pwR.cert pwR.usk .responder k) } [] := by
    rw [← drive_lazy_passive P l' o _ c0 c1 rest [] (by rw [h2.pake]; exact h6) h2.ibke hg
      (by simpa [Eue.isDone, Eue.newSession] using hdp (by simp))]
    rw [Latke.drive, Latke.drive]
    simp only [hld, hl'd, hm]
  obtain ⟨a', p', ea', ep', d1, d2, d3, d4, d5⟩ :=
    drive_ibke_start P k ssid (c0 :: c1 :: rest) l'
      { o with ibkeState := some (Eue.newSession P c1.sess ssid pwR.mpk pwR.cert pwR.usk .responder k) }
      (Eue.newSession P c0.sess ssid pwI.mpk pwI.cert pwI.usk .initiator k)
      (Eue.newSession P c1.sess ssid pwR.mpk pwR.cert pwR.usk .responder k)
      (tl ++ w) trI sI sR (newSession_initiator ..) (newSession_responder ..)
      (by
        subst hl'
        refine ⟨h5, ?_, ?_⟩
        · simp [h1.ssid, h1.pw, h1.role]
        · simp [h1.tr])
      ⟨by rw [show ({ o with ibkeState := some (Eue.newSession P c1.sess ssid pwR.mpk pwR.cert pwR.usk .responder k) } : Latke I K).pakeState = o.pakeState from rfl, h2.pake]; exact h6, rfl, h2.tr⟩
      hI
  have hfin := h9
  rw [hdrive, d1, Option.map_some] at hfin
  rw [h8] at d2 d3
  refine ⟨a', p', trP ++ encryptFrom P k ssid 0 ((c0 :: c1 :: rest).map (·.eue)) trI, ?_, rfl, ?_, ?_, ?_, ?_⟩
  · rw [hfin]; simp
  · exact d2.isDone d4 hdx
  · exact d3.isDone d5 hdy
  · have := d2.finalize (P := P) d4 hfI
    simpa using this
  · have := d3.finalize (P := P) d5 hfR
    simpa using this

/-- Generalisation to arbitrary initial PAKE states of the case "the responder makes the last PAKE call" (an even number of PAKE calls, e.g. KC-SPAKE2): the loop takes exactly
(PAKE calls + IBKE calls) calls. -/
theorem latke_agreement_even (I : Ibke) (K : Pake) (P : SymPrims) (ssid : Ssid)
    (pwI pwR : LatkePwfile I) (q0I q0R : K.State)
    (pre : List (LatkeCoins I K)) (c0 c1 : LatkeCoins I K) (rest : List (LatkeCoins I K))
    (hpar : pre.length % 2 = 1)
    (trP : List Bytes) (qI qR : K.State) (k : SessKey)
    (hP : converse K.run K.isDone ((pre ++ [c0]).map (·.pake))
        q0I q0R [] = some (trP, qI, qR))
    (hkI : K.finalize qI = some k) (hkR : K.finalize qR = some k)
    (trI : List Bytes) (sI sR : I.State) (idOfR idOfI : Id) (kk : SessKey)
    (hI : converse I.run I.isDone ((c1 :: rest).map (·.eue.ibke))
        (I.newSession c1.sess ssid pwI.mpk pwI.cert pwI.usk .initiator)
        (I.newSession c0.sess ssid pwR.mpk pwR.cert pwR.usk .responder) [] = some (trI, sI, sR))
    (hfI : I.finalize sI = some (idOfR, kk)) (hfR : I.finalize sR = some (idOfI, kk)) :
    ∃ LI LR wire, Latke.drive P (pre ++ c0 :: c1 :: rest)
        (⟨ssid, pwI, .initiator, q0I, none, []⟩ : Latke I K)
        (⟨ssid, pwR, .responder, q0R, none, []⟩ : Latke I K) []
          = some (trP.map some ++ [none] ++
              (encryptFrom P k ssid 0 ((c1 :: rest).map (·.eue)) trI).map some ++ [none], LI, LR) ∧
      wire = trP ++ encryptFrom P k ssid 0 ((c1 :: rest).map (·.eue)) trI ∧
      LI.isDone = true ∧ LR.isDone = true ∧
      LI.finalize P = some (idOfR, latkeFinalKey P wire.flatten kk) ∧
      LR.finalize P = some (idOfI, latkeFinalKey P wire.flatten kk) := by
  obtain ⟨l, o, ql, q', w, tl, qo, h1, h2, h3, h4, h5, h6, h7, h8, h9⟩ :=
    drive_pake P ssid pre c0 (c1 :: rest) (⟨ssid, pwI, .initiator, q0I, none, []⟩ : Latke I K)
      (⟨ssid, pwR, .responder, q0R, none, []⟩ : Latke I K) _ _ [] [] pwI pwR .initiator .responder trP qI qR
      ⟨rfl, rfl, rfl, rfl, rfl, rfl⟩ ⟨rfl, rfl, rfl, rfl, rfl, rfl⟩ hP
  simp only [hpar, Nat.one_ne_zero, if_false] at h1 h2 h7 h9
  obtain ⟨rfl, rfl⟩ := h7
  obtain ⟨hdx, hdy, hda, _, hdp⟩ := converse_done _ _ _ _ _ _ _ _ _ hI
  -- the responder's last PAKE call creates its session and sends nothing
  have hm : l.run P c0 w = some ({ l with pakeState := qR, ibkeState := some (Eue.newSession P c0.sess ssid pwR.mpk pwR.cert pwR.usk .responder k), transcript := tl ++ w }, none) := by
    unfold Latke.run Latke.pakePhase
    simp only [h1.pake, h3, Bool.not_false, if_true, h4, h5, Latke.getEue, h1.ibke, hkR, h1.role, h1.ssid, h1.pw, h1.tr]
    simp only [reduceCtorEq, if_false]
    cases w <;> simp
  have hg : o.getEue P o.pakeState c1 = some (Eue.newSession P c1.sess ssid pwI.mpk pwI.cert pwI.usk .initiator k) := by
    simp [Latke.getEue, h2.ibke, h2.pake, hkI, h2.ssid, h2.pw, h2.role]
  obtain ⟨a', p', ea', ep', d1, d2, d3, d4, d5⟩ :=
    drive_ibke_start P k ssid (c1 :: rest)
      { o with ibkeState := some (Eue.newSession P c1.sess ssid pwI.mpk pwI.cert pwI.usk .initiator k) }
      { l with pakeState := qR, ibkeState := some (Eue.newSession P c0.sess ssid pwR.mpk pwR.cert pwR.usk .responder k), transcript := tl ++ w }
      (Eue.newSession P c1.sess ssid pwI.mpk pwI.cert pwI.usk .initiator k)
      (Eue.newSession P c0.sess ssid pwR.mpk pwR.cert pwR.usk .responder k)
      (tl ++ w) trI sI sR (newSession_initiator ..) (newSession_responder ..)
      ⟨by rw [show ({ o with ibkeState := some (Eue.newSession P c1.sess ssid pwI.mpk pwI.cert pwI.usk .initiator k) } : Latke I K).pakeState = o.pakeState from rfl, h2.pake]; exact h6, rfl, h2.tr⟩
      ⟨h5, rfl, rfl⟩
      hI
  have hdrive : Latke.drive P (c0 :: c1 :: rest) l o w
      = some (none :: ((encryptFrom P k ssid 0 ((c1 :: rest).map (·.eue)) trI).map some ++ [none]), p', a') := by
    rw [Latke.drive]
    simp only [h1.not_done, Bool.false_eq_true, if_false, hm, Option.getD_none]
    rw [drive_lazy_active P o _ _ c1 rest [] (by rw [h2.pake]; exact h6) h2.ibke hg
      (by simpa [Eue.isDone, Eue.newSession] using hda), d1]
  have hfin := h9
  rw [hdrive, Option.map_some] at hfin
  rw [h8] at d2 d3
  refine ⟨a', p', trP ++ encryptFrom P k ssid 0 ((c1 :: rest).map (·.eue)) trI, ?_, rfl, ?_, ?_, ?_, ?_⟩
  · rw [hfin]; simp
  · exact d2.isDone d4 hdx
  · exact d3.isDone d5 hdy
  · have := d2.finalize (P := P) d4 hfI
    simpa using this
  · have := d3.finalize (P := P) d5 hfR
    simpa using this


end Verif.Latke
