import Verif.Latke.Ibke.SigDh

/-! # Helper lemmas about the Signed-DH model -/

namespace Verif.Latke
variable {G : Ed25519} {D : X25519}

theorem SigDhCert.fromBytes_toBytes (hG : G.Correct) (c : SigDhCert G) : SigDhCert.fromBytes c.toBytes = some c := by
  simp [SigDhCert.fromBytes, SigDhCert.toBytes, splitAt?_append c.id.2, splitAt?_append (G.pkToBytes c.sigPk).2,
    splitAt?_append c.dhPk.2, toArr?_val, hG.pk_roundtrip]

theorem SigDhCert.length_toBytes (c : SigDhCert G) : c.toBytes.length = SigDhCert.size := by
  simp [SigDhCert.toBytes, SigDhCert.size, c.id.2, (G.pkToBytes c.sigPk).2, c.dhPk.2, c.sig.2]

theorem SigDhCert.fromBytes_eq_some {b : Bytes} {c : SigDhCert G} (h : SigDhCert.fromBytes b = some c) :
    ∃ pkb : ByteArr 32, G.pkFromBytes pkb = some c.sigPk ∧ b = c.id.1 ++ pkb.1 ++ c.dhPk.1 ++ c.sig.1 := by
  simp only [SigDhCert.fromBytes, Option.bind_eq_bind, Option.bind_eq_some_iff, Prod.exists, Option.pure_def,
    Option.some.injEq] at h
  obtain ⟨a1, r1, h1, a2, r2, h2, a3, r3, h3, i, hi, p, hp, q, hq, d, hd, g, hg, rfl⟩ := h
  refine ⟨p, hq, ?_⟩
  have e1 := (splitAt?_eq_some h1).1
  have e2 := (splitAt?_eq_some h2).1
  have e3 := (splitAt?_eq_some h3).1
  simp only [toArr?_eq_some hi, toArr?_eq_some hp, toArr?_eq_some hd, toArr?_eq_some hg]
  rw [e1, e2, e3]; simp

namespace IdSigDh

theorem parse_msg (hG : G.Correct) (eph : ByteArr 32) (sig : ByteArr 64) (c : SigDhCert G) :
    parse G (eph.1 ++ sig.1 ++ c.toBytes) = some (eph, sig, c) := by
  simp [parse, splitAt?_append eph.2, splitAt?_append sig.2, toArr?_val, SigDhCert.fromBytes_toBytes hG]

theorem parse_eq_some {b : Bytes} {eph : ByteArr 32} {sig : ByteArr 64} {c : SigDhCert G}
    (h : parse G b = some (eph, sig, c)) :
    ∃ pkb : ByteArr 32, G.pkFromBytes pkb = some c.sigPk ∧
      b = eph.1 ++ sig.1 ++ (c.id.1 ++ pkb.1 ++ c.dhPk.1 ++ c.sig.1) := by
  simp only [parse, Option.bind_eq_bind, Option.bind_eq_some_iff, Prod.exists, Option.pure_def,
    Option.some.injEq, Prod.mk.injEq] at h
  obtain ⟨a1, r1, h1, a2, r2, h2, i, hi, p, hp, q, hq, rfl, rfl, rfl⟩ := h
  obtain ⟨pkb, hk, hb⟩ := SigDhCert.fromBytes_eq_some hq
  refine ⟨pkb, hk, ?_⟩
  have e1 := (splitAt?_eq_some h1).1
  have e2 := (splitAt?_eq_some h2).1
  rw [toArr?_eq_some hi, toArr?_eq_some hp, ← hb, e1, e2]; simp

/-- What an accepted message looks like: `peerByte` is the role byte of the sender. -/
structure Accepts (mpk : G.Pk) (peerByte : UInt8) (ssid : Ssid) (m : Bytes) (eph dhPk : ByteArr 32) (id : Id) : Prop where
  intro ::
  ex : ∃ (ephSig certSig : ByteArr 64) (pkb : ByteArr 32) (pk : G.Pk),
    m = eph.1 ++ ephSig.1 ++ (id.1 ++ pkb.1 ++ dhPk.1 ++ certSig.1) ∧
    G.pkFromBytes pkb = some pk ∧
    G.verify mpk (id.1 ++ (G.pkToBytes pk).1 ++ dhPk.1) certSig = true ∧
    G.verify pk ([peerByte] ++ ssid.1 ++ eph.1) ephSig = true

variable (P : SymPrims)

theorem run_late (s : IdSigDh G D) (h : 3 ≤ s.nextStep) (u : D.Sk) (m : Bytes) : run P s u m = .panic := by
  obtain ⟨n, hn⟩ : ∃ n, s.nextStep = n + 3 := ⟨s.nextStep - 3, by omega⟩
  simp [run, hn]

theorem step0 (s : IdSigDh G D) (h : s.nextStep = 0) (u : D.Sk) (m : Bytes) :
    run P s u m = if m = [] then
      .ok { s with ephSk := some u, ephPk := some (D.pub u), nextStep := 2 }
        (some ((D.pub u).1 ++ (G.sign s.usk.1 (ephTbs 0x00 s.ssid (D.pub u))).1 ++ s.cert.toBytes))
    else .panic := by
  by_cases hm : m = [] <;> simp [run, h, hm]

theorem step1_ok {s s' : IdSigDh G D} (h : s.nextStep = 1) {u : D.Sk} {m : Bytes} {o} (hr : run P s u m = .ok s' o) :
    ∃ eph dhPk id, Accepts s.mpk 0x00 s.ssid m eph dhPk id ∧
      s' = { s with
        outputId := some id
        outputKey := some (kdf P (D.dh s.usk.2 dhPk) (D.dh s.usk.2 eph) (D.dh u dhPk) (D.dh u eph) s.ssid eph (D.pub u))
        done := true, nextStep := 3 } ∧
      o = some ((D.pub u).1 ++ (G.sign s.usk.1 (ephTbs 0x01 s.ssid (D.pub u))).1 ++ s.cert.toBytes) := by
  cases hp : parse G m with
  | none => simp [run, h, hp] at hr
  | some r =>
    obtain ⟨eph, sig, c⟩ := r
    by_cases h1 : G.verify s.mpk c.tbs c.sig = true
    · by_cases h2 : G.verify c.sigPk (ephTbs 0x00 s.ssid eph) sig = true
      · simp [run, h, hp, h1, h2] at hr
        obtain ⟨pkb, hk, hb⟩ := parse_eq_some hp
        exact ⟨eph, c.dhPk, c.id, ⟨sig, c.sig, pkb, c.sigPk, hb, hk, h1, h2⟩, hr.1.symm, by simp [← hr.2]⟩
      · simp [run, h, hp, h1, h2] at hr
    · simp [run, h, hp, h1] at hr

theorem step1_err {s s' : IdSigDh G D} (h : s.nextStep = 1) {u : D.Sk} {m : Bytes} {o} (hr : run P s u m = .err s' o) :
    ∃ i, s' = { s with outputId := i } := by
  cases hp : parse G m with
  | none => simp [run, h, hp] at hr
  | some r =>
    obtain ⟨eph, sig, c⟩ := r
    by_cases h1 : G.verify s.mpk c.tbs c.sig = true
    · by_cases h2 : G.verify c.sigPk (ephTbs 0x00 s.ssid eph) sig = true
      · simp [run, h, hp, h1, h2] at hr
      · simp [run, h, hp, h1, h2] at hr
        exact ⟨some c.id, by rw [← hr, h]⟩
    · simp [run, h, hp, h1] at hr
      exact ⟨_, hr.symm⟩

theorem step2_ok {s s' : IdSigDh G D} (h : s.nextStep = 2) {x : D.Sk} (hx : s.ephSk = some x)
    (hX : s.ephPk = some (D.pub x)) {u : D.Sk} {m : Bytes} {o} (hr : run P s u m = .ok s' o) :
    ∃ eph dhPk id, Accepts s.mpk 0x01 s.ssid m eph dhPk id ∧
      s' = { s with
        outputId := some id
        outputKey := some (kdf P (D.dh s.usk.2 dhPk) (D.dh x dhPk) (D.dh s.usk.2 eph) (D.dh x eph) s.ssid (D.pub x) eph)
        done := true, nextStep := 4 } ∧
      o = none := by
  cases hp : parse G m with
  | none => simp [run, h, hp] at hr
  | some r =>
    obtain ⟨eph, sig, c⟩ := r
    by_cases h1 : G.verify s.mpk c.tbs c.sig = true
    · by_cases h2 : G.verify c.sigPk (ephTbs 0x01 s.ssid eph) sig = true
      · simp [run, h, hp, h1, h2, hx, hX] at hr
        obtain ⟨pkb, hk, hb⟩ := parse_eq_some hp
        exact ⟨eph, c.dhPk, c.id, ⟨sig, c.sig, pkb, c.sigPk, hb, hk, h1, h2⟩, by rw [← hr.1, hx, hX], hr.2.symm⟩
      · simp [run, h, hp, h1, h2] at hr
    · simp [run, h, hp, h1] at hr

theorem step2_err {s s' : IdSigDh G D} (h : s.nextStep = 2) {x : D.Sk} (hx : s.ephSk = some x)
    (hX : s.ephPk = some (D.pub x)) {u : D.Sk} {m : Bytes} {o} (hr : run P s u m = .err s' o) :
    ∃ i, s' = { s with outputId := i } := by
  cases hp : parse G m with
  | none => simp [run, h, hp] at hr
  | some r =>
    obtain ⟨eph, sig, c⟩ := r
    by_cases h1 : G.verify s.mpk c.tbs c.sig = true
    · by_cases h2 : G.verify c.sigPk (ephTbs 0x01 s.ssid eph) sig = true
      · simp [run, h, hp, h1, h2, hx, hX] at hr
      · simp [run, h, hp, h1, h2] at hr
        exact ⟨some c.id, by rw [← hr, h]⟩
    · simp [run, h, hp, h1] at hr
      exact ⟨_, hr.symm⟩

/-- Where an initiator can be after a history. -/
theorem trace_inv_init (ssid : Ssid) (mpk : G.Pk) (cert : SigDhCert G) (usk : G.Sk × D.Sk) (t : List Event)
    (s : IdSigDh G D) (h : Trace (run P) (newSession ssid mpk cert usk .initiator) t s) :
    (t = [] ∧ s = newSession ssid mpk cert usk .initiator) ∨
    (∃ x errs i, t = ⟨[], some (some ((D.pub x).1 ++ (G.sign usk.1 (ephTbs 0x00 ssid (D.pub x))).1 ++ cert.toBytes))⟩ :: errs ∧
      (∀ e ∈ errs, e.outcome = none) ∧
      s = { newSession ssid mpk cert usk .initiator with
              ephSk := some x, ephPk := some (D.pub x), nextStep := 2, outputId := i }) ∨
    (∃ x errs m eph dhPk id,
      t = ⟨[], some (some ((D.pub x).1 ++ (G.sign usk.1 (ephTbs 0x00 ssid (D.pub x))).1 ++ cert.toBytes))⟩ :: errs
        ++ [⟨m, some none⟩] ∧
      (∀ e ∈ errs, e.outcome = none) ∧
      Accepts mpk 0x01 ssid m eph dhPk id ∧
      s = { newSession ssid mpk cert usk .initiator with
              ephSk := some x, ephPk := some (D.pub x), nextStep := 4, done := true, outputId := some id
              outputKey := some (kdf P (D.dh usk.2 dhPk) (D.dh x dhPk) (D.dh usk.2 eph) (D.dh x eph) ssid (D.pub x) eph) }) := by
  induction h with
  | nil => simp
  | @ok t s u m s' o _ hr ih =>
    rcases ih with ⟨rfl, rfl⟩ | ⟨x, errs, i, rfl, he, rfl⟩ | ⟨x, errs, m', eph, dhPk, id, rfl, he, ha, rfl⟩
    · right; left
      rw [step0 P _ rfl] at hr
      by_cases hm : m = []
      · subst hm
        simp at hr
        exact ⟨u, [], none, by simp [← hr.2, newSession], by simp, hr.1.symm⟩
      · simp [hm] at hr
    · right; right
      obtain ⟨eph, dhPk, id, ha, hs, rfl⟩ := step2_ok P rfl rfl rfl hr
      exact ⟨x, errs, m, eph, dhPk, id, rfl, he, ha, hs⟩
    · rw [run_late P _ (by simp)] at hr; simp at hr
  | @err t s u m s' e _ hr ih =>
    rcases ih with ⟨rfl, rfl⟩ | ⟨x, errs, i, rfl, he, rfl⟩ | ⟨x, errs, m', eph, dhPk, id, rfl, he, ha, rfl⟩
    · rw [step0 P _ rfl] at hr
      by_cases hm : m = [] <;> simp [hm] at hr
    · right; left
      obtain ⟨i', hs⟩ := step2_err P rfl rfl rfl hr
      refine ⟨x, errs ++ [⟨m, none⟩], i', by simp, ?_, hs⟩
      intro e he'
      rw [List.mem_append, List.mem_singleton] at he'
      rcases he' with he' | rfl
      · exact he e he'
      · rfl
    · rw [run_late P _ (by simp)] at hr; simp at hr

/-- Where a responder can be after a history. -/
theorem trace_inv_resp (ssid : Ssid) (mpk : G.Pk) (cert : SigDhCert G) (usk : G.Sk × D.Sk) (t : List Event)
    (s : IdSigDh G D) (h : Trace (run P) (newSession ssid mpk cert usk .responder) t s) :
    (∃ i, (∀ e ∈ t, e.outcome = none) ∧ s = { newSession ssid mpk cert usk .responder with outputId := i }) ∨
    (∃ x errs m eph dhPk id,
      t = errs ++ [⟨m, some (some ((D.pub x).1 ++ (G.sign usk.1 (ephTbs 0x01 ssid (D.pub x))).1 ++ cert.toBytes))⟩] ∧
      (∀ e ∈ errs, e.outcome = none) ∧
      Accepts mpk 0x00 ssid m eph dhPk id ∧
      s = { newSession ssid mpk cert usk .responder with
              nextStep := 3, done := true, outputId := some id
              outputKey := some (kdf P (D.dh usk.2 dhPk) (D.dh usk.2 eph) (D.dh x dhPk) (D.dh x eph) ssid eph (D.pub x)) }) := by
  induction h with
  | nil => left; exact ⟨none, by simp, rfl⟩
  | @ok t s u m s' o _ hr ih =>
    rcases ih with ⟨i, he, rfl⟩ | ⟨x, errs, m', eph, dhPk, id, rfl, he, ha, rfl⟩
    · right
      obtain ⟨eph, dhPk, id, ha, hs, rfl⟩ := step1_ok P rfl hr
      exact ⟨u, t, m, eph, dhPk, id, rfl, he, ha, hs⟩
    · rw [run_late P _ (by simp)] at hr; simp at hr
  | @err t s u m s' e _ hr ih =>
    rcases ih with ⟨i, he, rfl⟩ | ⟨x, errs, m', eph, dhPk, id, rfl, he, ha, rfl⟩
    · left
      obtain ⟨i', hs⟩ := step1_err P rfl hr
      refine ⟨i', ?_, hs⟩
      intro e he'
      rw [List.mem_append, List.mem_singleton] at he'
      rcases he' with he' | rfl
      · exact he e he'
      · rfl
    · rw [run_late P _ (by simp)] at hr; simp at hr

end IdSigDh
end Verif.Latke
