import Verif.Latke.Ibke.Hmqv
import Mathlib.Tactic.Ring
import Mathlib.Tactic.Module

/-! # Helper lemmas about the HMQV-C model -/

namespace Verif.Latke
variable {G : Ed25519} {R : Group}

theorem Group.point?_eq_some {b : Bytes} {p : R.Pt} (h : R.point? b = some p) :
    ∃ a : ByteArr 32, a.1 = b ∧ R.decompress a = some p := by
  simp only [Group.point?, Option.bind_eq_bind, Option.bind_eq_some_iff] at h
  obtain ⟨a, ha, h⟩ := h
  exact ⟨a, toArr?_eq_some ha, h⟩

theorem HmqvCert.fromBytes_toBytes (hR : R.Correct) (c : HmqvCert R) : HmqvCert.fromBytes c.toBytes = some c := by
  simp [HmqvCert.fromBytes, HmqvCert.toBytes, splitAt?_append c.id.2, splitAt?_append (R.compress c.upk).2, toArr?_val,
    Group.point?_compress hR]

theorem HmqvCert.length_toBytes (c : HmqvCert R) : c.toBytes.length = HmqvCert.size := by
  simp [HmqvCert.toBytes, HmqvCert.size, c.id.2, (R.compress c.upk).2, c.sig.2]

theorem HmqvCert.fromBytes_eq_some {b : Bytes} {c : HmqvCert R} (h : HmqvCert.fromBytes b = some c) :
    ∃ pkb : ByteArr 32, R.decompress pkb = some c.upk ∧ b = c.id.1 ++ pkb.1 ++ c.sig.1 := by
  simp only [HmqvCert.fromBytes, Option.bind_eq_bind, Option.bind_eq_some_iff, Prod.exists, Option.pure_def,
    Option.some.injEq] at h
  obtain ⟨a1, r1, h1, a2, r2, h2, i, hi, p, hp, g, hg, rfl⟩ := h
  obtain ⟨a, ha, hd⟩ := Group.point?_eq_some hp
  refine ⟨a, hd, ?_⟩
  have e1 := (splitAt?_eq_some h1).1
  have e2 := (splitAt?_eq_some h2).1
  simp only [toArr?_eq_some hi, toArr?_eq_some hg]
  rw [e1, e2, ha]; simp

namespace IdHmqvC

theorem parse1_msg (hR : R.Correct) (eph : R.Pt) (c : HmqvCert R) :
    parse1 R ((R.compress eph).1 ++ c.toBytes) = some ((R.compress eph).1, eph, c) := by
  simp [parse1, splitAt?_append (R.compress eph).2, Group.point?_compress hR, HmqvCert.fromBytes_toBytes hR]

theorem parse2_msg (hR : R.Correct) (eph : R.Pt) (mac : ByteArr 32) (c : HmqvCert R) :
    parse2 R ((R.compress eph).1 ++ mac.1 ++ c.toBytes) = some ((R.compress eph).1, eph, mac.1, c) := by
  simp [parse2, splitAt?_append (R.compress eph).2, splitAt?_append mac.2, Group.point?_compress hR,
    HmqvCert.fromBytes_toBytes hR]

theorem parse1_eq_some {b eb : Bytes} {eph : R.Pt} {c : HmqvCert R} (h : parse1 R b = some (eb, eph, c)) :
    ∃ (ephb pkb : ByteArr 32), eb = ephb.1 ∧ R.decompress ephb = some eph ∧ R.decompress pkb = some c.upk ∧
      b = ephb.1 ++ (c.id.1 ++ pkb.1 ++ c.sig.1) := by
  simp only [parse1, Option.bind_eq_bind, Option.bind_eq_some_iff, Prod.exists, Option.pure_def,
    Option.some.injEq, Prod.mk.injEq] at h
  obtain ⟨a1, r1, h1, q, hq, c', hc, rfl, rfl, rfl⟩ := h
  obtain ⟨a, ha, hd⟩ := Group.point?_eq_some hq
  obtain ⟨pkb, hk, hb⟩ := HmqvCert.fromBytes_eq_some hc
  exact ⟨a, pkb, ha.symm, hd, hk, by rw [← hb, (splitAt?_eq_some h1).1, ha]⟩

theorem parse2_eq_some {b eb mac : Bytes} {eph : R.Pt} {c : HmqvCert R} (h : parse2 R b = some (eb, eph, mac, c)) :
    ∃ (ephb pkb : ByteArr 32), eb = ephb.1 ∧ R.decompress ephb = some eph ∧ R.decompress pkb = some c.upk ∧
      b = ephb.1 ++ mac ++ (c.id.1 ++ pkb.1 ++ c.sig.1) := by
  simp only [parse2, Option.bind_eq_bind, Option.bind_eq_some_iff, Prod.exists, Option.pure_def,
    Option.some.injEq, Prod.mk.injEq] at h
  obtain ⟨a1, r1, h1, a2, r2, h2, q, hq, c', hc, rfl, rfl, rfl, rfl⟩ := h
  obtain ⟨a, ha, hd⟩ := Group.point?_eq_some hq
  obtain ⟨pkb, hk, hb⟩ := HmqvCert.fromBytes_eq_some hc
  exact ⟨a, pkb, ha.symm, hd, hk, by rw [← hb, (splitAt?_eq_some h1).1, (splitAt?_eq_some h2).1, ha]; simp⟩

/-- `sigma` of the responder. -/
def sigmaR (R : Group) (x usk : R.Scalar) (ownId peerId : Id) (ephb : ByteArr 32) (eph upk : R.Pt) : R.Pt :=
  (x + R.hashToScalar ((R.compress (x • R.base)).1 ++ peerId.1) * usk) •
    (eph + R.hashToScalar (ephb.1 ++ ownId.1) • upk)

/-- `sigma` of the initiator. -/
def sigmaI (R : Group) (x usk : R.Scalar) (ownId peerId : Id) (ephb : ByteArr 32) (eph upk : R.Pt) : R.Pt :=
  (x + R.hashToScalar ((R.compress (x • R.base)).1 ++ peerId.1) * usk) •
    (eph + R.hashToScalar (ephb.1 ++ ownId.1) • upk)

/-- Both parties compute the same `sigma`. -/
theorem sigma_eq (x y a b : R.Scalar) (idI idR : Id) :
    sigmaR R y b idR idI (R.compress (x • R.base)) (x • R.base) (a • R.base)
      = sigmaI R x a idI idR (R.compress (y • R.base)) (y • R.base) (b • R.base) := by
  simp only [sigmaR, sigmaI]
  module

variable (P : SymPrims)

theorem run_late (s : IdHmqvC G R) (h : 4 ≤ s.nextStep) (u : R.Scalar) (m : Bytes) : run P s u m = .panic := by
  obtain ⟨n, hn⟩ : ∃ n, s.nextStep = n + 4 := ⟨s.nextStep - 4, by omega⟩
  simp [run, hn]

theorem step0 (s : IdHmqvC G R) (h : s.nextStep = 0) (u : R.Scalar) (m : Bytes) :
    run P s u m = if m = [] then
      .ok { s with ephPk := some (u • R.base), ephSk := some u, nextStep := 2 }
        (some ((R.compress (u • R.base)).1 ++ s.myCert.toBytes))
    else .panic := by
  by_cases hm : m = [] <;> simp [run, h, hm, Group.mulBase]

theorem step1_ok {s s' : IdHmqvC G R} (h : s.nextStep = 1) {u : R.Scalar} {m : Bytes} {o} (hr : run P s u m = .ok s' o) :
    ∃ (ephb upkb : ByteArr 32) (id : Id) (sig : ByteArr 64) (eph upk : R.Pt),
      m = ephb.1 ++ (id.1 ++ upkb.1 ++ sig.1) ∧ R.decompress ephb = some eph ∧ R.decompress upkb = some upk ∧
      G.verify s.mpk (id.1 ++ (R.compress upk).1) sig = true ∧
      s' = { s with
        outputId := some id
        outputKey := some (derive P s.ssid (sigmaR R u s.usk s.myCert.id id ephb eph upk)).2.2
        macs := some ((derive P s.ssid (sigmaR R u s.usk s.myCert.id id ephb eph upk)).1,
          (derive P s.ssid (sigmaR R u s.usk s.myCert.id id ephb eph upk)).2.1)
        nextStep := 3 } ∧
      o = some ((R.compress (u • R.base)).1 ++ (derive P s.ssid (sigmaR R u s.usk s.myCert.id id ephb eph upk)).2.1.1
        ++ s.myCert.toBytes) := by
  cases hp : parse1 R m with
  | none => simp [run, h, hp] at hr
  | some r =>
    obtain ⟨eb, eph, c⟩ := r
    obtain ⟨ephb, pkb, rfl, h1, h2, rfl⟩ := parse1_eq_some hp
    by_cases hv : G.verify s.mpk c.tbs c.sig = true
    · simp only [run, h, hp, hv, Bool.not_true, Bool.false_eq_true, if_false, Step.ok.injEq] at hr
      exact ⟨ephb, pkb, c.id, c.sig, eph, c.upk, rfl, h1, h2, hv, hr.1.symm, hr.2.symm⟩
    · simp only [run, h, hp] at hr
      rw [if_pos (by simp [hv])] at hr
      simp at hr

theorem step1_err {s s' : IdHmqvC G R} (h : s.nextStep = 1) {u : R.Scalar} {m : Bytes} {o} (hr : run P s u m = .err s' o) :
    s' = s := by
  cases hp : parse1 R m with
  | none => simp [run, h, hp] at hr
  | some r =>
    obtain ⟨eb, eph, c⟩ := r
    by_cases hv : G.verify s.mpk c.tbs c.sig = true
    · simp [run, h, hp, hv] at hr
    · simp [run, h, hp, hv] at hr
      exact hr.1.symm

theorem step2_ok {s s' : IdHmqvC G R} (h : s.nextStep = 2) {x : R.Scalar} (hx : s.ephSk = some x)
    (hX : s.ephPk = some (x • R.base)) {u : R.Scalar} {m : Bytes} {o} (hr : run P s u m = .ok s' o) :
    ∃ (ephb upkb : ByteArr 32) (id : Id) (sig : ByteArr 64) (eph upk : R.Pt),
      m = ephb.1 ++ (derive P s.ssid (sigmaI R x s.usk s.myCert.id id ephb eph upk)).2.1.1 ++ (id.1 ++ upkb.1 ++ sig.1) ∧
      R.decompress ephb = some eph ∧ R.decompress upkb = some upk ∧
      G.verify s.mpk (id.1 ++ (R.compress upk).1) sig = true ∧
      s' = { s with
        outputId := some id
        outputKey := some (derive P s.ssid (sigmaI R x s.usk s.myCert.id id ephb eph upk)).2.2
        done := true, nextStep := 4 } ∧
      o = some (derive P s.ssid (sigmaI R x s.usk s.myCert.id id ephb eph upk)).1.1 := by
  cases hp : parse2 R m with
  | none => simp [run, h, hp] at hr
  | some r =>
    obtain ⟨eb, eph, mac, c⟩ := r
    obtain ⟨ephb, pkb, rfl, h1, h2, rfl⟩ := parse2_eq_some hp
    by_cases hv : G.verify s.mpk c.tbs c.sig = true
    · simp only [run, h, hp, hv, hx, hX, Bool.not_true, Bool.false_eq_true, if_false] at hr
      split at hr
      · simp at hr
      · next hm =>
        have hm : mac = (derive P s.ssid (sigmaI R x s.usk s.myCert.id c.id ephb eph c.upk)).2.1.1 := not_not.1 hm
        simp only [Step.ok.injEq] at hr
        exact ⟨ephb, pkb, c.id, c.sig, eph, c.upk, by rw [hm], h1, h2, hv, by rw [← hr.1, hx, hX]; rfl, hr.2.symm⟩
    · simp only [run, h, hp] at hr
      rw [if_pos (by simp [hv])] at hr
      simp at hr

theorem step2_err {s s' : IdHmqvC G R} (h : s.nextStep = 2) {x : R.Scalar} (hx : s.ephSk = some x)
    (hX : s.ephPk = some (x • R.base)) {u : R.Scalar} {m : Bytes} {o} (hr : run P s u m = .err s' o) :
    ∃ i k, s' = { s with outputId := i, outputKey := k } := by
  cases hp : parse2 R m with
  | none => simp [run, h, hp] at hr
  | some r =>
    obtain ⟨eb, eph, mac, c⟩ := r
    by_cases hv : G.verify s.mpk c.tbs c.sig = true
    · simp only [run, h, hp, hv, hx, hX, Bool.not_true, Bool.false_eq_true, if_false] at hr
      split at hr
      · simp only [Step.err.injEq] at hr
        exact ⟨_, _, by rw [← hr.1, hx, hX, h]⟩
      · simp at hr
    · simp [run, h, hp, hv] at hr
      exact ⟨s.outputId, s.outputKey, hr.1.symm⟩

theorem step3 (s : IdHmqvC G R) (h : s.nextStep = 3) (mac0 mac1 : ByteArr 32) (hm : s.macs = some (mac0, mac1)) (u : R.Scalar)
    (m : Bytes) :
    run P s u m = if m = mac0.1 then .ok { s with done := true, nextStep := 5 } none else .err s .mac := by
  by_cases h' : m = mac0.1 <;> simp [run, h, hm, h']

/-- Where an initiator can be after a history. -/
theorem trace_inv_init (ssid : Ssid) (mpk : G.Pk) (cert : HmqvCert R) (usk : R.Scalar) (t : List Event)
    (s : IdHmqvC G R) (h : Trace (run P) (newSession ssid mpk cert usk .initiator) t s) :
    (t = [] ∧ s = newSession ssid mpk cert usk .initiator) ∨
    (∃ x errs i k, t = ⟨[], some (some ((R.compress (x • R.base)).1 ++ cert.toBytes))⟩ :: errs ∧
      (∀ e ∈ errs, e.outcome = none) ∧
      s = { newSession ssid mpk cert usk .initiator with
              ephSk := some x, ephPk := some (x • R.base), nextStep := 2, outputId := i, outputKey := k }) ∨
    (∃ x errs, ∃ (ephb upkb : ByteArr 32) (id : Id) (sig : ByteArr 64) (eph upk : R.Pt),
      t = ⟨[], some (some ((R.compress (x • R.base)).1 ++ cert.toBytes))⟩ :: errs
        ++ [⟨ephb.1 ++ (derive P ssid (sigmaI R x usk cert.id id ephb eph upk)).2.1.1 ++ (id.1 ++ upkb.1 ++ sig.1),
            some (some (derive P ssid (sigmaI R x usk cert.id id ephb eph upk)).1.1)⟩] ∧
      (∀ e ∈ errs, e.outcome = none) ∧
      R.decompress ephb = some eph ∧ R.decompress upkb = some upk ∧
      G.verify mpk (id.1 ++ (R.compress upk).1) sig = true ∧
      s = { newSession ssid mpk cert usk .initiator with
              ephSk := some x, ephPk := some (x • R.base), nextStep := 4, done := true, outputId := some id
              outputKey := some (derive P ssid (sigmaI R x usk cert.id id ephb eph upk)).2.2 }) := by
  induction h with
  | nil => simp
  | @ok t s u m s' o _ hr ih =>
    rcases ih with ⟨rfl, rfl⟩ | ⟨x, errs, i, k, rfl, he, rfl⟩ | ⟨x, errs, ephb, upkb, id, sig, eph, upk, rfl, he, h1, h2, h3, rfl⟩
    · right; left
      rw [step0 P _ rfl] at hr
      by_cases hm : m = []
      · subst hm
        simp at hr
        exact ⟨u, [], none, none, by simp [← hr.2, newSession], by simp, hr.1.symm⟩
      · simp [hm] at hr
    · right; right
      obtain ⟨ephb, upkb, id, sig, eph, upk, rfl, h1, h2, h3, hs, rfl⟩ := step2_ok P rfl rfl rfl hr
      exact ⟨x, errs, ephb, upkb, id, sig, eph, upk, rfl, he, h1, h2, h3, hs⟩
    · rw [run_late P _ (by simp)] at hr; simp at hr
  | @err t s u m s' e _ hr ih =>
    rcases ih with ⟨rfl, rfl⟩ | ⟨x, errs, i, k, rfl, he, rfl⟩ | ⟨x, errs, ephb, upkb, id, sig, eph, upk, rfl, he, h1, h2, h3, rfl⟩
    · rw [step0 P _ rfl] at hr
      by_cases hm : m = [] <;> simp [hm] at hr
    · right; left
      obtain ⟨i', k', hs⟩ := step2_err P rfl rfl rfl hr
      refine ⟨x, errs ++ [⟨m, none⟩], i', k', by simp, ?_, hs⟩
      intro e he'
      rw [List.mem_append, List.mem_singleton] at he'
      rcases he' with he' | rfl
      · exact he e he'
      · rfl
    · rw [run_late P _ (by simp)] at hr; simp at hr

/-- Responder after its first successful step. -/
def afterFirst (ssid : Ssid) (mpk : G.Pk) (cert : HmqvCert R) (usk x : R.Scalar) (ephb : ByteArr 32) (id : Id) (eph upk : R.Pt) :
    IdHmqvC G R :=
  { newSession ssid mpk cert usk .responder with
      outputId := some id
      outputKey := some (derive P ssid (sigmaR R x usk cert.id id ephb eph upk)).2.2
      macs := some ((derive P ssid (sigmaR R x usk cert.id id ephb eph upk)).1,
        (derive P ssid (sigmaR R x usk cert.id id ephb eph upk)).2.1)
      nextStep := 3 }

/-- Where a responder can be after a history. -/
theorem trace_inv_resp (ssid : Ssid) (mpk : G.Pk) (cert : HmqvCert R) (usk : R.Scalar) (t : List Event)
    (s : IdHmqvC G R) (h : Trace (run P) (newSession ssid mpk cert usk .responder) t s) :
    ((∀ e ∈ t, e.outcome = none) ∧ s = newSession ssid mpk cert usk .responder) ∨
    (∃ x errs errs', ∃ (ephb upkb : ByteArr 32) (id : Id) (sig : ByteArr 64) (eph upk : R.Pt),
      (∀ e ∈ errs, e.outcome = none) ∧ (∀ e ∈ errs', e.outcome = none) ∧
      R.decompress ephb = some eph ∧ R.decompress upkb = some upk ∧
      G.verify mpk (id.1 ++ (R.compress upk).1) sig = true ∧
      ((t = errs ++ ⟨ephb.1 ++ (id.1 ++ upkb.1 ++ sig.1), some (some ((R.compress (x • R.base)).1
          ++ (derive P ssid (sigmaR R x usk cert.id id ephb eph upk)).2.1.1 ++ cert.toBytes))⟩ :: errs' ∧
        s = afterFirst P ssid mpk cert usk x ephb id eph upk) ∨
       (t = errs ++ ⟨ephb.1 ++ (id.1 ++ upkb.1 ++ sig.1), some (some ((R.compress (x • R.base)).1
          ++ (derive P ssid (sigmaR R x usk cert.id id ephb eph upk)).2.1.1 ++ cert.toBytes))⟩ :: errs'
          ++ [⟨(derive P ssid (sigmaR R x usk cert.id id ephb eph upk)).1.1, some none⟩] ∧
        s = { afterFirst P ssid mpk cert usk x ephb id eph upk with done := true, nextStep := 5 }))) := by
  induction h with
  | nil => simp
  | @ok t s u m s' o _ hr ih =>
    rcases ih with ⟨he, rfl⟩ | ⟨x, errs, errs', ephb, upkb, id, sig, eph, upk, he, he', h1, h2, h3, ⟨rfl, rfl⟩ | ⟨rfl, rfl⟩⟩
    · right
      obtain ⟨ephb, upkb, id, sig, eph, upk, rfl, h1, h2, h3, hs, rfl⟩ := step1_ok P rfl hr
      exact ⟨u, t, [], ephb, upkb, id, sig, eph, upk, he, by simp, h1, h2, h3, Or.inl ⟨rfl, hs⟩⟩
    · right
      rw [step3 P _ rfl _ _ rfl] at hr
      split at hr
      · next hm =>
        simp only [Step.ok.injEq] at hr
        obtain ⟨rfl, rfl⟩ := hr
        exact ⟨x, errs, errs', ephb, upkb, id, sig, eph, upk, he, he', h1, h2, h3, Or.inr ⟨by rw [hm], rfl⟩⟩
      · simp at hr
    · rw [run_late P _ (by simp)] at hr; simp at hr
  | @err t s u m s' e _ hr ih =>
    rcases ih with ⟨he, rfl⟩ | ⟨x, errs, errs', ephb, upkb, id, sig, eph, upk, he, he', h1, h2, h3, ⟨rfl, rfl⟩ | ⟨rfl, rfl⟩⟩
    · left
      refine ⟨?_, step1_err P rfl hr⟩
      intro e he'
      rw [List.mem_append, List.mem_singleton] at he'
      rcases he' with he' | rfl
      · exact he e he'
      · rfl
    · right
      rw [step3 P _ rfl _ _ rfl] at hr
      split at hr
      · simp at hr
      · simp only [Step.err.injEq] at hr
        obtain ⟨rfl, rfl⟩ := hr
        refine ⟨x, errs, errs' ++ [⟨m, none⟩], ephb, upkb, id, sig, eph, upk, he, ?_, h1, h2, h3, Or.inl ⟨by simp, rfl⟩⟩
        intro e h'
        rw [List.mem_append, List.mem_singleton] at h'
        rcases h' with h' | rfl
        · exact he' e h'
        · rfl
    · rw [run_late P _ (by simp)] at hr; simp at hr

end IdHmqvC
end Verif.Latke
