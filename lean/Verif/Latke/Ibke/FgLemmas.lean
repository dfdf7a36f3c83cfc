import Verif.Latke.Ibke.HmqvLemmas
import Verif.Latke.Ibke.Fg

/-! # Helper lemmas about the FG-IBKE-C model -/

namespace Verif.Latke.FgIbkeC
variable {R : Group} (P : SymPrims)

/-- First message of a party. -/
def hello (cert : FgCert R) (x : R.Scalar) : Bytes := cert.id.1 ++ (R.compress cert.X).1 ++ (R.compress (x • R.base)).1

/-- The two shared points of a party with ephemeral secret `x`. -/
def points (R : Group) (x xhat : R.Scalar) (mpk : R.Pt) (id : Id) (xb : ByteArr 32) (X eph : R.Pt) : R.Pt × R.Pt :=
  (x • eph, (x + xhat) • (eph + X + fgHash R id.1 xb.1 • mpk))

theorem run_late (s : FgIbkeC R) (h : 4 ≤ s.nextStep) (u : R.Scalar) (m : Bytes) : run P s u m = .panic := by
  obtain ⟨n, hn⟩ : ∃ n, s.nextStep = n + 4 := ⟨s.nextStep - 4, by omega⟩
  simp [run, body, hn]

theorem step0 (s : FgIbkeC R) (h : s.nextStep = 0) (u : R.Scalar) (m : Bytes) :
    run P s u m = if m = [] then
      .ok { s with ephPk := some (u • R.base), ephSk := some u, nextStep := 2, transcript := s.transcript ++ hello s.cert u }
        (some (hello s.cert u))
    else .panic := by
  by_cases hm : m = [] <;> simp [run, body, h, hm, Group.mulBase, hello]

theorem length_derive (α β : R.Pt) : (derive P α β).1.length = 32 ∧ (derive P α β).2.1.length = 32 := by
  simp [derive, (P.hkdfExpand _ _ 96).2]

theorem step1_of (s : FgIbkeC R) (h : s.nextStep = 1) (u : R.Scalar) (id : Id) (xb ephb : ByteArr 32) (X eph mpk : R.Pt)
    (h1 : R.decompress xb = some X) (h2 : R.decompress ephb = some eph) (h3 : R.decompress s.mpk = some mpk) :
    run P s u (id.1 ++ xb.1 ++ ephb.1) =
      let dv := derive P (points R u s.cert.xhat mpk id xb X eph).1 (points R u s.cert.xhat mpk id xb X eph).2
      .ok { s with outputId := some id, macs := some (dv.1, dv.2.1), sessKey := some dv.2.2, nextStep := 3
                   transcript := s.transcript ++ (id.1 ++ xb.1 ++ ephb.1) ++ (hello s.cert u ++ dv.2.1) }
        (some (hello s.cert u ++ dv.2.1)) := by
  simp only [run, body, h, List.append_assoc, splitAt?_append id.2, splitAt?_append xb.2, Group.point?, toArr?_val, h1, h2, h3,
    Option.bind_eq_bind, Option.bind_some, Option.pure_def, Option.getD_some]
  simp [points, hello, Group.mulBase]

theorem step1_ok {s s' : FgIbkeC R} (h : s.nextStep = 1) {u : R.Scalar} {m : Bytes} {o} (hr : run P s u m = .ok s' o) :
    ∃ (id : Id) (xb ephb : ByteArr 32) (X eph mpk : R.Pt), m = id.1 ++ xb.1 ++ ephb.1 ∧
      R.decompress xb = some X ∧ R.decompress ephb = some eph ∧ R.decompress s.mpk = some mpk := by
  simp only [run, body, h] at hr
  split at hr
  · simp at hr
  · simp at hr
  · next b hb =>
    split at hb
    · simp at hb
    · next hs =>
      simp only [Option.bind_eq_bind, Option.bind_eq_some_iff, Prod.exists, Option.pure_def,
        Option.some.injEq, Prod.mk.injEq] at hs
      obtain ⟨i, r1, g1, xs, es, g2, X, g3, eph, g4, ia, g5, mpk, g6, rfl, rfl, rfl, rfl, rfl⟩ := hs
      obtain ⟨xa, e1, e2⟩ := Group.point?_eq_some g3
      obtain ⟨ea, e3, e4⟩ := Group.point?_eq_some g4
      refine ⟨ia, xa, ea, _, _, _, ?_, e2, e4, g6⟩
      rw [(splitAt?_eq_some g1).1, (splitAt?_eq_some g2).1, toArr?_eq_some g5, e1, e3]; simp

theorem step1_not_err {s s' : FgIbkeC R} (h : s.nextStep = 1) {u : R.Scalar} {m : Bytes} {e} : run P s u m ≠ .err s' e := by
  intro hr
  simp only [run, body, h] at hr
  split at hr
  · simp at hr
  · next s'' e' hb =>
    split at hb
    · simp at hb
    · simp at hb
  · simp at hr

theorem step2_of (s : FgIbkeC R) (h : s.nextStep = 2) (x : R.Scalar) (hx : s.ephSk = some x) (u : R.Scalar) (id : Id)
    (xb ephb : ByteArr 32) (X eph mpk : R.Pt) (mac : Bytes)
    (h1 : R.decompress xb = some X) (h2 : R.decompress ephb = some eph) (h3 : R.decompress s.mpk = some mpk) :
    run P s u (id.1 ++ xb.1 ++ ephb.1 ++ mac) =
      let dv := derive P (points R x s.cert.xhat mpk id xb X eph).1 (points R x s.cert.xhat mpk id xb X eph).2
      if mac = dv.2.1 then
        .ok { s with outputId := some id, sessKey := some dv.2.2, done := true, nextStep := 4
                     transcript := s.transcript ++ (id.1 ++ xb.1 ++ ephb.1 ++ mac) ++ dv.1 } (some dv.1)
      else .err { s with outputId := some id, sessKey := some dv.2.2 } .mk := by
  simp only [run, body, h, List.append_assoc, splitAt?_append id.2, splitAt?_append xb.2, splitAt?_append ephb.2, Group.point?,
    toArr?_val, h1, h2, h3, hx, Option.bind_eq_bind, Option.bind_some, Option.pure_def, points]
  by_cases hm : mac = (derive P (x • eph) ((x + s.cert.xhat) • (eph + X + fgHash R id.1 xb.1 • mpk))).2.1
  · rw [if_pos hm, if_neg (not_not.2 hm.symm)]
    simp
  · rw [if_neg hm, if_pos (fun hc => hm hc.symm)]

theorem step2_shape {s : FgIbkeC R} (h : s.nextStep = 2) {u : R.Scalar} {m : Bytes} (hr : run P s u m ≠ .panic) :
    ∃ (id : Id) (xb ephb : ByteArr 32) (X eph mpk : R.Pt) (mac : Bytes), m = id.1 ++ xb.1 ++ ephb.1 ++ mac ∧
      R.decompress xb = some X ∧ R.decompress ephb = some eph ∧ R.decompress s.mpk = some mpk := by
  by_contra hcon
  apply hr
  simp only [run, body, h]
  split
  · rfl
  all_goals
    next hb =>
      exfalso
      split at hb
      · simp at hb
      · next hs =>
        simp only [Option.bind_eq_bind, Option.bind_eq_some_iff, Prod.exists, Option.pure_def,
          Option.some.injEq, Prod.mk.injEq] at hs
        obtain ⟨i, r1, g1, xs, es, g2, fs, mac, g7, X, g3, eph, g4, ia, g5, sk, g8, mpk, g6, rfl, rfl, rfl, rfl, rfl, rfl, rfl⟩ := hs
        obtain ⟨xa, e1, e2⟩ := Group.point?_eq_some g3
        obtain ⟨ea, e3, e4⟩ := Group.point?_eq_some g4
        refine hcon ⟨ia, xa, ea, _, _, _, mac, ?_, e2, e4, g6⟩
        rw [(splitAt?_eq_some g1).1, (splitAt?_eq_some g2).1, (splitAt?_eq_some g7).1, toArr?_eq_some g5, e1, e3]; simp

theorem step3 (s : FgIbkeC R) (h : s.nextStep = 3) (mac0 mac1 : Bytes) (hm : s.macs = some (mac0, mac1)) (u : R.Scalar)
    (m : Bytes) :
    run P s u m = if m = mac0 then .ok { s with done := true, nextStep := 5, transcript := s.transcript ++ m } none
      else .err s .mk := by
  by_cases h' : m = mac0
  · subst h'; simp [run, body, h, hm]
  · have h'' : ¬ mac0 = m := fun hc => h' hc.symm
    simp [run, body, h, hm, h', h'']

/-- Where an initiator can be after a history. -/
theorem trace_inv_init (ssid : Ssid) (mpkb : ByteArr 32) (cert : FgCert R) (t : List Event)
    (s : FgIbkeC R) (h : Trace (run P) (newSession ssid mpkb cert .initiator) t s) :
    (t = [] ∧ s = newSession ssid mpkb cert .initiator) ∨
    (∃ x errs i k, t = ⟨[], some (some (hello cert x))⟩ :: errs ∧ (∀ e ∈ errs, e.outcome = none) ∧
      s = { newSession ssid mpkb cert .initiator with
              ephSk := some x, ephPk := some (x • R.base), nextStep := 2, transcript := hello cert x, outputId := i, sessKey := k }) ∨
    (∃ x errs, ∃ (id : Id) (xb ephb : ByteArr 32) (X eph mpk : R.Pt),
      let dv := derive P (points R x cert.xhat mpk id xb X eph).1 (points R x cert.xhat mpk id xb X eph).2
      t = ⟨[], some (some (hello cert x))⟩ :: errs ++ [⟨id.1 ++ xb.1 ++ ephb.1 ++ dv.2.1, some (some dv.1)⟩] ∧
      (∀ e ∈ errs, e.outcome = none) ∧
      R.decompress xb = some X ∧ R.decompress ephb = some eph ∧ R.decompress mpkb = some mpk ∧
      s = { newSession ssid mpkb cert .initiator with
              ephSk := some x, ephPk := some (x • R.base), nextStep := 4, done := true, outputId := some id
              sessKey := some dv.2.2
              transcript := hello cert x ++ (id.1 ++ xb.1 ++ ephb.1 ++ dv.2.1) ++ dv.1 }) := by
  induction h with
  | nil => simp
  | @ok t s u m s' o _ hr ih =>
    rcases ih with ⟨rfl, rfl⟩ | ⟨x, errs, i, k, rfl, he, rfl⟩ | ⟨x, errs, id, xb, ephb, X, eph, mpk, rfl, he, h1, h2, h3, rfl⟩
    · right; left
      rw [step0 P _ rfl] at hr
      by_cases hm : m = []
      · subst hm
        simp at hr
        refine ⟨u, [], none, none, by simp [← hr.2, newSession], by simp, hr.1.symm⟩
      · simp [hm] at hr
    · right; right
      obtain ⟨id, xb, ephb, X, eph, mpk, mac, rfl, h1, h2, h3⟩ := step2_shape P rfl (by rw [hr]; simp)
      rw [step2_of P _ rfl x rfl u id xb ephb X eph mpk mac h1 h2 h3] at hr
      simp only at hr
      split at hr
      · next hm =>
        simp only [Step.ok.injEq] at hr
        refine ⟨x, errs, id, xb, ephb, X, eph, mpk, ?_, he, h1, h2, h3, ?_⟩
        · rw [← hr.2, hm]; rfl
        · rw [← hr.1, hm]; rfl
      · simp at hr
    · rw [run_late P _ (by simp)] at hr; simp at hr
  | @err t s u m s' e _ hr ih =>
    rcases ih with ⟨rfl, rfl⟩ | ⟨x, errs, i, k, rfl, he, rfl⟩ | ⟨x, errs, id, xb, ephb, X, eph, mpk, rfl, he, h1, h2, h3, rfl⟩
    · rw [step0 P _ rfl] at hr
      by_cases hm : m = [] <;> simp [hm] at hr
    · right; left
      obtain ⟨id, xb, ephb, X, eph, mpk, mac, rfl, h1, h2, h3⟩ := step2_shape P rfl (by rw [hr]; simp)
      rw [step2_of P _ rfl x rfl u id xb ephb X eph mpk mac h1 h2 h3] at hr
      simp only at hr
      split at hr
      · simp at hr
      · simp only [Step.err.injEq] at hr
        refine ⟨x, errs ++ [⟨_, none⟩], _, _, by simp; rfl, ?_, hr.1.symm⟩
        intro e he'
        rw [List.mem_append, List.mem_singleton] at he'
        rcases he' with he' | rfl
        · exact he e he'
        · rfl
    · rw [run_late P _ (by simp)] at hr; simp at hr

/-- Responder after its first step. -/
def afterFirst (ssid : Ssid) (mpkb : ByteArr 32) (cert : FgCert R) (x : R.Scalar) (id : Id) (xb ephb : ByteArr 32)
    (X eph mpk : R.Pt) : FgIbkeC R :=
  let dv := derive P (points R x cert.xhat mpk id xb X eph).1 (points R x cert.xhat mpk id xb X eph).2
  { newSession ssid mpkb cert .responder with
      outputId := some id, macs := some (dv.1, dv.2.1), sessKey := some dv.2.2, nextStep := 3
      transcript := (id.1 ++ xb.1 ++ ephb.1) ++ (hello cert x ++ dv.2.1) }

/-- Where a responder can be after a history. -/
theorem trace_inv_resp (ssid : Ssid) (mpkb : ByteArr 32) (cert : FgCert R) (t : List Event)
    (s : FgIbkeC R) (h : Trace (run P) (newSession ssid mpkb cert .responder) t s) :
    (t = [] ∧ s = newSession ssid mpkb cert .responder) ∨
    (∃ x errs, ∃ (id : Id) (xb ephb : ByteArr 32) (X eph mpk : R.Pt),
      let dv := derive P (points R x cert.xhat mpk id xb X eph).1 (points R x cert.xhat mpk id xb X eph).2
      (∀ e ∈ errs, e.outcome = none) ∧
      R.decompress xb = some X ∧ R.decompress ephb = some eph ∧ R.decompress mpkb = some mpk ∧
      ((t = ⟨id.1 ++ xb.1 ++ ephb.1, some (some (hello cert x ++ dv.2.1))⟩ :: errs ∧
        s = afterFirst P ssid mpkb cert x id xb ephb X eph mpk) ∨
       (t = ⟨id.1 ++ xb.1 ++ ephb.1, some (some (hello cert x ++ dv.2.1))⟩ :: errs ++ [⟨dv.1, some none⟩] ∧
        s = { afterFirst P ssid mpkb cert x id xb ephb X eph mpk with
                done := true, nextStep := 5
                transcript := (id.1 ++ xb.1 ++ ephb.1) ++ (hello cert x ++ dv.2.1) ++ dv.1 }))) := by
  induction h with
  | nil => simp
  | @ok t s u m s' o _ hr ih =>
    rcases ih with ⟨rfl, rfl⟩ | ⟨x, errs, id, xb, ephb, X, eph, mpk, he, h1, h2, h3, ⟨rfl, rfl⟩ | ⟨rfl, rfl⟩⟩
    · right
      obtain ⟨id, xb, ephb, X, eph, mpk, rfl, h1, h2, h3⟩ := step1_ok P rfl hr
      rw [step1_of P _ rfl u id xb ephb X eph mpk h1 h2 h3] at hr
      simp only [Step.ok.injEq] at hr
      exact ⟨u, [], id, xb, ephb, X, eph, mpk, by simp, h1, h2, h3, Or.inl ⟨by rw [← hr.2]; rfl, hr.1.symm⟩⟩
    · right
      rw [step3 P _ rfl _ _ rfl] at hr
      split at hr
      · next hm =>
        simp only [Step.ok.injEq] at hr
        exact ⟨x, errs, id, xb, ephb, X, eph, mpk, he, h1, h2, h3, Or.inr ⟨by rw [hm, ← hr.2], by rw [← hr.1, hm]; rfl⟩⟩
      · simp at hr
    · rw [run_late P _ (by simp)] at hr; simp at hr
  | @err t s u m s' e _ hr ih =>
    rcases ih with ⟨rfl, rfl⟩ | ⟨x, errs, id, xb, ephb, X, eph, mpk, he, h1, h2, h3, ⟨rfl, rfl⟩ | ⟨rfl, rfl⟩⟩
    · exact absurd hr (step1_not_err P rfl)
    · right
      rw [step3 P _ rfl _ _ rfl] at hr
      split at hr
      · simp at hr
      · simp only [Step.err.injEq] at hr
        obtain ⟨rfl, _⟩ := hr
        refine ⟨x, errs ++ [⟨m, none⟩], id, xb, ephb, X, eph, mpk, ?_, h1, h2, h3, Or.inl ⟨by simp, rfl⟩⟩
        intro e h'
        rw [List.mem_append, List.mem_singleton] at h'
        rcases h' with h' | rfl
        · exact he e h'
        · rfl
    · rw [run_late P _ (by simp)] at hr; simp at hr

/-- Both parties compute the same points. -/
theorem points_eq (x y msk rI rR : R.Scalar) (idI idR : Id) (xbI xbR : ByteArr 32) :
    points R y (rR + fgHash R idR.1 xbR.1 * msk) (msk • R.base) idI xbI (rI • R.base) (x • R.base)
      = points R x (rI + fgHash R idI.1 xbI.1 * msk) (msk • R.base) idR xbR (rR • R.base) (y • R.base) := by
  simp only [points, Prod.mk.injEq]
  constructor <;> module

end Verif.Latke.FgIbkeC
