import Verif.Latke.Pake.KcSpake2

/-! # Helper lemmas about the KC-SPAKE2 model -/

namespace Verif.Latke.KcSpake2
variable {S : Spake2} (P : SymPrims)

theorem run_late (s : KcSpake2 S) (h : 4 ≤ s.nextStep) (u : Unit) (m : Bytes) : run P s u m = .panic := by
  obtain ⟨n, hn⟩ : ∃ n, s.nextStep = n + 4 := ⟨s.nextStep - 4, by omega⟩
  simp [run, hn]

/-- Where an initiator can be after a history. -/
theorem trace_inv_init (c : S.Coins) (ssid : Ssid) (pw : Bytes) (t : List Event) (s : KcSpake2 S)
    (h : Trace (run P) (KcSpake2.new S c ssid pw .initiator) t s) :
    (t = [] ∧ s = KcSpake2.new S c ssid pw .initiator) ∨
    (t = [⟨[], some (some (S.start c pw ssid.1).2)⟩] ∧
      s = { KcSpake2.new S c ssid pw .initiator with nextStep := 2 }) ∨
    (∃ pm mac key, t = [⟨[], some (some (S.start c pw ssid.1).2)⟩, ⟨pm ++ mac, none⟩] ∧
      S.finish (S.start c pw ssid.1).1 pm = some key ∧
      mac ≠ (sessHash P pw (S.start c pw ssid.1).2 pm key).2.1 ∧
      s.nextStep = 2 ∧ s.pakeState = none ∧ s.done = false ∧
      s.outputKey = some (sessHash P pw (S.start c pw ssid.1).2 pm key).2.2) ∨
    (∃ pm key, t = [⟨[], some (some (S.start c pw ssid.1).2)⟩,
        ⟨pm ++ (sessHash P pw (S.start c pw ssid.1).2 pm key).2.1,
          some (some (sessHash P pw (S.start c pw ssid.1).2 pm key).1)⟩] ∧
      S.finish (S.start c pw ssid.1).1 pm = some key ∧
      s.nextStep = 4 ∧ s.done = true ∧
      s.outputKey = some (sessHash P pw (S.start c pw ssid.1).2 pm key).2.2) := by
  have step2 : ∀ {s' : KcSpake2 S} {m},
      (∀ o, run P { KcSpake2.new S c ssid pw .initiator with nextStep := 2 } () m = .ok s' o → 
        ∃ pm key, m = pm ++ (sessHash P pw (S.start c pw ssid.1).2 pm key).2.1 ∧
          o = some (sessHash P pw (S.start c pw ssid.1).2 pm key).1 ∧
          S.finish (S.start c pw ssid.1).1 pm = some key ∧ s'.nextStep = 4 ∧ s'.done = true ∧
          s'.outputKey = some (sessHash P pw (S.start c pw ssid.1).2 pm key).2.2) ∧
      (∀ e, run P { KcSpake2.new S c ssid pw .initiator with nextStep := 2 } () m = .err s' e → 
        ∃ pm mac key, m = pm ++ mac ∧ mac ≠ (sessHash P pw (S.start c pw ssid.1).2 pm key).2.1 ∧
          S.finish (S.start c pw ssid.1).1 pm = some key ∧ s'.nextStep = 2 ∧ s'.pakeState = none ∧ s'.done = false ∧
          s'.outputKey = some (sessHash P pw (S.start c pw ssid.1).2 pm key).2.2) := by
    intro s' m
    cases hm : splitEnd? 32 m with
    | none => simp [run, hm]
    | some r =>
      obtain ⟨pm, mac⟩ := r
      obtain ⟨rfl, hl⟩ := splitEnd?_eq_some hm
      cases hf : S.finish (S.start c pw ssid.1).1 pm with
      | none => simp [run, hm, KcSpake2.new, hf]
      | some key =>
        by_cases he : (sessHash P pw (S.start c pw ssid.1).2 pm key).2.1 = mac
        · constructor
          · intro o h
            simp [run, hm, KcSpake2.new, hf, he] at h
            obtain ⟨rfl, rfl⟩ := h
            exact ⟨pm, key, by rw [he], rfl, hf, rfl, rfl, rfl⟩
          · intro e h
            simp [run, hm, KcSpake2.new, hf, he] at h
        · constructor
          · intro o h
            simp [run, hm, KcSpake2.new, hf, he] at h
          · intro e h
            simp [run, hm, KcSpake2.new, hf, he] at h
            subst h
            exact ⟨pm, mac, key, rfl, fun h => he h.symm, hf, rfl, rfl, rfl, rfl⟩
  have failed : ∀ (s : KcSpake2 S) u m, s.nextStep = 2 → s.pakeState = none → run P s u m = .panic := by
    intro s u m h1 h2
    simp only [run, h1, h2]
    split <;> rfl
  induction h with
  | nil => simp
  | @ok t s u m s' o _ hr ih =>
    rcases ih with ⟨rfl, rfl⟩ | ⟨rfl, rfl⟩ | ⟨pm, mac, key, rfl, hf, hmac, hn, hp, hd, hk⟩ | ⟨pm, key, rfl, hf, hn, hd, hk⟩
    · right; left
      by_cases hm : m = []
      · subst hm
        simp [run, KcSpake2.new] at hr
        obtain ⟨rfl, rfl⟩ := hr
        simp [KcSpake2.new]
      · have : m.length ≠ 0 := by simpa using hm
        simp [run, KcSpake2.new, hm] at hr
    · right; right; right
      obtain ⟨pm, key, rfl, rfl, hf, h1, h2, h3⟩ := step2.1 o hr
      exact ⟨pm, key, rfl, hf, h1, h2, h3⟩
    · rw [failed s u m hn hp] at hr; simp at hr
    · rw [run_late P s (by omega)] at hr; simp at hr
  | @err t s u m s' e _ hr ih =>
    rcases ih with ⟨rfl, rfl⟩ | ⟨rfl, rfl⟩ | ⟨pm, mac, key, rfl, hf, hmac, hn, hp, hd, hk⟩ | ⟨pm, key, rfl, hf, hn, hd, hk⟩
    · by_cases hm : m = []
      · subst hm
        simp [run, KcSpake2.new] at hr
      · simp [run, KcSpake2.new, hm] at hr
    · right; right; left
      obtain ⟨pm, mac, key, rfl, hmac, hf, h1, h2, h3, h4⟩ := step2.2 e hr
      exact ⟨pm, mac, key, rfl, hf, hmac, h1, h2, h3, h4⟩
    · rw [failed s u m hn hp] at hr; simp at hr
    · rw [run_late P s (by omega)] at hr; simp at hr

/-- Responder state after its first step. -/
def afterFirst (c : S.Coins) (ssid : Ssid) (pw m1 key : Bytes) : KcSpake2 S :=
  let h := sessHash P pw m1 (S.start c pw ssid.1).2 key
  { KcSpake2.new S c ssid pw .responder with
      pakeState := none, macs := some (h.1, h.2.1), outputKey := some h.2.2, nextStep := 3 }

/-- Where a responder can be after a history. -/
theorem trace_inv_resp (c : S.Coins) (ssid : Ssid) (pw : Bytes) (t : List Event) (s : KcSpake2 S)
    (h : Trace (run P) (KcSpake2.new S c ssid pw .responder) t s) :
    (t = [] ∧ s = KcSpake2.new S c ssid pw .responder) ∨
    (∃ m1 key errs, S.finish (S.start c pw ssid.1).1 m1 = some key ∧
      t = ⟨m1, some (some ((S.start c pw ssid.1).2 ++ (sessHash P pw m1 (S.start c pw ssid.1).2 key).2.1))⟩ :: errs ∧
      (∀ e ∈ errs, e.outcome = none ∧ e.incoming ≠ (sessHash P pw m1 (S.start c pw ssid.1).2 key).1) ∧
      s = afterFirst P c ssid pw m1 key) ∨
    (∃ m1 key errs, S.finish (S.start c pw ssid.1).1 m1 = some key ∧
      t = ⟨m1, some (some ((S.start c pw ssid.1).2 ++ (sessHash P pw m1 (S.start c pw ssid.1).2 key).2.1))⟩ :: errs
        ++ [⟨(sessHash P pw m1 (S.start c pw ssid.1).2 key).1, some none⟩] ∧
      (∀ e ∈ errs, e.outcome = none ∧ e.incoming ≠ (sessHash P pw m1 (S.start c pw ssid.1).2 key).1) ∧
      s = { afterFirst P c ssid pw m1 key with done := true, nextStep := 5 }) := by
  induction h with
  | nil => simp
  | @ok t s u m s' o _ hr ih =>
    rcases ih with ⟨rfl, rfl⟩ | ⟨m1, key, errs, hf, rfl, he, rfl⟩ | ⟨m1, key, errs, hf, rfl, he, rfl⟩
    · right; left
      cases hf : S.finish (S.start c pw ssid.1).1 m with
      | none => simp [run, KcSpake2.new, hf] at hr
      | some key =>
        simp [run, KcSpake2.new, hf] at hr
        obtain ⟨rfl, rfl⟩ := hr
        exact ⟨m, key, [], hf, rfl, by simp, rfl⟩
    · right; right
      by_cases hm : (sessHash P pw m1 (S.start c pw ssid.1).2 key).1 = m
      · subst hm
        simp [run, afterFirst] at hr
        obtain ⟨rfl, rfl⟩ := hr
        exact ⟨m1, key, errs, hf, rfl, he, rfl⟩
      · simp [run, afterFirst, hm] at hr
    · rw [run_late P _ (by simp)] at hr; simp at hr
  | @err t s u m s' e _ hr ih =>
    rcases ih with ⟨rfl, rfl⟩ | ⟨m1, key, errs, hf, rfl, he, rfl⟩ | ⟨m1, key, errs, hf, rfl, he, rfl⟩
    · cases hf : S.finish (S.start c pw ssid.1).1 m with
      | none => simp [run, KcSpake2.new, hf] at hr
      | some key => simp [run, KcSpake2.new, hf] at hr
    · right; left
      by_cases hm : (sessHash P pw m1 (S.start c pw ssid.1).2 key).1 = m
      · simp [run, afterFirst, hm] at hr
      · have hr' := hr
        simp [run, afterFirst, hm] at hr'
        subst hr'
        refine ⟨m1, key, errs ++ [⟨m, none⟩], hf, by simp, ?_, rfl⟩
        intro e he'
        rw [List.mem_append, List.mem_singleton] at he'
        rcases he' with he' | rfl
        · exact he e he'
        · exact ⟨rfl, fun h => hm h.symm⟩
    · rw [run_late P _ (by simp)] at hr; simp at hr

end Verif.Latke.KcSpake2
