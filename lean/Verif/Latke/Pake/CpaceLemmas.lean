import Verif.Latke.Pake.Cpace

/-! # Helper lemmas about the CPace model -/

namespace Verif.Latke

theorem b64Char_inj (m n : Nat) (hm : m < 64) (hn : n < 64) (h : b64Char m = b64Char n) : m = n := by
  have key : ∀ m : Fin 64, ∀ n : Fin 64, b64Char m = b64Char n → m = n := by decide +kernel
  exact congrArg Fin.val (key ⟨m, hm⟩ ⟨n, hn⟩ h)

theorem b64Char_ne_pad (n : Nat) : b64Char n ≠ 0x3d := by
  have key : ∀ m : Fin 64, b64Char m ≠ 0x3d := by decide +kernel
  have := key ⟨n % 64, Nat.mod_lt _ (by decide)⟩
  simpa [b64Char] using this

theorem base64_injective (x : Bytes) : ∀ y, base64 x = base64 y → x = y := by
  fun_induction base64 x with
  | case1 => intro y h; rcases y with _ | ⟨a', _ | ⟨b', _ | ⟨c', rest'⟩⟩⟩ <;> simp_all [base64]
  | case2 a =>
    intro y h
    have ha := a.toNat_lt
    rcases y with _ | ⟨a', _ | ⟨b', _ | ⟨c', rest'⟩⟩⟩ <;> simp only [base64, List.cons.injEq, reduceCtorEq, and_true, and_false] at h
    · have hb := a'.toNat_lt
      obtain ⟨h1, h2⟩ := h
      have e1 := b64Char_inj _ _ (by omega) (by omega) h1
      have e2 := b64Char_inj _ _ (by omega) (by omega) h2
      simp only [List.cons.injEq, and_true]
      exact UInt8.toNat_inj.mp (by omega)
    · exact absurd h.2.2.symm (b64Char_ne_pad _)
    · exact absurd h.2.2.1.symm (b64Char_ne_pad _)
  | case3 a b =>
    intro y h
    have ha := a.toNat_lt
    have hb := b.toNat_lt
    rcases y with _ | ⟨a', _ | ⟨b', _ | ⟨c', rest'⟩⟩⟩ <;> simp only [base64, List.cons.injEq, reduceCtorEq, and_true, and_false] at h
    · exact absurd h.2.2 (b64Char_ne_pad _)
    · have ha' := a'.toNat_lt
      have hb' := b'.toNat_lt
      obtain ⟨h1, h2, h3⟩ := h
      have e1 := b64Char_inj _ _ (by omega) (by omega) h1
      have e2 := b64Char_inj _ _ (by omega) (by omega) h2
      have e3 := b64Char_inj _ _ (by omega) (by omega) h3
      simp only [List.cons.injEq, and_true]
      exact ⟨UInt8.toNat_inj.mp (by omega), UInt8.toNat_inj.mp (by omega)⟩
    · exact absurd h.2.2.2.1.symm (b64Char_ne_pad _)
  | case4 a b c rest ih =>
    intro y h
    have ha := a.toNat_lt
    have hb := b.toNat_lt
    have hc := c.toNat_lt
    rcases y with _ | ⟨a', _ | ⟨b', _ | ⟨c', rest'⟩⟩⟩ <;> simp only [base64, List.cons.injEq, reduceCtorEq, and_true, and_false] at h
    · exact absurd h.2.2.1 (b64Char_ne_pad _)
    · exact absurd h.2.2.2.1 (b64Char_ne_pad _)
    · have ha' := a'.toNat_lt
      have hb' := b'.toNat_lt
      have hc' := c'.toNat_lt
      obtain ⟨h1, h2, h3, h4, h5⟩ := h
      have e1 := b64Char_inj _ _ (by omega) (by omega) h1
      have e2 := b64Char_inj _ _ (by omega) (by omega) h2
      have e3 := b64Char_inj _ _ (by omega) (by omega) h3
      have e4 := b64Char_inj _ _ (by omega) (by omega) h4
      rw [ih _ h5]
      simp only [List.cons.injEq, and_true]
      exact ⟨UInt8.toNat_inj.mp (by omega), UInt8.toNat_inj.mp (by omega), UInt8.toNat_inj.mp (by omega)⟩

namespace Cpace
variable {L : CpaceLib}

theorem run_no_err (s : Cpace L) (c : L.Coins) (m : Bytes) (s' e) : run s c m ≠ .err s' e := by
  unfold run
  split <;> simp

theorem run_late (s : Cpace L) (h : 3 ≤ s.nextStep) (c : L.Coins) (m : Bytes) : run s c m = .panic := by
  obtain ⟨n, hn⟩ : ∃ n, s.nextStep = n + 3 := ⟨s.nextStep - 3, by omega⟩
  simp [run, body, hn]

theorem run0_ok {s : Cpace L} {c m s' o} (hn : s.nextStep = 0) (h : run s c m = .ok s' o) :
    m = [] ∧ ∃ st, s' = { s with step1State := some st, nextStep := 2 } := by
  simp only [run, body, hn] at h
  by_cases hm : m.length = 0
  · simp only [hm, ne_eq, not_true_eq_false, if_false] at h
    cases hs : L.step1 c s.password cpaceInit cpaceResp s.ssid.1 with
    | none => simp [hs] at h
    | some st =>
      simp [hs] at h
      exact ⟨List.length_eq_zero_iff.mp hm, st, by simp [← h.1, hn]⟩
  · simp [hm] at h

theorem run1_ok {s : Cpace L} {c m s' o} (hn : s.nextStep = 1) (h : run s c m = .ok s' o) :
    ∃ k, s' = { s with outputKey := some k, done := true, nextStep := 3 } := by
  simp only [run, body, hn] at h
  cases hm : toArr? L.step1Len m with
  | none => simp [hm] at h
  | some p =>
    cases hs : L.step2 c p s.password cpaceInit cpaceResp s.ssid.1 with
    | none => simp [hm, hs] at h
    | some st =>
      simp [hm, hs] at h
      exact ⟨_, by simp [← h.1,]; rfl⟩

theorem run2_ok {s : Cpace L} {c m s' o} (hn : s.nextStep = 2) (h : run s c m = .ok s' o) :
    ∃ k, s' = { s with outputKey := some k, done := true, nextStep := 4 } := by
  simp only [run, body, hn] at h
  cases hm : toArr? L.step2Len m with
  | none => simp [hm] at h
  | some p =>
    cases hst : s.step1State with
    | none => simp [hm, hst] at h
    | some st =>
      cases hs : L.step3 st p with
      | none => simp [hm, hst, hs] at h
      | some k =>
        simp [hm, hst, hs] at h
        exact ⟨k, by simp [← h.1, hn, hst]⟩

/-- Where a CPace session can be after a history. -/
theorem trace_inv (ssid : Ssid) (pw : Bytes) (role : Role) (t : List Event) (s : Cpace L)
    (h : Trace run (Cpace.new L ssid pw role) t s) :
    ((role = .initiator ∧ t = [] ∧ s.nextStep = 0 ∧ s.done = false ∧ s.outputKey = none) ∨
     (role = .initiator ∧ okCount t = 1 ∧ s.nextStep = 2 ∧ s.done = false ∧ s.outputKey = none) ∨
     (role = .initiator ∧ okCount t = 2 ∧ s.nextStep = 4 ∧ s.done = true ∧ ∃ k, s.outputKey = some k) ∨
     (role = .responder ∧ t = [] ∧ s.nextStep = 1 ∧ s.done = false ∧ s.outputKey = none) ∨
     (role = .responder ∧ okCount t = 1 ∧ s.nextStep = 3 ∧ s.done = true ∧ ∃ k, s.outputKey = some k)) := by
  induction h with
  | nil => cases role <;> simp [Cpace.new]
  | @ok t s c m s' o _ hr ih =>
    rcases ih with ⟨rfl, rfl, hn, hd, hk⟩ | ⟨rfl, ht, hn, hd, hk⟩ | ⟨rfl, ht, hn, hd, hk⟩ | ⟨rfl, rfl, hn, hd, hk⟩ |
      ⟨rfl, ht, hn, hd, hk⟩
    · obtain ⟨-, st, rfl⟩ := run0_ok hn hr
      simp [okCount, hd, hk]
    · obtain ⟨k, rfl⟩ := run2_ok hn hr
      simp only [okCount] at ht
      simp [okCount, ht]
    · rw [run_late s (by omega)] at hr; simp at hr
    · obtain ⟨k, rfl⟩ := run1_ok hn hr
      simp [okCount]
    · rw [run_late s (by omega)] at hr; simp at hr
  | err _ hr _ => exact absurd hr (run_no_err _ _ _ _ _)

end Cpace
end Verif.Latke
