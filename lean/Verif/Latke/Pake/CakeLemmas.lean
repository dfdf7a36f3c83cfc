import Verif.Latke.Pake.Cake
import Verif.Props.IdealCipher

/-! # Helper lemmas about the CAKE model -/

namespace Verif.Latke
open Verif.Props

theorem ic_inv (P : SymPrims) (d : UInt8) (ssid pw x : Bytes) (h : 32 ≤ x.length) :
    ∃ y, icEncrypt P d ssid pw x = some y ∧ icDecrypt P d ssid pw y = some x ∧ y.length = x.length := by
  obtain ⟨y, h1, h2⟩ := C05_decrypt_encrypt P (icKey P d ssid pw) x h
  exact ⟨y, h1, h2, (C06_encrypt_length _ _ _ _ h1).1⟩

theorem ic_dec_total (P : SymPrims) (d : UInt8) (ssid pw x : Bytes) (h : 32 ≤ x.length) :
    ∃ y, icDecrypt P d ssid pw x = some y ∧ y.length = x.length := by
  obtain ⟨y, h1, h2⟩ := C05_encrypt_decrypt P (icKey P d ssid pw) x h
  exact ⟨y, h1, C06_decrypt_length _ _ _ _ h h1⟩

namespace Cake
variable {E : Kem} (P : SymPrims)

theorem run0 (s : Cake E) (h : s.nextStep = 0) (c : KemCoins E) :
    ∃ y, icEncrypt P 0 s.ssid.1 s.password (E.pkToBytes (E.keygen c.key).1).1 = some y ∧ y.length = 672 ∧
      run P s c [] = .ok { s with ephPk := some (E.keygen c.key).1, ephSk := some (E.keygen c.key).2, nextStep := 2 } (some y) := by
  obtain ⟨y, h1, -, h3⟩ := ic_inv P 0 s.ssid.1 s.password (E.pkToBytes (E.keygen c.key).1).1 (by simp [(E.pkToBytes _).2])
  refine ⟨y, h1, by simpa [(E.pkToBytes _).2] using h3, ?_⟩
  simp [run, h, step0, h1]

theorem run0_panic (s : Cake E) (h : s.nextStep = 0) (c : KemCoins E) (m : Bytes) (hm : m ≠ []) :
    run P s c m = .panic := by
  simp [run, h, step0, hm]

theorem run1 (s : Cake E) (h : s.nextStep = 1) (c : KemCoins E) (m : Bytes) (hm : m.length = 672) :
    ∃ (pk : ByteArr 672) (y : Bytes), icDecrypt P 0 s.ssid.1 s.password m = some pk.1 ∧
      icEncrypt P 1 s.ssid.1 s.password (E.encap c.enc (E.pkFromBytes pk)).2.1 = some y ∧ y.length = 736 ∧
      run P s c m = .ok { s with sessKey := some (E.encap c.enc (E.pkFromBytes pk)).1, done := true, nextStep := 3 } (some y) := by
  obtain ⟨pk, h1, h2⟩ := ic_dec_total P 0 s.ssid.1 s.password m (by omega)
  obtain ⟨y, h3, -, h5⟩ := ic_inv P 1 s.ssid.1 s.password (E.encap c.enc (E.pkFromBytes ⟨pk, by omega⟩)).2.1
    (by simp [(E.encap _ _).2.2])
  refine ⟨⟨pk, by omega⟩, y, h1, h3, by simpa [(E.encap _ _).2.2] using h5, ?_⟩
  have hpk : pk.length = 672 := by omega
  simp only [icEncrypt] at h3
  simp [run, h, step1, toArr?, hm, h1, hpk, icEncrypt, h3]

theorem run1_panic (s : Cake E) (h : s.nextStep = 1) (c : KemCoins E) (m : Bytes) (hm : m.length ≠ 672) :
    run P s c m = .panic := by
  simp [run, h, step1, toArr?, hm]

theorem run2 (s : Cake E) (h : s.nextStep = 2) (sk : E.Sk) (hsk : s.ephSk = some sk) (c : KemCoins E) (m : Bytes)
    (hm : m.length = 736) :
    ∃ (ct : ByteArr 736), icDecrypt P 1 s.ssid.1 s.password m = some ct.1 ∧
      run P s c m = .ok { s with sessKey := some (E.decap ct sk), done := true, nextStep := 4 } none := by
  obtain ⟨ct, h1, h2⟩ := ic_dec_total P 1 s.ssid.1 s.password m (by omega)
  have hct : ct.length = 736 := by omega
  refine ⟨⟨ct, hct⟩, h1, ?_⟩
  simp [run, h, step2, toArr?, hm, h1, hct, hsk]

theorem run2_panic (s : Cake E) (h : s.nextStep = 2) (c : KemCoins E) (m : Bytes) (hm : m.length ≠ 736) :
    run P s c m = .panic := by
  simp [run, h, step2, toArr?, hm]

theorem run_late (s : Cake E) (h : 3 ≤ s.nextStep) (c : KemCoins E) (m : Bytes) : run P s c m = .panic := by
  obtain ⟨n, hn⟩ : ∃ n, s.nextStep = n + 3 := ⟨s.nextStep - 3, by omega⟩
  simp [run, hn]

theorem run_no_err (s : Cake E) (c : KemCoins E) (m : Bytes) (s' e) : run P s c m ≠ .err s' e := by
  unfold run
  simp only
  split <;> simp

/-- Where a CAKE session can be after a history. -/
theorem trace_inv (ssid : Ssid) (pw : Bytes) (role : Role) (t : List Event) (s : Cake E)
    (h : Trace (run P) (Cake.new E ssid pw role) t s) :
    s.ssid = ssid ∧ s.password = pw ∧
    ((role = .initiator ∧ t = [] ∧ s.nextStep = 0 ∧ s.done = false ∧ s.sessKey = none) ∨
     (role = .initiator ∧ okCount t = 1 ∧ t.length = 1 ∧ s.nextStep = 2 ∧ s.done = false ∧ s.sessKey = none ∧ ∃ sk, s.ephSk = some sk) ∨
     (role = .initiator ∧ okCount t = 2 ∧ t.length = 2 ∧ s.nextStep = 4 ∧ s.done = true ∧ ∃ k, s.sessKey = some k) ∨
     (role = .responder ∧ t = [] ∧ s.nextStep = 1 ∧ s.done = false ∧ s.sessKey = none) ∨
     (role = .responder ∧ okCount t = 1 ∧ t.length = 1 ∧ s.nextStep = 3 ∧ s.done = true ∧ ∃ k, s.sessKey = some k)) := by
  induction h with
  | nil => cases role <;> simp [Cake.new]
  | @ok t s c m s' o _ hr ih =>
    obtain ⟨i1, i2, ih⟩ := ih
    rcases ih with ⟨rfl, rfl, hn, hd, hk⟩ | ⟨rfl, ht, hl, hn, hd, hk, sk, hsk⟩ | ⟨rfl, ht, hl, hn, hd, hk⟩ | ⟨rfl, rfl, hn, hd, hk⟩ |
      ⟨rfl, ht, hl, hn, hd, hk⟩
    · by_cases hm : m = []
      · subst hm
        obtain ⟨y, -, -, hy⟩ := run0 P s hn c
        rw [hy] at hr
        simp only [Step.ok.injEq] at hr
        obtain ⟨rfl, rfl⟩ := hr
        simp [okCount, i1, i2, hd, hk]
      · rw [run0_panic P s hn c m hm] at hr; simp at hr
    · by_cases hm : m.length = 736
      · obtain ⟨y, -, hy⟩ := run2 P s hn sk hsk c m hm
        rw [hy] at hr
        simp only [Step.ok.injEq] at hr
        obtain ⟨rfl, rfl⟩ := hr
        simp only [okCount] at ht
        simp [okCount, i1, i2, ht, hl]
      · rw [run2_panic P s hn c m hm] at hr; simp at hr
    · rw [run_late P s (by omega)] at hr; simp at hr
    · by_cases hm : m.length = 672
      · obtain ⟨pk, y, -, -, -, hy⟩ := run1 P s hn c m hm
        rw [hy] at hr
        simp only [Step.ok.injEq] at hr
        obtain ⟨rfl, rfl⟩ := hr
        simp [okCount, i1, i2]
      · rw [run1_panic P s hn c m hm] at hr; simp at hr
    · rw [run_late P s (by omega)] at hr; simp at hr
  | err _ hr _ => exact absurd hr (run_no_err P _ _ _ _ _)

end Cake
end Verif.Latke
