import Verif.Latke.Traits

/-! # Specification vocabulary for identity-based key exchanges -/

namespace Verif.Latke

/-- The honest execution of an IBKE: one main key pair, two user key pairs with certificates extracted for `idI` and `idR`, two
sessions with the same ssid in opposite roles, run against each other (`converse`) with the given coins. It succeeds, both
report completion, each outputs the other's id, and both output the same session key. -/
def IbkeAgrees (I : Ibke) (mc : I.MainCoins) (ucI ucR : I.UserCoins) (xcI xcR : I.ExtractCoins) (nI nR : I.SessCoins)
    (ssid : Ssid) (idI idR : Id) (coins : List I.RunCoins) : Prop :=
  ∃ (tr : List Bytes) (sI sR : I.State) (k : SessKey),
    converse I.run I.isDone coins
      (I.newSession nI ssid (I.genMain mc).1 (I.extract xcI (I.genMain mc).2 idI (I.genUser ucI).1) (I.genUser ucI).2
        .initiator)
      (I.newSession nR ssid (I.genMain mc).1 (I.extract xcR (I.genMain mc).2 idR (I.genUser ucR).1) (I.genUser ucR).2
        .responder) [] = some (tr, sI, sR) ∧
    I.isDone sI = true ∧ I.isDone sR = true ∧
    I.finalize sI = some (idR, k) ∧ I.finalize sR = some (idI, k)

/-- A history can be extended at its beginning by a successful call. -/
theorem Trace.cons_ok {σ ε κ : Type} {run : σ → κ → Bytes → Step σ ε (Option Bytes)} {s0 s1 : σ} {c : κ} {m : Bytes} {o : Option Bytes}
    (h : run s0 c m = .ok s1 o) {t : List Event} {s : σ} (ht : Trace run s1 t s) : Trace run s0 (⟨m, some o⟩ :: t) s := by
  induction ht with
  | nil => exact Trace.ok Trace.nil h
  | ok _ hr ih => exact Trace.ok ih hr
  | err _ hr ih => exact Trace.err ih hr

/-- The two histories of an honest conversation: both parties' final states are reached by histories in the sense of `Trace`.
Together with the agreement theorems this shows that the hypotheses "a session that is done" of the authentication theorems are met. -/
theorem traces_of_converse {σ ε κ : Type} {run : σ → κ → Bytes → Step σ ε (Option Bytes)} {done : σ → Bool} :
    ∀ (cs : List κ) (a p : σ) (inc : Bytes) (tr : List Bytes) (a' p' : σ), converse run done cs a p inc = some (tr, a', p') →
      (∃ ta, Trace run a ta a') ∧ (∃ tp, Trace run p tp p') := by
  intro cs
  induction cs with
  | nil => intro a p inc tr a' p' h; simp [converse] at h
  | cons c cs ih =>
    intro a p inc tr a' p' h
    simp only [converse] at h
    split at h
    · simp at h
    · split at h
      · next a1 m hr =>
        split at h
        · simp at h
        · split at h
          · next tr' p1 a2 hc =>
            simp only [Option.some.injEq, Prod.mk.injEq] at h
            obtain ⟨rfl, rfl, rfl⟩ := h
            obtain ⟨⟨tp, hp⟩, ⟨ta, ha⟩⟩ := ih _ _ _ _ _ _ hc
            exact ⟨⟨_, Trace.cons_ok hr ha⟩, ⟨_, hp⟩⟩
          · simp at h
      · next a1 hr =>
        split at h
        · simp only [Option.some.injEq, Prod.mk.injEq] at h
          obtain ⟨rfl, rfl, rfl⟩ := h
          exact ⟨⟨_, Trace.cons_ok hr Trace.nil⟩, ⟨_, Trace.nil⟩⟩
        · simp at h
      · simp at h
      · simp at h

/-- An agreeing run yields, for each party, a history ending in a completed session. -/
theorem IbkeAgrees.traces {I : Ibke} {mc ucI ucR xcI xcR nI nR ssid idI idR coins}
    (h : IbkeAgrees I mc ucI ucR xcI xcR nI nR ssid idI idR coins) :
    (∃ t s, Trace I.run (I.newSession nI ssid (I.genMain mc).1 (I.extract xcI (I.genMain mc).2 idI (I.genUser ucI).1)
        (I.genUser ucI).2 .initiator) t s ∧ I.isDone s = true) ∧
    (∃ t s, Trace I.run (I.newSession nR ssid (I.genMain mc).1 (I.extract xcR (I.genMain mc).2 idR (I.genUser ucR).1)
        (I.genUser ucR).2 .responder) t s ∧ I.isDone s = true) := by
  obtain ⟨tr, sI, sR, k, hc, d1, d2, _⟩ := h
  obtain ⟨⟨ta, ha⟩, ⟨tp, hp⟩⟩ := traces_of_converse _ _ _ _ _ _ _ hc
  exact ⟨⟨ta, sI, ha, d1⟩, ⟨tp, sR, hp, d2⟩⟩

end Verif.Latke
