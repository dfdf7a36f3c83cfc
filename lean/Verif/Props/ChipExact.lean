import Verif.Props.Chip

/-!
# C79: a CHIP session is its first-phase message followed by the PAKE it starts

For every PAKE, every role and every history of incoming messages (with failed calls anywhere): what the first phase sends, on which input the
PAKE is started, and that from then on the CHIP session behaves call by call like that PAKE session.
-/

namespace Verif.Props
open Verif Verif.Latke

/-- Two calls have the same observable outcome: both panic, both return the same `Err`, or both return the same `Ok`. -/
def SameOutcome {σ τ ε : Type} : Step σ ε (Option Bytes) → Step τ ε (Option Bytes) → Prop
  | .panic, .panic => True
  | .err _ e, .err _ e' => e = e'
  | .ok _ o, .ok _ o' => o = o'
  | _, _ => False

example : SameOutcome (σ := Nat) (τ := Bool) (ε := Nat) (.ok 1 (some [2])) (.ok true (some [2])) ∧
    ¬ SameOutcome (σ := Nat) (τ := Bool) (ε := Nat) (.ok 1 (some [2])) (.ok true none) ∧
    ¬ SameOutcome (σ := Nat) (τ := Bool) (ε := Nat) (.err 1 3) (.err true 4) ∧
    ¬ SameOutcome (σ := Nat) (τ := Bool) (ε := Nat) (.err 1 3) .panic := by simp [SameOutcome]

/-- Specification: the PAKE input of a CHIP user holding the password file `f`, with ephemeral `r`, for the peer id `peer`, having received the
encoding `a` of `X` and an encoding of `R'`; `tr` is the first-phase transcript. -/
def chipInput (R : Group) (f : ChipPwfile R) (r : R.Scalar) (peer : Id) (a : ByteArr 32) (X R' : R.Pt) (tr : Bytes) : Bytes :=
  (R.compress (r • R')).1 ++
    (R.compress ((r + f.xhat) • (R' + X + R.hashToScalar ([0x02] ++ peer.1 ++ a.1) • f.Y))).1 ++ tr

/-- `m` is the encoding `a` of `X` followed by an encoding of `R'`. -/
def IsChipMsg (R : Group) (m : Bytes) (a : ByteArr 32) (X R' : R.Pt) : Prop :=
  ∃ b : ByteArr 32, m = a.1 ++ b.1 ∧ R.decompress a = some X ∧ R.decompress b = some R'

/-- Honest first-phase messages are of this form. -/
example (x r : toyGroup.Scalar) : IsChipMsg toyGroup (chipMsg toyGroup x r) (toyGroup.compress (x • toyGroup.base))
    (x • toyGroup.base) (r • toyGroup.base) :=
  ⟨toyGroup.compress (r • toyGroup.base), rfl, toyGroup_correct _, toyGroup_correct _⟩

section
variable (R : Group) (K : Pake)

/-- C79: the first call of a CHIP session, whatever it is given, is `Ok` and sends the password file's `X` and a fresh ephemeral. -/
theorem C79_chip_first (z : R.Scalar) (ssid : Ssid) (f : ChipPwfile R) (role : Role) (peer : Id) (c : ChipCoins R K) (inc : Bytes) :
    ∃ s1, Chip.run (Chip.newSession (K := K) z ssid f role peer) c inc
      = .ok s1 (some ((R.compress f.X).1 ++ (R.compress (c.r • R.base)).1)) := by
  cases role
  · exact ⟨_, rfl⟩
  · exact ⟨_, rfl⟩

/-- State between the first call and the start of the PAKE. -/
private structure Mid (ssid : Ssid) (f : ChipPwfile R) (role : Role) (peer : Id) (r : R.Scalar) (x m : Bytes) (errs : List Event)
    (s : Chip R K) : Prop where
  pw : s.pwfile = f
  sid : s.ssid = ssid
  oid : s.otherId = peer
  rl : s.role = role
  rr : s.r = r
  ps : s.pakeState = none
  sent : s.trSent = [m]
  recvI : role = .initiator → s.trRecv = errs.flatMap fun e => [e.incoming, e.incoming]
  recvR : role = .responder → ∃ n, s.trRecv = List.replicate (n + 1) x
  step : s.nextStep = if role = .initiator then 2 else 3

/-- First message an initiator received after its first call. -/
private def firstIn (errs : List Event) (inc : Bytes) : Bytes := (errs.map (·.incoming) ++ [inc]).head (by simp)

private theorem step2_none {s : Chip R K} {m : Bytes} (h : ¬ ∃ a X R', IsChipMsg R m a X R') : Chip.ibkeStep2 s m = none := by
  rw [← Option.not_isSome_iff_eq_none]
  intro hs
  obtain ⟨⟨s', out⟩, hs⟩ := Option.isSome_iff_exists.1 hs
  unfold Chip.ibkeStep2 at hs
  simp only [Option.bind_eq_bind, Option.bind_eq_some_iff] at hs
  obtain ⟨⟨x, r⟩, h0, hs⟩ := hs
  simp only at hs
  split at hs
  · simp at hs
  · next hl =>
    simp only [Option.bind_eq_some_iff] at hs
    obtain ⟨X, hX, Y, hY, _⟩ := hs
    unfold Group.point? at hX hY
    simp only [Option.bind_eq_bind, Option.bind_eq_some_iff] at hX hY
    obtain ⟨a, ha, hX⟩ := hX
    obtain ⟨b, hb, hY⟩ := hY
    unfold splitAt? at h0
    unfold toArr? at ha hb
    split at h0 <;> simp at h0
    split at ha <;> simp at ha
    split at hb <;> simp at hb
    refine h ⟨a, X, Y, b, ?_, hX, hY⟩
    rw [← ha, ← hb]
    show m = x ++ r
    rw [← h0.1, ← h0.2, List.take_append_drop]

private theorem step2_some {s : Chip R K} {m : Bytes} {a : ByteArr 32} {X R' : R.Pt} (h : IsChipMsg R m a X R') :
    Chip.ibkeStep2 s m = some ({ s with trRecv := s.trRecv ++ [m] },
      chipInput R s.pwfile s.r s.otherId a X R' (Chip.zipTranscript s.role s.trSent (s.trRecv ++ [m]))) := by
  obtain ⟨b, rfl, hX, hR⟩ := h
  have h1 : splitAt? 32 (a.1 ++ b.1) = some (a.1, b.1) := by
    unfold splitAt?
    rw [if_pos (by rw [List.length_append, a.2]; omega), List.take_left' a.2, List.drop_left' a.2]
  unfold Chip.ibkeStep2
  simp only [h1, Option.bind_eq_bind, Option.bind_some, b.2, ne_eq, not_true_eq_false, if_false, Group.point?, toArr?_val, hX, hR, Option.pure_def]
  rfl

private theorem mid_first {z : R.Scalar} {ssid : Ssid} {f : ChipPwfile R} {role : Role} {peer : Id} {c0 : ChipCoins R K} {x m : Bytes}
    {s1 : Chip R K} (h0 : Chip.run (Chip.newSession (K := K) z ssid f role peer) c0 x = .ok s1 (some m)) :
    m = (R.compress f.X).1 ++ (R.compress (c0.r • R.base)).1 ∧ Mid R K ssid f role peer c0.r x m [] s1 := by
  cases role
  · simp only [Chip.run, Chip.newSession, if_true, Chip.ibkeStep1, Step.ok.injEq, Option.some.injEq] at h0
    obtain ⟨rfl, rfl⟩ := h0
    exact ⟨rfl, ⟨rfl, rfl, rfl, rfl, rfl, rfl, rfl, fun _ => rfl, fun h => by simp at h, rfl⟩⟩
  · simp only [Chip.run, Chip.newSession, Chip.ibkeStep1] at h0
    simp only [reduceCtorEq, if_false, Step.ok.injEq, Option.some.injEq] at h0
    obtain ⟨rfl, rfl⟩ := h0
    exact ⟨rfl, ⟨rfl, rfl, rfl, rfl, rfl, rfl, rfl, fun h => by simp at h, fun _ => ⟨0, rfl⟩, rfl⟩⟩

/-- One call in the middle state. -/
private theorem mid_run {ssid : Ssid} {f : ChipPwfile R} {role : Role} {peer : Id} {r : R.Scalar} {x m : Bytes} {errs : List Event} {s : Chip R K}
    (h : Mid R K ssid f role peer r x m errs s) (c : ChipCoins R K) (inc : Bytes) :
    ((¬ ∃ a X R', IsChipMsg R (if role = .initiator then inc else x) a X R') → s.run c inc = .panic) ∧
    ∀ a X R', IsChipMsg R (if role = .initiator then inc else x) a X R' → ∃ s2, Mid R K ssid f role peer r x m (errs ++ [⟨inc, none⟩]) s2 ∧
      s.run c inc = Chip.runPake s2 (K.new c.new ssid
        (chipInput R f r peer a X R' (if role = .initiator then m ++ firstIn errs inc else x ++ m)) role) c.pake
        (if role = .initiator then [] else inc) := by
  obtain ⟨h1, h2, h3, h4, h5, h6, h7, h8, h9, h10⟩ := h
  cases role
  · simp only [if_true] at h10 ⊢
    constructor
    · intro hn
      simp only [Chip.run, h10, step2_none R K hn]
    · intro a X R' hm
      refine ⟨{ s with trRecv := s.trRecv ++ [inc] ++ [inc] }, ⟨h1, h2, h3, h4, h5, h6, h7, fun _ => ?_, fun h => by simp at h, h10⟩, ?_⟩
      · simp [h8 rfl]
      · simp only [Chip.run, h10, step2_some R K hm]
        have hz : Chip.zipTranscript s.role s.trSent (s.trRecv ++ [inc] ++ [inc]) = m ++ firstIn errs inc := by
          rw [h4, h7, h8 rfl]
          cases errs with
          | nil => simp [Chip.zipTranscript, firstIn]
          | cons e es => simp [Chip.zipTranscript, firstIn]
        rw [hz, h1, h2, h3, h5]
  · simp only [reduceCtorEq, if_false] at h10 ⊢
    obtain ⟨n, hn9⟩ := h9 rfl
    have hl : s.trRecv.getLast? = some x := by rw [hn9]; simp [List.getLast?_replicate]
    constructor
    · intro hn
      simp only [Chip.run, h10, hl, step2_none R K hn]
    · intro a X R' hm
      refine ⟨{ s with trRecv := s.trRecv ++ [x] }, ⟨h1, h2, h3, h4, h5, h6, h7, fun h => by simp at h, fun _ => ⟨n + 1, ?_⟩, h10⟩, ?_⟩
      · show s.trRecv ++ [x] = _
        rw [hn9, ← List.replicate_succ']
      · simp only [Chip.run, h10, hl, step2_some R K hm]
        have hz : Chip.zipTranscript s.role s.trSent (s.trRecv ++ [x]) = x ++ m := by
          rw [h4, h7, hn9]
          simp [Chip.zipTranscript, List.replicate_succ]
        rw [hz, h1, h2, h3, h5]

private theorem runPake_same (s : Chip R K) (p : K.State) (c : K.RunCoins) (inc : Bytes) :
    SameOutcome (Chip.runPake s p c inc) (K.run p c inc) := by
  unfold Chip.runPake
  cases K.run p c inc <;> simp [SameOutcome]

private theorem mid_trace {ssid : Ssid} {f : ChipPwfile R} {role : Role} {peer : Id} {r : R.Scalar} {x m : Bytes} {s1 : Chip R K}
    (h1 : Mid R K ssid f role peer r x m [] s1) {errs : List Event} {s : Chip R K} (h : Trace Chip.run s1 errs s) (hone : okCount errs = 0) :
    Mid R K ssid f role peer r x m errs s := by
  induction h with
  | nil => exact h1
  | ok _ _ _ => simp [okCount] at hone
  | @err t s c i s' e _ hr ih =>
    have ih := ih (by simpa [okCount] using hone)
    obtain ⟨hn, hs⟩ := mid_run R K ih c i
    by_cases hm : ∃ a X R', IsChipMsg R (if role = .initiator then i else x) a X R'
    · obtain ⟨a, X, R', hm⟩ := hm
      obtain ⟨s2, h2, hrun⟩ := hs a X R' hm
      rw [hrun] at hr
      unfold Chip.runPake at hr
      split at hr
      · simp at hr
      · simp only [Step.err.injEq] at hr
        rw [← hr.1]; exact h2
      · simp at hr
    · rw [hn hm] at hr; simp at hr

/-- C79: the start of the PAKE.  A session made its first call (receiving `x`, drawing `c0.r`, sending `m`) and then any number of failed calls
`errs`.  The next call, given `inc`, parses the peer's first-phase message: `inc` for an initiator, the earlier `x` for a responder.  If that
is not two encoded points the call panics.  Otherwise it does what the first call of a PAKE session does, started on `chipInput` with the
stated transcript, and fed nothing (initiator) or `inc` (responder). -/
theorem C79_chip_start (z : R.Scalar) (ssid : Ssid) (f : ChipPwfile R) (role : Role) (peer : Id) (c0 : ChipCoins R K) (x m : Bytes)
    (s1 : Chip R K) (h0 : Chip.run (Chip.newSession (K := K) z ssid f role peer) c0 x = .ok s1 (some m))
    (errs : List Event) (s : Chip R K) (h : Trace Chip.run s1 errs s) (hone : okCount errs = 0) (c : ChipCoins R K) (inc : Bytes) :
    ((¬ ∃ a X R', IsChipMsg R (if role = .initiator then inc else x) a X R') → s.run c inc = .panic) ∧
    ∀ a X R', IsChipMsg R (if role = .initiator then inc else x) a X R' →
      SameOutcome (s.run c inc) (K.run (K.new c.new ssid (chipInput R f c0.r peer a X R'
        (if role = .initiator then m ++ (errs.map (·.incoming) ++ [inc]).head (by simp) else x ++ m)) role) c.pake
        (if role = .initiator then [] else inc)) := by
  have hm := mid_trace R K (mid_first R K h0).2 h hone
  refine ⟨(mid_run R K hm c inc).1, fun a X R' hp => ?_⟩
  obtain ⟨s2, _, hr⟩ := (mid_run R K hm c inc).2 a X R' hp
  rw [hr]
  exact runPake_same R K _ _ _ _

/-- C79: until the PAKE has been started, `finalize` panics. -/
theorem C79_chip_no_early_key (z : R.Scalar) (ssid : Ssid) (f : ChipPwfile R) (role : Role) (peer : Id) (t : List Event) (s : Chip R K)
    (h : Trace Chip.run (Chip.newSession (K := K) z ssid f role peer) t s) (hone : okCount t ≤ 1) : s.finalize = none := by
  have key : t = [] ∧ s = Chip.newSession (K := K) z ssid f role peer ∨ 2 ≤ okCount t ∨
      1 ≤ okCount t ∧ ∃ r x m errs, Mid R K ssid f role peer r x m errs s := by
    clear hone
    induction h with
    | nil => exact Or.inl ⟨rfl, rfl⟩
    | @ok t s c i s' o _ hr ih =>
      have hc : okCount (t ++ [⟨i, some o⟩]) = okCount t + 1 := by simp [okCount]
      rw [hc]
      rcases ih with ⟨rfl, rfl⟩ | ih | ⟨ih, _⟩
      · obtain ⟨s1, hs1⟩ := C79_chip_first R K z ssid f role peer c i
        rw [hs1] at hr
        simp only [Step.ok.injEq] at hr
        obtain ⟨rfl, rfl⟩ := hr
        exact Or.inr (Or.inr ⟨by simp, _, _, _, _, (mid_first R K hs1).2⟩)
      · exact Or.inr (Or.inl (by omega))
      · exact Or.inr (Or.inl (by omega))
    | @err t s c i s' e _ hr ih =>
      have hc : okCount (t ++ [⟨i, none⟩]) = okCount t := by simp [okCount]
      rw [hc]
      rcases ih with ⟨rfl, rfl⟩ | ih | ⟨ih, r, x, m, errs, hm⟩
      · obtain ⟨s1, hs1⟩ := C79_chip_first R K z ssid f role peer c i
        rw [hs1] at hr; simp at hr
      · exact Or.inr (Or.inl ih)
      · refine Or.inr (Or.inr ⟨ih, r, x, m, errs ++ [⟨i, none⟩], ?_⟩)
        obtain ⟨hn, hs⟩ := mid_run R K hm c i
        by_cases hp : ∃ a X R', IsChipMsg R (if role = .initiator then i else x) a X R'
        · obtain ⟨a, X, R', hp⟩ := hp
          obtain ⟨s2, h2, hrun⟩ := hs a X R' hp
          rw [hrun] at hr
          unfold Chip.runPake at hr
          split at hr
          · simp at hr
          · simp only [Step.err.injEq] at hr
            rw [← hr.1]; exact h2
          · simp at hr
        · rw [hn hp] at hr; simp at hr
  rcases key with ⟨-, rfl⟩ | h2 | ⟨-, r, x, m, errs, hm⟩
  · rfl
  · omega
  · unfold Chip.finalize
    rw [hm.ps]

/-- C79: after the start.  If that next call was `Ok` (output `o`), then for every later history `t` the CHIP session and the PAKE session
started on `chipInput` have seen the same calls with the same outcomes, answer every further call alike, and finalize alike. -/
theorem C79_chip_is_pake (z : R.Scalar) (ssid : Ssid) (f : ChipPwfile R) (role : Role) (peer : Id) (c0 : ChipCoins R K) (x m : Bytes)
    (s1 : Chip R K) (h0 : Chip.run (Chip.newSession (K := K) z ssid f role peer) c0 x = .ok s1 (some m))
    (errs : List Event) (s : Chip R K) (h : Trace Chip.run s1 errs s) (hone : okCount errs = 0) (c : ChipCoins R K) (inc : Bytes)
    (s2 : Chip R K) (o : Option Bytes) (hr : s.run c inc = .ok s2 o) (t : List Event) (s' : Chip R K) (ht : Trace Chip.run s2 t s') :
    ∃ a X R' p, IsChipMsg R (if role = .initiator then inc else x) a X R' ∧
      Trace K.run (K.new c.new ssid (chipInput R f c0.r peer a X R'
          (if role = .initiator then m ++ (errs.map (·.incoming) ++ [inc]).head (by simp) else x ++ m)) role)
        (⟨if role = .initiator then [] else inc, some o⟩ :: t) p ∧
      s'.finalize = K.finalize p ∧
      ∀ c inc, SameOutcome (s'.run c inc) (K.run p c.pake inc) := by
  have hm := mid_trace R K (mid_first R K h0).2 h hone
  obtain ⟨hn, hs⟩ := mid_run R K hm c inc
  by_cases hp : ∃ a X R', IsChipMsg R (if role = .initiator then inc else x) a X R'
  swap
  · rw [hn hp] at hr; simp at hr
  obtain ⟨a, X, R', hp⟩ := hp
  obtain ⟨s3, h3, hrun⟩ := hs a X R' hp
  refine ⟨a, X, R', ?_⟩
  have hinv : ∃ p, Trace K.run (K.new c.new ssid (chipInput R f c0.r peer a X R'
          (if role = .initiator then m ++ firstIn errs inc else x ++ m)) role)
        (⟨if role = .initiator then [] else inc, some o⟩ :: t) p ∧ s'.pakeState = some p ∧ 4 ≤ s'.nextStep := by
    induction ht with
    | nil =>
      rw [hrun] at hr
      unfold Chip.runPake at hr
      split at hr
      · simp at hr
      · simp at hr
      · next p out hk =>
        simp only [Step.ok.injEq] at hr
        obtain ⟨rfl, rfl⟩ := hr
        refine ⟨p, Trace.ok Trace.nil hk, rfl, ?_⟩
        show 4 ≤ s3.nextStep + 2
        rw [h3.step]; split <;> omega
    | @ok t q c' i q' o' _ hr' ih =>
      obtain ⟨p, htr, hps, hst⟩ := ih
      obtain ⟨n, hn4⟩ : ∃ n, q.nextStep = n + 4 := ⟨q.nextStep - 4, by omega⟩
      simp only [Chip.run, hn4, hps] at hr'
      split at hr'
      · simp at hr'
      · simp at hr'
      · next p' out hk =>
        simp only [Step.ok.injEq] at hr'
        obtain ⟨rfl, rfl⟩ := hr'
        exact ⟨p', Trace.ok htr hk, rfl, by simp⟩
    | @err t q c' i q' e _ hr' ih =>
      obtain ⟨p, htr, hps, hst⟩ := ih
      obtain ⟨n, hn4⟩ : ∃ n, q.nextStep = n + 4 := ⟨q.nextStep - 4, by omega⟩
      simp only [Chip.run, hn4, hps] at hr'
      split at hr'
      · simp at hr'
      · next p' e' hk =>
        simp only [Step.err.injEq] at hr'
        obtain ⟨rfl, rfl⟩ := hr'
        exact ⟨p', Trace.err htr hk, rfl, by simpa using hst⟩
      · simp at hr'
  obtain ⟨p, htr, hps, hst⟩ := hinv
  refine ⟨p, hp, htr, ?_, fun c' i => ?_⟩
  · unfold Chip.finalize; rw [hps]
  · obtain ⟨n, hn4⟩ : ∃ n, s'.nextStep = n + 4 := ⟨s'.nextStep - 4, by omega⟩
    simp only [Chip.run, hn4, hps]
    cases K.run p c'.pake i <;> simp [SameOutcome]

end

/-- Histories as in `C79_chip_is_pake` exist, with a failed call after the start: a responder with KC-SPAKE2 makes its first call, starts the
PAKE, and then rejects a wrong confirmation. -/
example :
    let c : ChipCoins toyGroup (kcSpake2Pake toyPrims toySpake2) := ⟨(5 : Fin 251), (3 : UInt8), ()⟩
    (match Chip.run (Chip.newSession (K := kcSpake2Pake toyPrims toySpake2) (1 : Fin 251) (ByteArr.rep 32 1)
        (Chip.genPwfile toyGroup (4 : Fin 251) [1, 2] (ByteArr.rep 32 2)) .responder (ByteArr.rep 32 3)) c
        (chipMsg toyGroup (6 : Fin 251) (7 : Fin 251)) with
      | .ok s1 (some _) => match s1.run c [9] with
        | .ok s2 (some _) => match s2.run c [0] with
          | .err _ _ => true
          | _ => false
        | _ => false
      | _ => false) = true := by decide +kernel

end Verif.Props
