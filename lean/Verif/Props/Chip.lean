import Verif.Latke.Chip
import Verif.Latke.Pake.KcSpake2Lemmas
import Verif.Props.Pake
import Mathlib.Tactic.Module
import Mathlib.Tactic.Ring

/-! # C42–C44: CHIP, generic in the PAKE, and with KC-SPAKE2 as in the crate's test -/

namespace Verif.Props
open Verif Verif.Latke

/-- The driver loop of the crate's own CHIP test (chip.rs:223-234): the users alternate until a call has nothing to send. One coin per
call, used up exactly. Returns the messages and the final states (`active` first). -/
def chipLoop {R : Group} {K : Pake} : List (ChipCoins R K) → Chip R K → Chip R K → Bytes →
    Option (List Bytes × Chip R K × Chip R K)
  | [], _, _, _ => none
  | c :: cs, a, p, inc =>
    match a.run c inc with
    | .ok a' (some m) => match chipLoop cs p a' m with
      | some (tr, p', a'') => some (m :: tr, a'', p')
      | none => none
    | .ok a' none => if cs.isEmpty then some ([], a', p) else none
    | .err _ _ => none
    | .panic => none

private theorem chipLoop_cons {R : Group} {K : Pake} {c : ChipCoins R K} {cs : List (ChipCoins R K)} {a p a' a'' p' : Chip R K}
    {inc m : Bytes} {tr : List Bytes} (hr : a.run c inc = .ok a' (some m)) (h : chipLoop cs p a' m = some (tr, p', a'')) :
    chipLoop (c :: cs) a p inc = some (m :: tr, a'', p') := by
  simp [chipLoop, hr, h]

private theorem run_late_ok {R : Group} {K : Pake} {A : Chip R K} {c : ChipCoins R K} {inc : Bytes} {a a' : K.State} {o : Option Bytes}
    (hn : 4 ≤ A.nextStep) (hp : A.pakeState = some a) (hr : K.run a c.pake inc = .ok a' o) :
    A.run c inc = .ok { A with pakeState := some a', nextStep := A.nextStep + 2 } o := by
  obtain ⟨n, h4⟩ : ∃ n, A.nextStep = n + 4 := ⟨A.nextStep - 4, by omega⟩
  simp [Chip.run, h4, hp, hr]

/-- Once both users run the PAKE, the CHIP loop is the PAKE conversation. -/
private theorem loop_late {R : Group} {K : Pake} (cs : List (ChipCoins R K)) :
    ∀ (A B : Chip R K) (a p : K.State) (inc : Bytes) (tr : List Bytes) (a' p' : K.State),
      4 ≤ A.nextStep → 4 ≤ B.nextStep → A.pakeState = some a → B.pakeState = some p →
      converse K.run K.isDone (cs.map (·.pake)) a p inc = some (tr, a', p') →
      ∃ A' B', chipLoop cs A B inc = some (tr, A', B') ∧ A'.pakeState = some a' ∧ B'.pakeState = some p' := by
  induction cs with
  | nil => intro A B a p inc tr a' p' _ _ _ _ h; simp [converse] at h
  | cons c cs ih =>
    intro A B a p inc tr a' p' hA hB ha hp h
    simp only [List.map_cons, converse] at h
    split at h
    · simp at h
    · split at h
      · next a1 m hr =>
        split at h
        · simp at h
        · split at h
          · next tr' p1 a2 hc =>
            simp only [Option.some.injEq, Prod.mk.injEq] at h
            obtain ⟨rfl, rfl, rfl⟩ := h
            obtain ⟨B', A', hl, hb', ha'⟩ := ih B { A with pakeState := some a1, nextStep := A.nextStep + 2 } p a1 m tr' _ _
              hB (by simp; omega) hp rfl hc
            exact ⟨A', B', chipLoop_cons (run_late_ok hA ha hr) hl, ha', hb'⟩
          · simp at h
      · next a1 hr =>
        split at h
        · next hd =>
          simp only [Option.some.injEq, Prod.mk.injEq] at h
          obtain ⟨rfl, rfl, rfl⟩ := h
          have hcs : cs = [] := by
            simp only [Bool.and_eq_true, List.isEmpty_iff, List.map_eq_nil_iff] at hd
            exact hd.2
          subst hcs
          refine ⟨{ A with pakeState := some a1, nextStep := A.nextStep + 2 }, B, ?_, rfl, hp⟩
          simp only [chipLoop, run_late_ok hA ha hr, List.isEmpty_nil, if_true]
        · simp at h
      · simp at h
      · simp at h

/-- The password scalar, the hash of an identity and its `X`, and the long-term secret of a CHIP user, as in the CHIP paper. -/
def chipY (R : Group) (pw : Bytes) : R.Scalar := R.hashToScalar ([0x01] ++ pw)
def chipH (R : Group) (id : Id) (X : R.Pt) : R.Scalar := R.hashToScalar ([0x02] ++ id.1 ++ (R.compress X).1)
def chipXhat (R : Group) (x : R.Scalar) (pw : Bytes) (id : Id) : R.Scalar := x + chipH R id (x • R.base) * chipY R pw

/-- First-phase message of a user with secret `x` and ephemeral `r`. -/
def chipMsg (R : Group) (x r : R.Scalar) : Bytes := (R.compress (x • R.base)).1 ++ (R.compress (r • R.base)).1

section
variable (R : Group) (K : Pake)

private theorem length_chipMsg (x r : R.Scalar) : (chipMsg R x r).length = 64 := by
  simp [chipMsg, (R.compress _).2]

/-- Parsing an honest first-phase message. -/
private theorem step2_honest (hR : R.Correct) (s : Chip R K) (x r : R.Scalar) :
    Chip.ibkeStep2 s (chipMsg R x r) = some ({ s with trRecv := s.trRecv ++ [chipMsg R x r] },
      (R.compress (s.r • r • R.base)).1 ++
      (R.compress ((s.r + s.pwfile.xhat) • (r • R.base + x • R.base + chipH R s.otherId (x • R.base) • s.pwfile.Y))).1 ++
      Chip.zipTranscript s.role s.trSent (s.trRecv ++ [chipMsg R x r])) := by
  simp [Chip.ibkeStep2, chipMsg, splitAt?_append (R.compress _).2, (R.compress _).2, Group.point?_compress hR, chipH]

/-- The PAKE inputs of two CHIP users that exchanged their first-phase messages: `pwI`, `pwR` passwords, `xI`, `xR` the scalars drawn
when the password files were made for the ids `idI`, `idR`, `rI`, `rR` the ephemerals, and `peerOfI`, `peerOfR` the ids each names as its
peer. After the two first-phase calls, the initiator's next call starts the PAKE on `inI` and feeds it the empty message; the responder's
next call starts the PAKE on `inR`. (Common generalisation used by C42, C43 and C44.) -/
theorem C42_C43_chip_pake_inputs (hR : R.Correct) (pwI pwR : Bytes) (idI idR peerOfI peerOfR : Id) (ssid : Ssid)
    (xI xR zI zR : R.Scalar) (c0 c1 c2 c3 : ChipCoins R K) :
    let fI := Chip.genPwfile R xI pwI idI
    let fR := Chip.genPwfile R xR pwR idR
    let m1 := chipMsg R xI c0.r
    let m2 := chipMsg R xR c1.r
    let inI := (R.compress ((c0.r * c1.r) • R.base)).1 ++
      (R.compress (((c0.r + chipXhat R xI pwI idI) * (c1.r + xR + chipH R peerOfI (xR • R.base) * chipY R pwI)) • R.base)).1 ++ (m1 ++ m2)
    let inR := (R.compress ((c0.r * c1.r) • R.base)).1 ++
      (R.compress (((c1.r + chipXhat R xR pwR idR) * (c0.r + xI + chipH R peerOfR (xI • R.base) * chipY R pwR)) • R.base)).1 ++ (m1 ++ m2)
    ∃ sI1 sR1 sI2 sR2 : Chip R K,
      Chip.run (Chip.newSession (K := K) zI ssid fI .initiator peerOfI) c0 [] = .ok sI1 (some m1) ∧
      Chip.run (Chip.newSession (K := K) zR ssid fR .responder peerOfR) c1 m1 = .ok sR1 (some m2) ∧
      Chip.run sI1 c2 m2 = Chip.runPake sI2 (K.new c2.new ssid inI .initiator) c2.pake [] ∧
      (∀ inc, Chip.run sR1 c3 inc = Chip.runPake sR2 (K.new c3.new ssid inR .responder) c3.pake inc) ∧
      sI2.nextStep = 2 ∧ sR2.nextStep = 3 := by
  intro fI fR m1 m2 inI inR
  let sI0 : Chip R K := Chip.newSession (K := K) zI ssid fI .initiator peerOfI
  let sR0 : Chip R K := Chip.newSession (K := K) zR ssid fR .responder peerOfR
  let sI1 : Chip R K := { sI0 with r := c0.r, trSent := [m1], nextStep := 2 }
  let sR1 : Chip R K := { sR0 with r := c1.r, trRecv := [m1], trSent := [m2], nextStep := 3 }
  have e3 : Chip.run sI1 c2 m2 =
      Chip.runPake { sI1 with trRecv := [m2, m2] } (K.new c2.new ssid inI .initiator) c2.pake [] := by
    have h := step2_honest R K hR { sI1 with trRecv := [m2] } xR c1.r
    have hn : sI1.nextStep = 2 := rfl
    have hr : sI1.trRecv = [] := rfl
    simp only [Chip.run, hn, hr, List.nil_append]
    rw [show m2 = chipMsg R xR c1.r from rfl] at h ⊢
    rw [h]
    have hz : Chip.zipTranscript sI1.role sI1.trSent ([m2] ++ [m2]) = m1 ++ m2 := by
      simp [Chip.zipTranscript, sI1, sI0, Chip.newSession]
    have : (R.compress (sI1.r • c1.r • R.base)).1 ++
        (R.compress ((sI1.r + sI1.pwfile.xhat) •
          (c1.r • R.base + xR • R.base + chipH R sI1.otherId (xR • R.base) • sI1.pwfile.Y))).1 ++
        Chip.zipTranscript sI1.role sI1.trSent ([m2] ++ [m2]) = inI := by
      rw [hz]
      have hY : sI1.pwfile.Y = chipY R pwI • R.base := rfl
      have hx : sI1.pwfile.xhat = chipXhat R xI pwI idI := rfl
      have ho : sI1.otherId = peerOfI := rfl
      have hr1 : sI1.r = c0.r := rfl
      rw [hY, hx, ho, hr1]
      congr 4
      · module
      · module
    simp only at this ⊢
    rw [this]
    rfl
  have e4 : ∀ inc, Chip.run sR1 c3 inc =
      Chip.runPake { sR1 with trRecv := [m1, m1] } (K.new c3.new ssid inR .responder) c3.pake inc := by
    intro inc
    have h := step2_honest R K hR sR1 xI c0.r
    have hn : sR1.nextStep = 3 := rfl
    have hr : sR1.trRecv = [m1] := rfl
    simp only [Chip.run, hn, hr, List.getLast?_singleton]
    rw [show m1 = chipMsg R xI c0.r from rfl]
    rw [h]
    have hz : Chip.zipTranscript sR1.role sR1.trSent (sR1.trRecv ++ [m1]) = m1 ++ m2 := by
      simp [Chip.zipTranscript, sR1, sR0, Chip.newSession]
    have : (R.compress (sR1.r • c0.r • R.base)).1 ++
        (R.compress ((sR1.r + sR1.pwfile.xhat) •
          (c0.r • R.base + xI • R.base + chipH R sR1.otherId (xI • R.base) • sR1.pwfile.Y))).1 ++
        Chip.zipTranscript sR1.role sR1.trSent (sR1.trRecv ++ [m1]) = inR := by
      rw [hz]
      have hY : sR1.pwfile.Y = chipY R pwR • R.base := rfl
      have hx : sR1.pwfile.xhat = chipXhat R xR pwR idR := rfl
      have ho : sR1.otherId = peerOfR := rfl
      have hr1 : sR1.r = c1.r := rfl
      rw [hY, hx, ho, hr1]
      congr 4
      · module
      · module
    simp only at this ⊢
    rw [this]
    rfl
  exact ⟨sI1, sR1, _, _, rfl, rfl, e3, e4, rfl, rfl⟩

/-- C42, with an arbitrary predicate on the PAKE transcript carried along. -/
private theorem C42_chip_agreement' (hR : R.Correct) (pw : Bytes) (idI idR : Id) (ssid : Ssid) (xI xR zI zR : R.Scalar)
    (c0 c1 c2 c3 : ChipCoins R K) (rest : List (ChipCoins R K)) (good : List Bytes → Prop)
    (hpake : ∀ input, ∃ tr qI qR k, converse K.run K.isDone ((c2 :: c3 :: rest).map (·.pake))
      (K.new c2.new ssid input .initiator) (K.new c3.new ssid input .responder) [] = some (tr, qI, qR) ∧
      K.finalize qI = some k ∧ K.finalize qR = some k ∧ good tr) :
    ∃ tr sI sR k, chipLoop (c0 :: c1 :: c2 :: c3 :: rest)
        (Chip.newSession (K := K) zI ssid (Chip.genPwfile R xI pw idI) .initiator idR)
        (Chip.newSession (K := K) zR ssid (Chip.genPwfile R xR pw idR) .responder idI) [] =
          some (chipMsg R xI c0.r :: chipMsg R xR c1.r :: tr, sI, sR) ∧
      sI.finalize = some k ∧ sR.finalize = some k ∧ good tr := by
  obtain ⟨sI1, sR1, sI2, sR2, e1, e2, e3, e4, n1, n2⟩ :=
    C42_C43_chip_pake_inputs R K hR pw pw idI idR idR idI ssid xI xR zI zR c0 c1 c2 c3
  have hsame : ((c0.r + chipXhat R xI pw idI) * (c1.r + xR + chipH R idR (xR • R.base) * chipY R pw)) =
      ((c1.r + chipXhat R xR pw idR) * (c0.r + xI + chipH R idI (xI • R.base) * chipY R pw)) := by
    simp only [chipXhat]; ring
  rw [hsame] at e3
  generalize hin : (R.compress ((c0.r * c1.r) • R.base)).1 ++
      (R.compress (((c1.r + chipXhat R xR pw idR) * (c0.r + xI + chipH R idI (xI • R.base) * chipY R pw)) • R.base)).1 ++
      (chipMsg R xI c0.r ++ chipMsg R xR c1.r) = input at e3 e4
  obtain ⟨tr, qI, qR, k, hc, kI, kR, hg⟩ := hpake input
  simp only [List.map_cons, converse] at hc
  split at hc
  · simp at hc
  · split at hc
    · next q1 m hr1 =>
      split at hc
      · simp at hc
      · split at hc
        · next tr' p1 a2 hc2 =>
          simp only [Option.some.injEq, Prod.mk.injEq] at hc
          obtain ⟨rfl, rfl, rfl⟩ := hc
          have f3 : Chip.run sI1 c2 (chipMsg R xR c1.r) = .ok { sI2 with pakeState := some q1, nextStep := sI2.nextStep + 2 } (some m) := by
            rw [e3]; simp only [Chip.runPake, hr1]
          split at hc2
          · simp at hc2
          · split at hc2
            · next q2 m2 hr2 =>
              split at hc2
              · simp at hc2
              · split at hc2
                · next tr2 p2 a3 hc3 =>
                  simp only [Option.some.injEq, Prod.mk.injEq] at hc2
                  obtain ⟨rfl, rfl, rfl⟩ := hc2
                  have f4 : Chip.run sR1 c3 m = .ok { sR2 with pakeState := some q2, nextStep := sR2.nextStep + 2 } (some m2) := by
                    rw [e4]; simp only [Chip.runPake, hr2]
                  obtain ⟨A', B', hl, ha, hb⟩ := loop_late rest { sI2 with pakeState := some q1, nextStep := sI2.nextStep + 2 }
                    { sR2 with pakeState := some q2, nextStep := sR2.nextStep + 2 } q1 q2 m2 _ _ _ (by simp [n1]) (by simp [n2]) rfl rfl hc3
                  refine ⟨_, A', B', k, chipLoop_cons e1 (chipLoop_cons e2 (chipLoop_cons f3 (chipLoop_cons f4 hl))), ?_, ?_, hg⟩
                  · simp [Chip.finalize, ha, kI]
                  · simp [Chip.finalize, hb, kR]
                · simp at hc2
            · next q2 hr2 =>
              split at hc2
              · next hd =>
                simp only [Option.some.injEq, Prod.mk.injEq] at hc2
                obtain ⟨rfl, rfl, rfl⟩ := hc2
                have hcs : rest = [] := by
                  simp only [Bool.and_eq_true, List.isEmpty_iff, List.map_eq_nil_iff] at hd
                  exact hd.2
                subst hcs
                have f4 : Chip.run sR1 c3 m = .ok { sR2 with pakeState := some q2, nextStep := sR2.nextStep + 2 } none := by
                  rw [e4]; simp only [Chip.runPake, hr2]
                refine ⟨_, { sI2 with pakeState := some q1, nextStep := sI2.nextStep + 2 },
                  { sR2 with pakeState := some q2, nextStep := sR2.nextStep + 2 }, k,
                  chipLoop_cons e1 (chipLoop_cons e2 (chipLoop_cons f3 (tr := []) ?_)), ?_, ?_, hg⟩
                · simp only [chipLoop, f4, List.isEmpty_nil, if_true]
                · simp [Chip.finalize, kI]
                · simp [Chip.finalize, kR]
              · simp at hc2
            · simp at hc2
            · simp at hc2
        · simp at hc
    · simp at hc
    · simp at hc
    · simp at hc
/-- C42: two CHIP users whose password files come from the same password, each naming the other's id: if the PAKE alone succeeds when
both sides start it on the same input (for the input the two users derive), then the CHIP loop succeeds with exactly the two
first-phase messages followed by the PAKE's messages, and both users finalize to what the PAKE's users finalize to. -/
theorem C42_chip_agreement (hR : R.Correct) (pw : Bytes) (idI idR : Id) (ssid : Ssid) (xI xR zI zR : R.Scalar)
    (c0 c1 c2 c3 : ChipCoins R K) (rest : List (ChipCoins R K))
    (hpake : ∀ input, ∃ tr qI qR k, converse K.run K.isDone ((c2 :: c3 :: rest).map (·.pake))
      (K.new c2.new ssid input .initiator) (K.new c3.new ssid input .responder) [] = some (tr, qI, qR) ∧
      K.finalize qI = some k ∧ K.finalize qR = some k) :
    ∃ tr sI sR k, chipLoop (c0 :: c1 :: c2 :: c3 :: rest)
        (Chip.newSession (K := K) zI ssid (Chip.genPwfile R xI pw idI) .initiator idR)
        (Chip.newSession (K := K) zR ssid (Chip.genPwfile R xR pw idR) .responder idI) [] =
          some (chipMsg R xI c0.r :: chipMsg R xR c1.r :: tr, sI, sR) ∧
      sI.finalize = some k ∧ sR.finalize = some k := by
  obtain ⟨tr, sI, sR, k, h, h1, h2, _⟩ := C42_chip_agreement' R K hR pw idI idR ssid xI xR zI zR c0 c1 c2 c3 rest (fun _ => True)
    (fun input => by
      obtain ⟨tr, qI, qR, k, h, h1, h2⟩ := hpake input
      exact ⟨tr, qI, qR, k, h, h1, h2, trivial⟩)
  exact ⟨tr, sI, sR, k, h, h1, h2⟩

/-- C42 with KC-SPAKE2 as the PAKE (the crate's own test `chip_correctness`), for every password, ids, ssid and coins: no hypothesis
about the PAKE is left. -/
theorem C42_chip_kcspake2 (hR : R.Correct) (P : SymPrims) (S : Spake2) (hS : S.Correct) (pw : Bytes) (idI idR : Id) (ssid : Ssid)
    (xI xR zI zR : R.Scalar) (c0 c1 c2 c3 c4 c5 : ChipCoins R (kcSpake2Pake P S)) :
    ∃ m3 m4 m5 sI sR k, chipLoop [c0, c1, c2, c3, c4, c5]
        (Chip.newSession (K := kcSpake2Pake P S) zI ssid (Chip.genPwfile R xI pw idI) .initiator idR)
        (Chip.newSession (K := kcSpake2Pake P S) zR ssid (Chip.genPwfile R xR pw idR) .responder idI) [] =
          some ([chipMsg R xI c0.r, chipMsg R xR c1.r, m3, m4, m5], sI, sR) ∧
      sI.finalize = some k ∧ sR.finalize = some k := by
  have hlen : ∀ input, ∃ m1 m2 m3 qI qR k, converse (kcSpake2Pake P S).run (kcSpake2Pake P S).isDone ([c2, c3, c4, c5].map (·.pake))
      ((kcSpake2Pake P S).new c2.new ssid input .initiator) ((kcSpake2Pake P S).new c3.new ssid input .responder) [] =
        some ([m1, m2, m3], qI, qR) ∧
      (kcSpake2Pake P S).finalize qI = some k ∧ (kcSpake2Pake P S).finalize qR = some k := by
    intro input
    obtain ⟨m1, m2, m3, qI, qR, k, h, _, _, h1, h2⟩ := C23_kcspake2_agreement P S hS ssid input c2.new c3.new
    exact ⟨m1, m2, m3, qI, qR, k, h, h1, h2⟩
  obtain ⟨tr, sI, sR, k, h, h1, h2, h3⟩ := C42_chip_agreement' R (kcSpake2Pake P S) hR pw idI idR ssid xI xR zI zR c0 c1 c2 c3 [c4, c5]
    (fun tr => tr.length = 3) (fun input => by
      obtain ⟨m1, m2, m3, qI, qR, k, h, h1, h2⟩ := hlen input
      exact ⟨_, qI, qR, k, h, h1, h2, rfl⟩)
  match tr, h3 with
  | [m1, m2, m3], _ => exact ⟨m1, m2, m3, sI, sR, k, h, h1, h2⟩

example : toyGroup.Correct ∧ toySpake2.Correct := ⟨toyGroup_correct, toySpake2_correct⟩

/-! ## C43: the transcript, for arbitrary peers -/

/-- Successful part of `ibke_step_2`: two 32-byte encodings followed by the zipped transcript. -/
private theorem ibkeStep2_some {s s' : Chip R K} {m out : Bytes} (h : Chip.ibkeStep2 s m = some (s', out)) :
    s' = { s with trRecv := s.trRecv ++ [m] } ∧
    ∃ ab : Bytes, ab.length = 64 ∧ out = ab ++ Chip.zipTranscript s.role s.trSent (s.trRecv ++ [m]) := by
  unfold Chip.ibkeStep2 at h
  simp only [Option.bind_eq_bind, Option.bind_eq_some_iff] at h
  obtain ⟨⟨x, r⟩, _, h⟩ := h
  simp only at h
  split at h
  · simp at h
  · simp only [Option.bind_eq_some_iff, Option.pure_def, Option.some.injEq, Prod.mk.injEq] at h
    obtain ⟨X, _, Y, _, h1, h2⟩ := h
    exact ⟨h1.symm, _, by simp [(R.compress _).2], h2.symm⟩

/-- The messages received by an initiator in failed second calls, each recorded twice. -/
private def doubled (errs : List Event) : List Bytes := errs.flatMap fun e => [e.incoming, e.incoming]

private theorem init_inv (z : R.Scalar) (ssid : Ssid) (f : ChipPwfile R) (peer : Id) (t : List Event) (s : Chip R K)
    (h : Trace Chip.run (Chip.newSession (K := K) z ssid f .initiator peer) t s) :
    (t = [] ∧ s = Chip.newSession (K := K) z ssid f .initiator peer) ∨
    (∃ x m1 errs, t = ⟨x, some (some m1)⟩ :: errs ∧ (∀ e ∈ errs, e.outcome = none) ∧ s.trSent = [m1] ∧
      s.trRecv = doubled errs ∧ s.nextStep = 2 ∧ s.role = .initiator ∧ s.ssid = ssid) ∨
    (2 ≤ okCount t ∧ 4 ≤ s.nextStep) := by
  induction h with
  | nil => exact Or.inl ⟨rfl, rfl⟩
  | @ok t s c m s' o _ hr ih =>
    rcases ih with ⟨rfl, rfl⟩ | ⟨x, m1, errs, rfl, he, h1, h2, h3, h4, h5⟩ | ⟨h1, h2⟩
    · simp only [Chip.run, Chip.newSession, if_true, Chip.ibkeStep1, Step.ok.injEq] at hr
      obtain ⟨rfl, rfl⟩ := hr
      exact Or.inr (Or.inl ⟨m, _, [], rfl, by simp, rfl, rfl, rfl, rfl, rfl⟩)
    · simp only [Chip.run, h3] at hr
      split at hr
      · simp at hr
      · next s2 out h2' =>
        have hs2 := (ibkeStep2_some R K h2').1
        unfold Chip.runPake at hr
        split at hr
        · simp at hr
        · simp at hr
        · simp only [Step.ok.injEq] at hr
          obtain ⟨rfl, rfl⟩ := hr
          refine Or.inr (Or.inr ⟨by simp [okCount], ?_⟩)
          simp [hs2, h3]
    · obtain ⟨n, h4⟩ : ∃ n, s.nextStep = n + 4 := ⟨s.nextStep - 4, by omega⟩
      simp only [Chip.run, h4] at hr
      split at hr
      · simp at hr
      · split at hr
        · simp at hr
        · simp at hr
        · simp only [Step.ok.injEq] at hr
          obtain ⟨rfl, rfl⟩ := hr
          refine Or.inr (Or.inr ⟨?_, by simp⟩)
          simp only [okCount, List.countP_append] at h1 ⊢
          omega
  | @err t s c m s' e _ hr ih =>
    rcases ih with ⟨rfl, rfl⟩ | ⟨x, m1, errs, rfl, he, h1, h2, h3, h4, h5⟩ | ⟨h1, h2⟩
    · simp [Chip.run, Chip.newSession, Chip.ibkeStep1] at hr
    · simp only [Chip.run, h3] at hr
      split at hr
      · simp at hr
      · next s2 out h2' =>
        have hs2 := (ibkeStep2_some R K h2').1
        unfold Chip.runPake at hr
        split at hr
        · simp at hr
        · simp only [Step.err.injEq] at hr
          obtain ⟨rfl, -⟩ := hr
          refine Or.inr (Or.inl ⟨x, m1, errs ++ [⟨m, none⟩], by simp, ?_, ?_⟩)
          · intro e' he'
            simp only [List.mem_append, List.mem_singleton] at he'
            rcases he' with he' | rfl
            · exact he _ he'
            · rfl
          · simp [hs2, h1, h2, h3, h4, h5, doubled]
        · simp at hr
    · obtain ⟨n, h4⟩ : ∃ n, s.nextStep = n + 4 := ⟨s.nextStep - 4, by omega⟩
      simp only [Chip.run, h4] at hr
      split at hr
      · simp at hr
      · split at hr
        · simp at hr
        · simp only [Step.err.injEq] at hr
          obtain ⟨rfl, -⟩ := hr
          refine Or.inr (Or.inr ⟨?_, by simp [h4]⟩)
          simp only [okCount, List.countP_append] at h1 ⊢
          omega
        · simp at hr

/-- C43 (initiator): in any history in which the first call (sending `m1`) is the only successful one so far, every further call either
panics or starts the PAKE on 64 bytes of group elements followed by `m1 ‖ m2`, where `m2` is the *first* message received after
`m1` was sent (so the message of the call itself unless an earlier PAKE start failed) — although received messages are recorded twice. -/
theorem C43_chip_transcript_initiator (z : R.Scalar) (ssid : Ssid) (f : ChipPwfile R) (peer : Id) (x m1 : Bytes) (errs : List Event)
    (s : Chip R K) (h : Trace Chip.run (Chip.newSession (K := K) z ssid f .initiator peer) (⟨x, some (some m1)⟩ :: errs) s)
    (hone : okCount errs = 0) (c : ChipCoins R K) (inc : Bytes) :
    Chip.run s c inc = .panic ∨
    ∃ (s' : Chip R K) (ab : Bytes), ab.length = 64 ∧
      Chip.run s c inc = Chip.runPake s'
        (K.new c.new ssid (ab ++ (m1 ++ ((errs ++ [(⟨inc, none⟩ : Event)]).head?.map (fun e => e.incoming)).getD [])) .initiator) c.pake [] := by
  rcases init_inv R K z ssid f peer _ s h with ⟨h0, _⟩ | ⟨x', m1', errs', heq, he, h1, h2, h3, h4, h5⟩ | ⟨h1, _⟩
  · simp at h0
  · simp only [List.cons.injEq, Event.mk.injEq, Option.some.injEq] at heq
    obtain ⟨⟨rfl, rfl⟩, rfl⟩ := heq
    obtain ⟨f', ssid', oid, role, r, ps, ts, tr, ns⟩ := s
    simp only at h1 h2 h3 h4 h5
    subst h3 h4 h5
    simp only [Chip.run]
    cases hs : Chip.ibkeStep2 (⟨f', ssid', oid, .initiator, r, ps, ts, tr ++ [inc], 2⟩ : Chip R K) inc with
    | none => left; rfl
    | some r =>
      obtain ⟨s2, out⟩ := r
      right
      obtain ⟨hs2, ab, hab, hout⟩ := ibkeStep2_some R K hs
      refine ⟨s2, ab, hab, ?_⟩
      have hz : Chip.zipTranscript .initiator ts (tr ++ [inc] ++ [inc]) =
          m1 ++ ((errs ++ [(⟨inc, none⟩ : Event)]).head?.map (fun e => e.incoming)).getD [] := by
        rw [h1, h2]
        cases errs with
        | nil => simp [Chip.zipTranscript, doubled]
        | cons e errs => simp [Chip.zipTranscript, doubled]
      have hss : s2.ssid = ssid' := by rw [hs2]
      simp only at hout
      rw [hout, hz]
      simp only [hss]
  · simp only [okCount, List.countP_cons] at h1 hone
    simp [hone] at h1

private theorem resp_inv (z : R.Scalar) (ssid : Ssid) (f : ChipPwfile R) (peer : Id) (t : List Event) (s : Chip R K)
    (h : Trace Chip.run (Chip.newSession (K := K) z ssid f .responder peer) t s) :
    (t = [] ∧ s = Chip.newSession (K := K) z ssid f .responder peer) ∨
    (∃ m1 m2 errs n, t = ⟨m1, some (some m2)⟩ :: errs ∧ (∀ e ∈ errs, e.outcome = none) ∧ s.trSent = [m2] ∧
      s.trRecv = List.replicate (n + 1) m1 ∧ s.nextStep = 3 ∧ s.role = .responder ∧ s.ssid = ssid) ∨
    (2 ≤ okCount t ∧ 4 ≤ s.nextStep) := by
  induction h with
  | nil => exact Or.inl ⟨rfl, rfl⟩
  | @ok t s c m s' o _ hr ih =>
    rcases ih with ⟨rfl, rfl⟩ | ⟨m1, m2, errs, n, rfl, he, h1, h2, h3, h4, h5⟩ | ⟨h1, h2⟩
    · simp only [Chip.run, Chip.newSession, reduceCtorEq, if_false, Chip.ibkeStep1, Step.ok.injEq] at hr
      obtain ⟨rfl, rfl⟩ := hr
      exact Or.inr (Or.inl ⟨m, _, [], 0, rfl, by simp, rfl, rfl, rfl, rfl, rfl⟩)
    · simp only [Chip.run, h3, h2, List.getLast?_replicate] at hr
      split at hr
      · simp at hr
      · split at hr
        · simp at hr
        · next s2 out h2' =>
          have hs2 := (ibkeStep2_some R K h2').1
          unfold Chip.runPake at hr
          split at hr
          · simp at hr
          · simp at hr
          · simp only [Step.ok.injEq] at hr
            obtain ⟨rfl, rfl⟩ := hr
            refine Or.inr (Or.inr ⟨by simp [okCount], ?_⟩)
            simp [hs2, h3]
    · obtain ⟨n, h4⟩ : ∃ n, s.nextStep = n + 4 := ⟨s.nextStep - 4, by omega⟩
      simp only [Chip.run, h4] at hr
      split at hr
      · simp at hr
      · split at hr
        · simp at hr
        · simp at hr
        · simp only [Step.ok.injEq] at hr
          obtain ⟨rfl, rfl⟩ := hr
          refine Or.inr (Or.inr ⟨?_, by simp⟩)
          simp only [okCount, List.countP_append] at h1 ⊢
          omega
  | @err t s c m s' e _ hr ih =>
    rcases ih with ⟨rfl, rfl⟩ | ⟨m1, m2, errs, n, rfl, he, h1, h2, h3, h4, h5⟩ | ⟨h1, h2⟩
    · simp [Chip.run, Chip.newSession, Chip.ibkeStep1] at hr
    · simp only [Chip.run, h3, h2, List.getLast?_replicate] at hr
      split at hr
      · simp at hr
      · next lm hlm =>
        simp only [Nat.add_eq_zero_iff, Nat.one_ne_zero, and_false, if_false, Option.some.injEq] at hlm
        subst hlm
        split at hr
        · simp at hr
        · next s2 out h2' =>
          have hs2 := (ibkeStep2_some R K h2').1
          unfold Chip.runPake at hr
          split at hr
          · simp at hr
          · simp only [Step.err.injEq] at hr
            obtain ⟨rfl, -⟩ := hr
            refine Or.inr (Or.inl ⟨m1, m2, errs ++ [⟨m, none⟩], n + 1, by simp, ?_, ?_⟩)
            · intro e' he'
              simp only [List.mem_append, List.mem_singleton] at he'
              rcases he' with he' | rfl
              · exact he _ he'
              · rfl
            · simp [hs2, h1, h2, h3, h4, h5, List.replicate_succ']
          · simp at hr
    · obtain ⟨n, h4⟩ : ∃ n, s.nextStep = n + 4 := ⟨s.nextStep - 4, by omega⟩
      simp only [Chip.run, h4] at hr
      split at hr
      · simp at hr
      · split at hr
        · simp at hr
        · simp only [Step.err.injEq] at hr
          obtain ⟨rfl, -⟩ := hr
          refine Or.inr (Or.inr ⟨?_, by simp [h4]⟩)
          simp only [okCount, List.countP_append] at h1 ⊢
          omega
        · simp at hr

/-- C43 (responder): in any history in which the first call (answering `m1` with `m2`) is the only successful one so far, every further call
either panics or starts the PAKE on 64 bytes of group elements followed by exactly `m1 ‖ m2`, whatever failed calls lie between. -/
theorem C43_chip_transcript_responder (z : R.Scalar) (ssid : Ssid) (f : ChipPwfile R) (peer : Id) (m1 m2 : Bytes) (errs : List Event)
    (s : Chip R K) (h : Trace Chip.run (Chip.newSession (K := K) z ssid f .responder peer) (⟨m1, some (some m2)⟩ :: errs) s)
    (hone : okCount errs = 0) (c : ChipCoins R K) (inc : Bytes) :
    Chip.run s c inc = .panic ∨
    ∃ (s' : Chip R K) (ab : Bytes), ab.length = 64 ∧
      Chip.run s c inc = Chip.runPake s' (K.new c.new ssid (ab ++ (m1 ++ m2)) .responder) c.pake inc := by
  rcases resp_inv R K z ssid f peer _ s h with ⟨h0, _⟩ | ⟨m1', m2', errs', n, heq, he, h1, h2, h3, h4, h5⟩ | ⟨h1, _⟩
  · simp at h0
  · simp only [List.cons.injEq, Event.mk.injEq, Option.some.injEq] at heq
    obtain ⟨⟨rfl, rfl⟩, rfl⟩ := heq
    have hl : s.trRecv.getLast? = some m1 := by simp [h2, List.getLast?_replicate]
    simp only [Chip.run, h3, hl]
    cases hs : Chip.ibkeStep2 s m1 with
    | none => left; rfl
    | some r =>
      obtain ⟨s2, out⟩ := r
      right
      obtain ⟨hs2, ab, hab, hout⟩ := ibkeStep2_some R K hs
      refine ⟨s2, ab, hab, ?_⟩
      have hz : Chip.zipTranscript s.role s.trSent (s.trRecv ++ [m1]) = m1 ++ m2 := by
        rw [h4, h1, h2]
        simp [Chip.zipTranscript, List.replicate_succ]
      have hss : s2.ssid = ssid := by rw [hs2]; exact h5
      rw [hout, hz]
      simp only [hss]
  · simp only [okCount, List.countP_cons] at h1 hone
    simp [hone] at h1

/-! ## C44: what a wrong peer id (or a wrong password) changes -/

/-- C44: two honest CHIP users with the same password exchange their first-phase messages, the responder naming the initiator correctly, the
initiator naming `peer`. They start the PAKE on the same input exactly when
`(rI + x̂I) · (h(peer, XR) − h(idR, XR)) · y` annihilates the generator; in particular naming the right peer gives equal inputs. -/
theorem C44_chip_binds_peer (hR : R.Correct) (pw : Bytes) (idI idR peer : Id) (ssid : Ssid) (xI xR zI zR : R.Scalar)
    (c0 c1 c2 c3 : ChipCoins R K) :
    ∃ (sI1 sR1 sI2 sR2 : Chip R K) (inI inR : Bytes),
      Chip.run (Chip.newSession (K := K) zI ssid (Chip.genPwfile R xI pw idI) .initiator peer) c0 [] = .ok sI1 (some (chipMsg R xI c0.r)) ∧
      Chip.run (Chip.newSession (K := K) zR ssid (Chip.genPwfile R xR pw idR) .responder idI) c1 (chipMsg R xI c0.r) =
        .ok sR1 (some (chipMsg R xR c1.r)) ∧
      Chip.run sI1 c2 (chipMsg R xR c1.r) = Chip.runPake sI2 (K.new c2.new ssid inI .initiator) c2.pake [] ∧
      (∀ inc, Chip.run sR1 c3 inc = Chip.runPake sR2 (K.new c3.new ssid inR .responder) c3.pake inc) ∧
      (inI = inR ↔ ((c0.r + chipXhat R xI pw idI) * ((chipH R peer (xR • R.base) - chipH R idR (xR • R.base)) * chipY R pw)) • R.base
        = 0) := by
  obtain ⟨sI1, sR1, sI2, sR2, e1, e2, e3, e4, _, _⟩ :=
    C42_C43_chip_pake_inputs R K hR pw pw idI idR peer idI ssid xI xR zI zR c0 c1 c2 c3
  refine ⟨sI1, sR1, sI2, sR2, _, _, e1, e2, e3, e4, ?_⟩
  have hinj : ∀ p q : R.Pt, (R.compress p).1 = (R.compress q).1 ↔ p = q := by
    intro p q
    constructor
    · intro h
      have := hR p
      rw [Subtype.ext h, hR q, Option.some.injEq] at this
      exact this.symm
    · rintro rfl; rfl
  rw [List.append_cancel_right_eq, List.append_cancel_left_eq, hinj, ← sub_eq_zero, ← sub_smul]
  apply Eq.congr_left
  congr 1
  simp only [chipXhat]
  ring

/-- C44, for different passwords: users who name each other correctly but hold password files made from `pwI` and `pwR` start the PAKE on the
same input exactly when the stated combination of the password scalars annihilates the generator. -/
theorem C44_chip_binds_password (hR : R.Correct) (pwI pwR : Bytes) (idI idR : Id) (ssid : Ssid) (xI xR zI zR : R.Scalar)
    (c0 c1 c2 c3 : ChipCoins R K) :
    ∃ (sI1 sR1 sI2 sR2 : Chip R K) (inI inR : Bytes),
      Chip.run (Chip.newSession (K := K) zI ssid (Chip.genPwfile R xI pwI idI) .initiator idR) c0 [] = .ok sI1 (some (chipMsg R xI c0.r)) ∧
      Chip.run (Chip.newSession (K := K) zR ssid (Chip.genPwfile R xR pwR idR) .responder idI) c1 (chipMsg R xI c0.r) =
        .ok sR1 (some (chipMsg R xR c1.r)) ∧
      Chip.run sI1 c2 (chipMsg R xR c1.r) = Chip.runPake sI2 (K.new c2.new ssid inI .initiator) c2.pake [] ∧
      (∀ inc, Chip.run sR1 c3 inc = Chip.runPake sR2 (K.new c3.new ssid inR .responder) c3.pake inc) ∧
      (inI = inR ↔ ((chipY R pwI - chipY R pwR) *
        ((c1.r + xR) * chipH R idI (xI • R.base) + (c0.r + xI) * chipH R idR (xR • R.base)
          + (chipY R pwI + chipY R pwR) * (chipH R idI (xI • R.base) * chipH R idR (xR • R.base)))) • R.base = 0) := by
  obtain ⟨sI1, sR1, sI2, sR2, e1, e2, e3, e4, _, _⟩ :=
    C42_C43_chip_pake_inputs R K hR pwI pwR idI idR idR idI ssid xI xR zI zR c0 c1 c2 c3
  refine ⟨sI1, sR1, sI2, sR2, _, _, e1, e2, e3, e4, ?_⟩
  have hinj : ∀ p q : R.Pt, (R.compress p).1 = (R.compress q).1 ↔ p = q := by
    intro p q
    constructor
    · intro h
      have := hR p
      rw [Subtype.ext h, hR q, Option.some.injEq] at this
      exact this.symm
    · rintro rfl; rfl
  rw [List.append_cancel_right_eq, List.append_cancel_left_eq, hinj, ← sub_eq_zero, ← sub_smul]
  apply Eq.congr_left
  congr 1
  simp only [chipXhat]
  ring

end
end Verif.Props
