import Verif.Props.LatkeExact

/-! # C101: what a LATKE session shows before it has a key

While the PAKE runs, a LATKE session sends exactly what the PAKE alone would send on the same input, coins and incoming messages: nothing of the
certificate, the identity or the user's secret key is on the wire before the PAKE has produced the key that encrypts the rest.  With a post-specified peer the
PAKE input is the main public key alone, so all users of a password look the same. -/

namespace Verif.Props
open Verif Verif.Latke

/-! ## Specification -/

/-- What happens when the PAKE alone handles a list of calls. -/
inductive PakeAlone (σ : Type) where
  /-- Every call returned a message. -/
  | sends (outs : List Bytes) (s : σ)
  /-- A call returned an error or panicked, after calls that returned messages. -/
  | fails
  /-- A call returned no message or was made after the PAKE was done, after calls that returned messages. -/
  | ends

/-- The PAKE on calls with given coins and incoming messages. -/
def pakeAlone (K : Pake) : K.State → List (K.RunCoins × Bytes) → PakeAlone K.State
  | s, [] => .sends [] s
  | s, (c, inc) :: l =>
    if K.isDone s then .ends else
    match K.run s c inc with
    | .ok s' (some o) => match pakeAlone K s' l with
      | .sends outs s'' => .sends (o :: outs) s''
      | .fails => .fails
      | .ends => .ends
    | .ok _ none => .ends
    | _ => .fails

/-- A LATKE session on calls with given coins and incoming messages: what it returned and its state, or `none` if a call panicked. -/
def latkeCalls {I : Ibke} {K : Pake} (P : SymPrims) : Latke I K → List (LatkeCoins I K × Bytes) → Option (List (Option Bytes) × Latke I K)
  | s, [] => some ([], s)
  | s, (c, inc) :: l => do
    let (s, o) ← s.run P c inc
    let (os, s) ← latkeCalls P s l
    return (o :: os, s)

section
variable {I : Ibke} {K : Pake} {P : SymPrims}

private theorem latke_step (s : Latke I K) (hi : s.ibkeState = none) (hd : K.isDone s.pakeState = false) (c : LatkeCoins I K) (inc : Bytes) :
    (∀ q o, K.run s.pakeState c.pake inc = .ok q (some o) →
      ∃ s', s.run P c inc = some (s', some o) ∧ s'.pakeState = q ∧ s'.ibkeState = none) ∧
    ((∀ q o, K.run s.pakeState c.pake inc ≠ .ok q o) → s.run P c inc = none) := by
  constructor
  · intro q o h
    unfold Latke.run
    rw [show s.pakePhase c inc = some (q, K.isDone q, some o) by simp [Latke.pakePhase, hd, h]]
    exact ⟨_, rfl, rfl, hi⟩
  · intro h
    unfold Latke.run
    rw [show s.pakePhase c inc = none by
      unfold Latke.pakePhase
      rw [hd]
      cases hr : K.run s.pakeState c.pake inc with
      | ok q o => exact absurd hr (h q o)
      | err _ _ => rfl
      | panic => rfl]

private theorem latke_alone (calls : List (LatkeCoins I K × Bytes)) : ∀ s : Latke I K, s.ibkeState = none →
    match pakeAlone K s.pakeState (calls.map fun x => (x.1.pake, x.2)) with
    | .sends outs q => ∃ s', latkeCalls P s calls = some (outs.map some, s') ∧ s'.pakeState = q ∧ s'.ibkeState = none
    | .fails => latkeCalls P s calls = none
    | .ends => True := by
  induction calls with
  | nil => intro s hi; exact ⟨s, rfl, rfl, hi⟩
  | cons x l ih =>
    intro s hi
    obtain ⟨c, inc⟩ := x
    rw [List.map_cons, pakeAlone]
    cases hd : K.isDone s.pakeState with
    | true => rw [if_pos rfl]; trivial
    | false =>
      rw [if_neg (by simp)]
      obtain ⟨a, b⟩ := latke_step (P := P) s hi hd c inc
      cases hr : K.run s.pakeState c.pake inc with
      | ok q o =>
        cases o with
        | none => trivial
        | some o =>
          obtain ⟨s', h1, h2, h3⟩ := a q o hr
          have := ih s' h3
          rw [h2] at this
          dsimp only
          cases hp : pakeAlone K q (l.map fun x => (x.1.pake, x.2)) with
          | sends outs q' =>
            rw [hp] at this
            obtain ⟨s'', g1, g2, g3⟩ := this
            refine ⟨s'', ?_, g2, g3⟩
            rw [latkeCalls, h1, Option.bind_eq_bind, Option.bind_some]
            dsimp only
            rw [g1]
            rfl
          | fails =>
            rw [hp] at this
            dsimp only at this ⊢
            rw [latkeCalls, h1, Option.bind_eq_bind, Option.bind_some]
            dsimp only
            rw [this]
            rfl
          | ends => trivial
      | err _ _ =>
        dsimp only
        rw [latkeCalls, b (fun q o h => by rw [hr] at h; cases h)]
        rfl
      | panic =>
        dsimp only
        rw [latkeCalls, b (fun q o h => by rw [hr] at h; cases h)]
        rfl

end

/-- C101: as long as the PAKE alone, on the session's PAKE input and PAKE coins and the same incoming messages, answers with messages, the LATKE session sends
exactly these messages, is not done and has no output; if the PAKE fails, the session panics. -/
theorem C101_pake_phase_is_pake (I : Ibke) (K : Pake) (P : SymPrims) (n : K.NewCoins) (ssid : Ssid) (pw : LatkePwfile I) (role : Role) (peer : PeerModel)
    (calls : List (LatkeCoins I K × Bytes)) :
    (∀ outs q, pakeAlone K (K.new n ssid (Latke.pakeInput pw role peer) role) (calls.map fun x => (x.1.pake, x.2)) = .sends outs q →
      ∃ s, latkeCalls P (Latke.newSession n ssid pw role peer : Latke I K) calls = some (outs.map some, s) ∧ s.isDone = false ∧ s.finalize P = none) ∧
    (pakeAlone K (K.new n ssid (Latke.pakeInput pw role peer) role) (calls.map fun x => (x.1.pake, x.2)) = .fails →
      latkeCalls P (Latke.newSession n ssid pw role peer : Latke I K) calls = none) := by
  have h := latke_alone (P := P) calls (Latke.newSession n ssid pw role peer : Latke I K) rfl
  constructor
  · intro outs q hp
    rw [show (Latke.newSession n ssid pw role peer : Latke I K).pakeState = K.new n ssid (Latke.pakeInput pw role peer) role from rfl, hp] at h
    obtain ⟨s, h1, h2, h3⟩ := h
    refine ⟨s, h1, ?_, ?_⟩
    · unfold Latke.isDone; rw [h3]
    · unfold Latke.finalize; rw [h3]
  · intro hp
    rw [show (Latke.newSession n ssid pw role peer : Latke I K).pakeState = K.new n ssid (Latke.pakeInput pw role peer) role from rfl, hp] at h
    exact h

/-- C101: two users with post-specified peers whose password files have the same main public key (the same password) cannot be told apart before the PAKE is
over: whatever their certificates, identities and secret keys, and whatever their coins outside the PAKE, on the same PAKE coins and the same incoming
messages they send the same messages, or both panic. -/
theorem C101_users_look_alike (I : Ibke) (K : Pake) (P : SymPrims) (n : K.NewCoins) (ssid : Ssid) (pw pw' : LatkePwfile I) (role : Role)
    (hm : I.mpkBytes pw.mpk = I.mpkBytes pw'.mpk) (calls calls' : List (LatkeCoins I K × Bytes))
    (hc : (calls.map fun x => (x.1.pake, x.2)) = calls'.map fun x => (x.1.pake, x.2))
    (hp : pakeAlone K (K.new n ssid (I.mpkBytes pw.mpk) role) (calls.map fun x => (x.1.pake, x.2)) ≠ .ends) :
    (latkeCalls P (Latke.newSession n ssid pw role .postSpecified : Latke I K) calls).map Prod.fst =
      (latkeCalls P (Latke.newSession n ssid pw' role .postSpecified : Latke I K) calls').map Prod.fst := by
  obtain ⟨a, b⟩ := C101_pake_phase_is_pake I K P n ssid pw role .postSpecified calls
  obtain ⟨a', b'⟩ := C101_pake_phase_is_pake I K P n ssid pw' role .postSpecified calls'
  rw [show Latke.pakeInput pw role .postSpecified = I.mpkBytes pw.mpk from rfl] at a b
  rw [show Latke.pakeInput pw' role .postSpecified = I.mpkBytes pw'.mpk from rfl, ← hm, ← hc] at a' b'
  cases h : pakeAlone K (K.new n ssid (I.mpkBytes pw.mpk) role) (calls.map fun x => (x.1.pake, x.2)) with
  | sends outs q =>
    obtain ⟨s, h1, -⟩ := a outs q h
    obtain ⟨s', h1', -⟩ := a' outs q h
    rw [h1, h1']
    rfl
  | fails => rw [b h, b' h]
  | ends => exact absurd h hp

/-- With a pre-specified peer, only the two identities in the PAKE input matter: certificates and secret keys do not. -/
theorem C101_only_identities_matter (I : Ibke) (K : Pake) (P : SymPrims) (n : K.NewCoins) (ssid : Ssid) (pw pw' : LatkePwfile I) (role : Role) (peer : Id)
    (hm : I.mpkBytes pw.mpk = I.mpkBytes pw'.mpk) (hi : I.certId pw.cert = I.certId pw'.cert) (calls calls' : List (LatkeCoins I K × Bytes))
    (hc : (calls.map fun x => (x.1.pake, x.2)) = calls'.map fun x => (x.1.pake, x.2))
    (hp : pakeAlone K (K.new n ssid (I.mpkBytes pw.mpk ++ (if role = .initiator then (I.certId pw.cert).1 ++ peer.1 else peer.1 ++ (I.certId pw.cert).1)) role)
      (calls.map fun x => (x.1.pake, x.2)) ≠ .ends) :
    (latkeCalls P (Latke.newSession n ssid pw role (.preSpecified peer) : Latke I K) calls).map Prod.fst =
      (latkeCalls P (Latke.newSession n ssid pw' role (.preSpecified peer) : Latke I K) calls').map Prod.fst := by
  obtain ⟨a, b⟩ := C101_pake_phase_is_pake I K P n ssid pw role (.preSpecified peer) calls
  obtain ⟨a', b'⟩ := C101_pake_phase_is_pake I K P n ssid pw' role (.preSpecified peer) calls'
  have e : Latke.pakeInput pw role (.preSpecified peer) =
      I.mpkBytes pw.mpk ++ (if role = .initiator then (I.certId pw.cert).1 ++ peer.1 else peer.1 ++ (I.certId pw.cert).1) := by
    unfold Latke.pakeInput
    cases role <;> simp
  have e' : Latke.pakeInput pw' role (.preSpecified peer) = Latke.pakeInput pw role (.preSpecified peer) := by
    unfold Latke.pakeInput
    rw [hm, hi]
  rw [e', ← hc] at a' b'
  rw [e] at a b a' b'
  cases h : pakeAlone K (K.new n ssid (I.mpkBytes pw.mpk ++ (if role = .initiator then (I.certId pw.cert).1 ++ peer.1 else peer.1 ++ (I.certId pw.cert).1)) role)
    (calls.map fun x => (x.1.pake, x.2)) with
  | sends outs q =>
    obtain ⟨s, h1, -⟩ := a outs q h
    obtain ⟨s', h1', -⟩ := a' outs q h
    rw [h1, h1']
    rfl
  | fails => rw [b h, b' h]
  | ends => exact absurd h hp

/-- A PAKE of the crate for the examples. -/
private abbrev exK : Pake := kcSpake2Pake toyPrims toySpake2

private def exCall (inc : Bytes) : LatkeCoins toyIbke exK × Bytes := (⟨(), (), ⟨(5 : UInt8), toyNonce⟩⟩, inc)

/-- Non-vacuity: KC-SPAKE2 alone sends a message when it is started and another on the responder's first message, and the PAKE fails on a wrong one. -/
example :
    (match pakeAlone exK (exK.new (3 : UInt8) toyId1 [] .initiator) [((), [])] with
      | .sends [_] _ => true | _ => false) = true ∧
    (match pakeAlone exK (exK.new (3 : UInt8) toyId1 [] .initiator) [((), []), ((), [1])] with
      | .fails => true | _ => false) = true := by decide +kernel

private def exEnds {σ : Type} : PakeAlone σ → Bool
  | .ends => true
  | _ => false

/-- Two users with different identities, the same first message. -/
example : (latkeCalls toyPrims (Latke.newSession (3 : UInt8) toyId1 ⟨(), toyId1, ()⟩ .initiator .postSpecified : Latke toyIbke exK) [exCall []]).map Prod.fst =
    (latkeCalls toyPrims (Latke.newSession (3 : UInt8) toyId1 ⟨(), toyId2, ()⟩ .initiator .postSpecified : Latke toyIbke exK) [exCall []]).map Prod.fst := by
  refine C101_users_look_alike toyIbke exK toyPrims (3 : UInt8) toyId1 ⟨(), toyId1, ()⟩ ⟨(), toyId2, ()⟩ .initiator rfl [exCall []] [exCall []] rfl ?_
  intro h
  have g : exEnds (pakeAlone exK (exK.new (3 : UInt8) toyId1 (toyIbke.mpkBytes ()) .initiator) [((), [])]) = false := by decide +kernel
  exact Bool.noConfusion (g.symm.trans (congrArg exEnds h))

end Verif.Props
