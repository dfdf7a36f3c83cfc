import Verif.Latke.Eue

/-!
# latke/src/latke.rs
-/

namespace Verif.Latke

/-- `struct LatkePwfile<I>` (latke.rs:24-28). -/
structure LatkePwfile (I : Ibke) where
  mpk : I.MainPubkey
  cert : I.Certificate
  usk : I.UserPrivkey

/-- `enum PeerModel` (latke.rs:41-44). -/
inductive PeerModel where
  | preSpecified (id : Id)
  | postSpecified

/-- `struct Latke<I, P>` (latke.rs:13-22).  `transcript` is everything fed to `running_transcript_hash` so far
(`input_ikm` calls concatenate). -/
structure Latke (I : Ibke) (K : Pake) where
  ssid : Ssid
  pwfile : LatkePwfile I
  role : Role
  pakeState : K.State
  ibkeState : Option (Eue I)
  transcript : Bytes

/-- Coins of one `Latke::run` call: the PAKE's own draws, those of a possible `Eue::new_session`, those of a possible `Eue::run`. -/
structure LatkeCoins (I : Ibke) (K : Pake) where
  pake : K.RunCoins
  sess : I.SessCoins
  eue : EueCoins I

/-- `Latke::gen_pwfile` (latke.rs:47-63). `seedRng` is `ChaCha12Rng::from_seed` followed by the draws of `gen_main_keypair`. -/
def Latke.genPwfile (I : Ibke) (P : SymPrims) (seedRng : ByteArr 32 → I.MainCoins) (uc : I.UserCoins)
    (ec : I.ExtractCoins) (password : Bytes) (id : Id) : LatkePwfile I :=
  let seed := P.hash256 password
  let (mpk, msk) := I.genMain (seedRng seed)
  let (upk, usk) := I.genUser uc
  let cert := I.extract ec msk id upk
  { mpk := mpk, cert := cert, usk := usk }

/-- The PAKE input chosen by `Latke::new_session` (latke.rs:74-85). -/
def Latke.pakeInput {I : Ibke} (pwfile : LatkePwfile I) (role : Role) (peer : PeerModel) : Bytes :=
  match peer with
  | .postSpecified => I.mpkBytes pwfile.mpk
  | .preSpecified id =>
    let ids := if role = .initiator then (I.certId pwfile.cert, id) else (id, I.certId pwfile.cert)
    I.mpkBytes pwfile.mpk ++ ids.1.1 ++ ids.2.1

/-- `Latke::new_session` (latke.rs:65-95). -/
def Latke.newSession {I : Ibke} {K : Pake} (c : K.NewCoins) (ssid : Ssid) (pwfile : LatkePwfile I) (role : Role)
    (peer : PeerModel) : Latke I K :=
  { ssid := ssid
    pwfile := pwfile
    role := role
    pakeState := K.new c ssid (Latke.pakeInput pwfile role peer) role
    ibkeState := none
    transcript := [] }

/-- Lines 103-108 of `Latke::run`: run the PAKE unless it is done; `.unwrap()` makes an `Err` a panic (`none`).
Returns the new PAKE state, `just_finished_pake` and `out`. -/
def Latke.pakePhase {I : Ibke} {K : Pake} (s : Latke I K) (c : LatkeCoins I K) (incoming : Bytes) :
    Option (K.State × Bool × Option Bytes) :=
  if !K.isDone s.pakeState then
    match K.run s.pakeState c.pake incoming with
    | .ok p out => some (p, K.isDone p, out)
    | .err _ _ => none
    | .panic => none
  else some (s.pakeState, false, none)

/-- Lines 115-126: the encrypted IBKE session, created on first use from the PAKE key (`finalize` may panic). -/
def Latke.getEue {I : Ibke} {K : Pake} (P : SymPrims) (s : Latke I K) (pake : K.State) (c : LatkeCoins I K) :
    Option (Eue I) :=
  match s.ibkeState with
  | some e => some e
  | none =>
    match K.finalize pake with
    | none => none
    | some eueKey =>
      some (Eue.newSession P c.sess s.ssid s.pwfile.mpk s.pwfile.cert s.pwfile.usk s.role eueKey)

/-- `Latke::run` (latke.rs:97-158). `none` = panic. -/
def Latke.run {I : Ibke} {K : Pake} (P : SymPrims) (s : Latke I K) (c : LatkeCoins I K) (incoming : Bytes) :
    Option (Latke I K × Option Bytes) :=
  match s.pakePhase c incoming with
  | none => none
  | some (pake, justFinished, pakeOut) =>
    -- lines 111-148
    let r : Option (Option (Eue I) × Option Bytes) :=
      match pakeOut with
      | some m => some (s.ibkeState, some m)
      | none =>
        match s.getEue P pake c with
        | none => none
        | some e =>
          if justFinished then
            if s.role = .initiator then
              match e.run P c.eue [] with
              | .ok e' out => some (some e', out)
              | .err _ _ => none
              | .panic => none
            else some (some e, none)
          else
            match e.run P c.eue incoming with
            | .ok e' out => some (some e', out)
            | .err _ _ => none
            | .panic => none
    match r with
    | none => none
    | some (ibke, out) =>
      -- lines 151-155
      let tr := if incoming.length > 0 then s.transcript ++ incoming else s.transcript
      let tr := match out with
        | some v => tr ++ v
        | none => tr
      some ({ s with pakeState := pake, ibkeState := ibke, transcript := tr }, out)

/-- `Latke::is_done` (latke.rs:160-166). -/
def Latke.isDone {I : Ibke} {K : Pake} (s : Latke I K) : Bool :=
  match s.ibkeState with
  | some e => e.isDone
  | none => false

/-- Lines 173-179: `KDF(transcript ‖ ibke key)` with salt `latke-tr-hash` and info `latke-final`. -/
def latkeFinalKey (P : SymPrims) (transcript : Bytes) (k : SessKey) : SessKey :=
  P.hkdfExpand (P.hkdfExtract (ascii "latke-tr-hash") (transcript ++ k.1)).1 (ascii "latke-final") 32

/-- `Latke::finalize` (latke.rs:168-182). `none` = panic. -/
def Latke.finalize {I : Ibke} {K : Pake} (P : SymPrims) (s : Latke I K) : Option (Id × SessKey) :=
  match s.ibkeState with
  | none => none
  | some e =>
    match e.finalize with
    | none => none
    | some (id, k) => some (id, latkeFinalKey P s.transcript k)

/-- The driver loop of the crate's own end-to-end test (latke.rs:234-251): the users alternate, a missing message is sent as
the empty string, and the loop stops when the user whose turn it is reports done.  One coin per call; the coins must be used up
exactly.  Returns what each call sent, and the final states (`active` first). -/
def Latke.drive {I : Ibke} {K : Pake} (P : SymPrims) :
    List (LatkeCoins I K) → Latke I K → Latke I K → Bytes →
      Option (List (Option Bytes) × Latke I K × Latke I K)
  | [], a, p, _ => if a.isDone then some ([], a, p) else none
  | c :: cs, a, p, inc =>
    if a.isDone then none else
    match a.run P c inc with
    | none => none
    | some (a', out) =>
      match Latke.drive P cs p a' (out.getD []) with
      | none => none
      | some (tr, p', a'') => some (out :: tr, a'', p')

end Verif.Latke
