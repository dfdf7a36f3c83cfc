import Verif.Latke.Traits

/-!
# latke/src/eue_transform.rs
-/

namespace Verif.Latke

/-- `struct Eue<I>` (eue_transform.rs:9-23). -/
structure Eue (I : Ibke) where
  msgKey : AuthEncKey
  chainKey : ByteArr 32
  sess : I.State
  nextStepIsFirst : Bool
  realMode : Bool

/-- Coins of one `Eue::run` call: those of the wrapped `run` and the nonce of `auth_encrypt`. -/
structure EueCoins (I : Ibke) where
  ibke : I.RunCoins
  nonce : ByteArr 12

/-- `Eue::ratchet_keys` (eue_transform.rs:27-31). -/
def Eue.ratchet {I : Ibke} (P : SymPrims) (e : Eue I) : Eue I :=
  { e with
    chainKey := P.hkdfExpand e.chainKey.1 (ascii "chain key") 32
    msgKey := P.hkdfExpand e.chainKey.1 (ascii "msg key") 64 }

/-- `Eue::new_session` (eue_transform.rs:33-64). -/
def Eue.newSession {I : Ibke} (P : SymPrims) (c : I.SessCoins) (ssid : Ssid) (mpk : I.MainPubkey)
    (cert : I.Certificate) (usk : I.UserPrivkey) (role : Role) (initialKey : ByteArr 32) : Eue I :=
  let sess := I.newSession c ssid mpk cert usk role
  { msgKey := P.hkdfExpand initialKey.1 (ascii "init msg key" ++ ssid.1) 64
    chainKey := P.hkdfExpand initialKey.1 (ascii "init chain key" ++ ssid.1) 32
    sess := sess
    nextStepIsFirst := decide (role = .initiator)
    realMode := true }

/-- `Eue::is_done` (eue_transform.rs:66-68). -/
def Eue.isDone {I : Ibke} (e : Eue I) : Bool := I.isDone e.sess

/-- Result of lines 76-89: the message to hand to the wrapped protocol. `none` = panic (in `auth_decrypt` or in
`assert!(pt.is_ok())`, line 78; that assertion makes lines 80-82 unreachable, they are modelled all the same). -/
def Eue.decryptIncoming {I : Ibke} (P : SymPrims) (e : Eue I) (incoming : Bytes) :
    Option (Eue I × Option Bytes) :=
  if incoming.length > 0 ∧ e.realMode then
    match authDecrypt P e.msgKey incoming with
    | .panic => none
    | pt =>
      -- line 78: assert!(pt.is_ok())
      if !pt.isOk then none else
      -- lines 80-85
      match pt with
      | .ok m => some (e, some m)
      | _ => some ({ e with realMode := false }, none)
  else some (e, some [])

/-- `Eue::run` (eue_transform.rs:70-120). -/
def Eue.run {I : Ibke} (P : SymPrims) (e : Eue I) (c : EueCoins I) (incoming : Bytes) :
    Step (Eue I) I.Err (Option Bytes) :=
  match e.decryptIncoming P incoming with
  | none => .panic
  | some (e, incomingMsg) =>
    -- lines 92-97
    let e := if !e.nextStepIsFirst then e.ratchet P else { e with nextStepIsFirst := false }
    -- lines 107-119, after the wrapped protocol produced `out`
    let finish (e : Eue I) (out : Option Bytes) : Step (Eue I) I.Err (Option Bytes) :=
      .ok (e.ratchet P)
        (out.map fun m => if m.length > 0 then authEncrypt P c.nonce e.msgKey m else [])
    -- lines 100-105
    if e.realMode then
      match incomingMsg with
      | none => .panic
      | some m =>
        match I.run e.sess c.ibke m with
        | .ok s out => finish { e with sess := s } out
        | .err s er => .err { e with sess := s } er
        | .panic => .panic
    else
      match I.runSim e.sess with
      | none => .panic
      | some (s, size) => finish { e with sess := s } (size.map fun n => List.replicate n 0)

/-- `Eue::finalize` (eue_transform.rs:122-124). -/
def Eue.finalize {I : Ibke} (e : Eue I) : Option (Id × SessKey) := I.finalize e.sess

end Verif.Latke
