import Verif.Latke.Asym
import Verif.Latke.Group

/-!
# latke/src/ibke/id_hmqv_c.rs
-/

namespace Verif.Latke

/-- `struct IdHmqvCCert` (id_hmqv_c.rs:23-27). -/
structure HmqvCert (R : Group) where
  id : Id
  upk : R.Pt
  sig : ByteArr 64

namespace HmqvCert
variable {R : Group}

/-- `to_bytes` (id_hmqv_c.rs:30-37). -/
def toBytes (c : HmqvCert R) : Bytes := c.id.1 ++ (R.compress c.upk).1 ++ c.sig.1

/-- `from_bytes` (id_hmqv_c.rs:39-53); `none` = panic. -/
def fromBytes (b : Bytes) : Option (HmqvCert R) := do
  let (id, rest) ← splitAt? 32 b
  let (upk, rest) ← splitAt? 32 rest
  let id ← toArr? 32 id
  let upk ← R.point? upk
  let sig ← toArr? 64 rest
  return { id := id, upk := upk, sig := sig }

/-- `size` (id_hmqv_c.rs:55-57). -/
def size : Nat := 32 + 32 + 64

/-- The byte string a certificate signs (id_hmqv_c.rs:152, 231-235, 300-304). -/
def tbs (c : HmqvCert R) : Bytes := c.id.1 ++ (R.compress c.upk).1

end HmqvCert

/-- `enum IdHmqvCError` (id_hmqv_c.rs:85-88). -/
inductive HmqvError where
  | mac
  | sig
  deriving DecidableEq

/-- `struct IdHmqvC` (id_hmqv_c.rs:66-82). -/
structure IdHmqvC (G : Ed25519) (R : Group) where
  ssid : Ssid
  myCert : HmqvCert R
  mpk : G.Pk
  usk : R.Scalar
  ephSk : Option R.Scalar
  ephPk : Option R.Pt
  macs : Option (ByteArr 32 × ByteArr 32)
  outputKey : Option SessKey
  outputId : Option Id
  nextStep : Nat
  done : Bool

namespace IdHmqvC
variable {G : Ed25519} {R : Group}

/-- `new_session` (id_hmqv_c.rs:110-132). -/
def newSession (ssid : Ssid) (mpk : G.Pk) (cert : HmqvCert R) (usk : R.Scalar) (role : Role) : IdHmqvC G R :=
  { ssid := ssid, myCert := cert, mpk := mpk, usk := usk, macs := none, ephSk := none, ephPk := none, outputKey := none
    outputId := none
    nextStep := if role = .initiator then 0 else 1
    done := false }

/-- mac0, mac1 and the session key from `sigma` (id_hmqv_c.rs:261-270 and 328-337). -/
def derive (P : SymPrims) (ssid : Ssid) (sigma : R.Pt) : ByteArr 32 × ByteArr 32 × SessKey :=
  let prk := (R.compress sigma).1
  (P.hkdfExpand prk (ssid.1 ++ ascii "mac0") 32, P.hkdfExpand prk (ssid.1 ++ ascii "mac1") 32,
    P.hkdfExpand prk (ssid.1 ++ ascii "sess key") 32)

/-- Parsing of the first message `eph_pk ‖ cert` (id_hmqv_c.rs:219-227): raw ephemeral bytes, the point, the certificate. -/
def parse1 (R : Group) (inc : Bytes) : Option (Bytes × R.Pt × HmqvCert R) := do
  let (ephBytes, rest) ← splitAt? 32 inc
  let eph ← R.point? ephBytes
  let cert ← HmqvCert.fromBytes rest
  return (ephBytes, eph, cert)

/-- Parsing of the second message `eph_pk ‖ mac1 ‖ cert` (id_hmqv_c.rs:287-296). -/
def parse2 (R : Group) (inc : Bytes) : Option (Bytes × R.Pt × Bytes × HmqvCert R) := do
  let (ephBytes, rest) ← splitAt? 32 inc
  let (mac1, rest) ← splitAt? 32 rest
  let eph ← R.point? ephBytes
  let cert ← HmqvCert.fromBytes rest
  return (ephBytes, eph, mac1, cert)

/-- `run` (id_hmqv_c.rs:194-371). The coin is the ephemeral scalar drawn by `gen_user_keypair`. -/
def run (P : SymPrims) (s : IdHmqvC G R) (coin : R.Scalar) (inc : Bytes) : Step (IdHmqvC G R) HmqvError (Option Bytes) :=
  match s.nextStep with
  | 0 =>
    if inc ≠ [] then .panic else
    let ephPk := R.mulBase coin
    .ok { s with ephPk := some ephPk, ephSk := some coin, nextStep := s.nextStep + 2 }
      (some ((R.compress ephPk).1 ++ s.myCert.toBytes))
  | 1 =>
    match parse1 R inc with
    | none => .panic
    | some (incEphBytes, incEph, incCert) =>
      if !G.verify s.mpk incCert.tbs incCert.sig then .err s .sig else
      let s := { s with outputId := some incCert.id }
      let ephPk := R.mulBase coin
      let d := R.hashToScalar (incEphBytes ++ s.myCert.id.1)
      let e := R.hashToScalar ((R.compress ephPk).1 ++ incCert.id.1)
      let sigma := (coin + e * s.usk) • (incEph + d • incCert.upk)
      let (mac0, mac1, key) := derive P s.ssid sigma
      .ok { s with macs := some (mac0, mac1), outputKey := some key, nextStep := s.nextStep + 2 }
        (some ((R.compress ephPk).1 ++ mac1.1 ++ s.myCert.toBytes))
  | 2 =>
    match parse2 R inc with
    | none => .panic
    | some (incEphBytes, incEph, incMac1, incCert) =>
      if !G.verify s.mpk incCert.tbs incCert.sig then .err s .sig else
      let s := { s with outputId := some incCert.id }
      match s.ephPk, s.ephSk with
      | some ephPk, some ephSk =>
        let d := R.hashToScalar ((R.compress ephPk).1 ++ incCert.id.1)
        let e := R.hashToScalar (incEphBytes ++ s.myCert.id.1)
        let sigma := (ephSk + d * s.usk) • (incEph + e • incCert.upk)
        let (mac0, mac1, key) := derive P s.ssid sigma
        let s := { s with outputKey := some key }
        if incMac1 ≠ mac1.1 then .err s .mac else
        .ok { s with done := true, nextStep := s.nextStep + 2 } (some mac0.1)
      | _, _ => .panic
  | 3 =>
    match s.macs with
    | none => .panic
    | some (mac0, _) =>
      if inc ≠ mac0.1 then .err s .mac else
      .ok { s with done := true, nextStep := s.nextStep + 2 } none
  | _ => .panic

/-- `run_sim` (id_hmqv_c.rs:168-192); it never sets `done`. -/
def runSim (s : IdHmqvC G R) : Option (IdHmqvC G R × Option Nat) :=
  match s.nextStep with
  | 0 => some ({ s with nextStep := s.nextStep + 2 }, some (32 + HmqvCert.size))
  | 1 => some ({ s with nextStep := s.nextStep + 2 }, some (32 + 32 + HmqvCert.size))
  | 2 => some ({ s with nextStep := s.nextStep + 2 }, some 32)
  | 3 => some ({ s with nextStep := s.nextStep + 2 }, none)
  | _ => none

end IdHmqvC

/-- `impl IdentityBasedKeyExchange for IdHmqvC` (id_hmqv_c.rs:102-372). -/
def hmqvIbke (P : SymPrims) (G : Ed25519) (R : Group) : Ibke where
  MainPubkey := G.Pk
  MainPrivkey := G.Sk
  UserPubkey := R.Pt
  UserPrivkey := R.Scalar
  Certificate := HmqvCert R
  Err := HmqvError
  State := IdHmqvC G R
  MainCoins := G.Sk
  UserCoins := R.Scalar
  ExtractCoins := Unit
  SessCoins := Unit
  RunCoins := R.Scalar
  mpkBytes pk := (G.pkToBytes pk).1
  certId c := c.id
  genMain sk := (G.pkOf sk, sk)
  genUser c := (R.mulBase c, c)
  extract _ msk id upk := { id := id, upk := upk, sig := G.sign msk (id.1 ++ (R.compress upk).1) }
  newSession _ ssid mpk cert usk role := IdHmqvC.newSession ssid mpk cert usk role
  run := IdHmqvC.run P
  runSim := IdHmqvC.runSim
  isDone s := s.done
  finalize s := match s.outputId, s.outputKey with
    | some i, some k => some (i, k)
    | _, _ => none

end Verif.Latke
