import Verif.Latke.Asym
import Verif.Latke.Group

/-!
# latke/src/ibke/fg_ibke.rs
-/

namespace Verif.Latke

/-- `struct FgIbkeCert` (fg_ibke.rs:21-25). -/
structure FgCert (R : Group) where
  id : Id
  X : R.Pt
  xhat : R.Scalar

/-- `struct FgIbkeC` (fg_ibke.rs:34-49). `transcript` is the data fed to `running_transcript_hash`. -/
structure FgIbkeC (R : Group) where
  ssid : Ssid
  mpk : ByteArr 32
  cert : FgCert R
  transcript : Bytes
  ephSk : Option R.Scalar
  ephPk : Option R.Pt
  outputId : Option Id
  macs : Option (Bytes × Bytes)
  sessKey : Option SessKey
  done : Bool
  nextStep : Nat

/-- The scalar `H(0x02 ‖ id ‖ X)` (fg_ibke.rs:74-79, 158-163, 213-218; chip.rs uses the same encoding). -/
def fgHash (R : Group) (id xBytes : Bytes) : R.Scalar := R.hashToScalar ([0x02] ++ id ++ xBytes)

namespace FgIbkeC
variable {R : Group}

/-- `new_session` (fg_ibke.rs:85-110). -/
def newSession (ssid : Ssid) (mpk : ByteArr 32) (cert : FgCert R) (role : Role) : FgIbkeC R :=
  { ssid := ssid, mpk := mpk, cert := cert, transcript := [], ephSk := none, ephPk := none, macs := none, sessKey := none
    outputId := none, done := false
    nextStep := if role = .initiator then 0 else 1 }

/-- `sess_hash` split in mac0, mac1, session key (fg_ibke.rs:170-183 and 225-237). -/
def derive (P : SymPrims) (alpha beta : R.Pt) : Bytes × Bytes × SessKey :=
  let h := P.hkdfExpand ((R.compress alpha).1 ++ (R.compress beta).1) (ascii "fg-expand") 96
  (h.1.take 32, (h.1.drop 32).take 32, ⟨h.1.drop 64, by simp [h.2]⟩)

/-- The `match` of `run` without the trailing bookkeeping (fg_ibke.rs:117-266). The coin is the ephemeral scalar. -/
def body (P : SymPrims) (s : FgIbkeC R) (coin : R.Scalar) (inc : Bytes) : Step (FgIbkeC R) MacError (Option Bytes) :=
  match s.nextStep with
  | 0 =>
    if inc ≠ [] then .panic else
    let ephPk := R.mulBase coin
    .ok { s with ephSk := some coin, ephPk := some ephPk }
      (some (s.cert.id.1 ++ (R.compress s.cert.X).1 ++ (R.compress ephPk).1))
  | 1 =>
    match (do
      let (otherId, rest) ← splitAt? 32 inc
      let (xBytes, ephBytes) ← splitAt? 32 rest
      let X ← R.point? xBytes
      let eph ← R.point? ephBytes
      let otherIdArr ← toArr? 32 otherId
      let mpk ← R.decompress s.mpk
      return (otherIdArr, xBytes, X, eph, mpk)) with
    | none => .panic
    | some (otherId, xBytes, X, eph, mpk) =>
      let ephPk := R.mulBase coin
      let otherH := fgHash R otherId.1 xBytes
      let alpha := coin • eph
      let beta := (coin + s.cert.xhat) • (eph + X + otherH • mpk)
      let (mac0, mac1, key) := derive P alpha beta
      .ok { s with outputId := some otherId, macs := some (mac0, mac1), sessKey := some key }
        (some (s.cert.id.1 ++ (R.compress s.cert.X).1 ++ (R.compress ephPk).1 ++ mac1))
  | 2 =>
    match (do
      let (otherId, rest) ← splitAt? 32 inc
      let (xBytes, rest) ← splitAt? 32 rest
      let (ephBytes, mac1) ← splitAt? 32 rest
      let X ← R.point? xBytes
      let eph ← R.point? ephBytes
      let otherIdArr ← toArr? 32 otherId
      let ephSk ← s.ephSk
      let mpk ← R.decompress s.mpk
      return (otherIdArr, xBytes, X, eph, mac1, ephSk, mpk)) with
    | none => .panic
    | some (otherId, xBytes, X, eph, incMac1, ephSk, mpk) =>
      let otherH := fgHash R otherId.1 xBytes
      let alpha := ephSk • eph
      let beta := (ephSk + s.cert.xhat) • (eph + X + otherH • mpk)
      let (mac0, mac1, key) := derive P alpha beta
      let s := { s with outputId := some otherId, sessKey := some key }
      if mac1 ≠ incMac1 then .err s .mk else
      .ok { s with done := true } (some mac0)
  | 3 =>
    match s.macs with
    | none => .panic
    | some (mac0, _) =>
      if mac0 ≠ inc then .err s .mk else
      .ok { s with done := true } none
  | _ => .panic

/-- `run` (fg_ibke.rs:112-279). -/
def run (P : SymPrims) (s : FgIbkeC R) (coin : R.Scalar) (inc : Bytes) : Step (FgIbkeC R) MacError (Option Bytes) :=
  match body P s coin inc with
  | .panic => .panic
  | .err s e => .err s e
  | .ok s out =>
    .ok { s with nextStep := s.nextStep + 2, transcript := s.transcript ++ inc ++ out.getD [] } out

/-- `finalize` (fg_ibke.rs:289-301); `none` = panic. -/
def finalize (P : SymPrims) (s : FgIbkeC R) : Option (Id × SessKey) :=
  match s.sessKey with
  | none => none
  | some sk =>
    let prk := P.hkdfExtract (ascii "fgibke-tr-hash") (s.transcript ++ sk.1)
    let key := P.hkdfExpand prk.1 (s.ssid.1 ++ ascii "fgibke-final") 32
    match s.outputId with
    | none => none
    | some i => some (i, key)

end FgIbkeC

/-- `impl IdentityBasedKeyExchange for FgIbkeC` (fg_ibke.rs:51-302). `run_sim` is `todo!()`: it always panics. -/
def fgIbke (P : SymPrims) (R : Group) : Ibke where
  MainPubkey := ByteArr 32
  MainPrivkey := R.Scalar
  UserPubkey := Unit
  UserPrivkey := Unit
  Certificate := FgCert R
  Err := MacError
  State := FgIbkeC R
  MainCoins := R.Scalar
  UserCoins := Unit
  ExtractCoins := R.Scalar
  SessCoins := Unit
  RunCoins := R.Scalar
  mpkBytes b := b.1
  certId c := c.id
  genMain msk := (R.compress (R.mulBase msk), msk)
  genUser _ := ((), ())
  extract x msk id _ :=
    { id := id, X := R.mulBase x, xhat := x + fgHash R id.1 (R.compress (R.mulBase x)).1 * msk }
  newSession _ ssid mpk cert _ role := FgIbkeC.newSession ssid mpk cert role
  run := FgIbkeC.run P
  runSim _ := none
  isDone s := s.done
  finalize := FgIbkeC.finalize P

end Verif.Latke
