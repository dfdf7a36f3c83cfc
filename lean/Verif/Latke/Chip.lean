import Verif.Latke.Ibke.Fg

/-!
# latke/src/chip.rs
-/

namespace Verif.Latke

/-- `struct ChipPwfile` (chip.rs:16-20). -/
structure ChipPwfile (R : Group) where
  X : R.Pt
  Y : R.Pt
  xhat : R.Scalar

/-- `struct Chip<P>` (chip.rs:24-41). -/
structure Chip (R : Group) (K : Pake) where
  pwfile : ChipPwfile R
  ssid : Ssid
  otherId : Id
  role : Role
  r : R.Scalar
  pakeState : Option K.State
  trSent : List Bytes
  trRecv : List Bytes
  nextStep : Nat

/-- Coins of one `Chip::run`: the scalar of `ibke_step_1`, the draws of `P::new` and of the PAKE's `run`. -/
structure ChipCoins (R : Group) (K : Pake) where
  r : R.Scalar
  new : K.NewCoins
  pake : K.RunCoins

namespace Chip
variable {R : Group} {K : Pake}

/-- `gen_pwfile` (chip.rs:44-59). `x` is the scalar drawn. -/
def genPwfile (R : Group) (x : R.Scalar) (pw : Bytes) (id : Id) : ChipPwfile R :=
  let y := R.hashToScalar ([0x01] ++ pw)
  let X := R.mulBase x
  let Y := R.mulBase y
  let h := R.hashToScalar ([0x02] ++ id.1 ++ (R.compress X).1)
  { X := X, Y := Y, xhat := x + h * y }

/-- `new_session` (chip.rs:61-83). `r` is the scalar drawn for the initial (always overwritten) value of `r`. -/
def newSession (r : R.Scalar) (ssid : Ssid) (pwfile : ChipPwfile R) (role : Role) (otherId : Id) : Chip R K :=
  { pwfile := pwfile, ssid := ssid, otherId := otherId, role := role, r := r, pakeState := none, trSent := [], trRecv := []
    nextStep := if role = .initiator then 0 else 1 }

/-- `ibke_step_1` (chip.rs:133-145). -/
def ibkeStep1 (s : Chip R K) (r : R.Scalar) : Chip R K × Bytes :=
  let rPt := R.mulBase r
  let msg := (R.compress s.pwfile.X).1 ++ (R.compress rPt).1
  ({ s with r := r, trSent := s.trSent ++ [msg] }, msg)

/-- The transcript bytes of `ibke_step_2` (chip.rs:171-183): pairs of sent and received messages, in protocol order. -/
def zipTranscript (role : Role) (sent recv : List Bytes) : Bytes :=
  if role = .initiator then (List.zipWith (· ++ ·) sent recv).flatten
  else (List.zipWith (· ++ ·) recv sent).flatten

/-- `ibke_step_2` (chip.rs:148-193); `none` = panic. -/
def ibkeStep2 (s : Chip R K) (msg : Bytes) : Option (Chip R K × Bytes) := do
  let s := { s with trRecv := s.trRecv ++ [msg] }
  let (xBytes, rBytes) ← splitAt? 32 msg
  if rBytes.length ≠ 32 then none else
  let otherX ← R.point? xBytes
  let otherR ← R.point? rBytes
  let otherH := R.hashToScalar ([0x02] ++ s.otherId.1 ++ xBytes)
  let alpha := s.r • otherR
  let beta := (s.r + s.pwfile.xhat) • (otherR + otherX + otherH • s.pwfile.Y)
  let tr := zipTranscript s.role s.trSent s.trRecv
  return (s, (R.compress alpha).1 ++ (R.compress beta).1 ++ tr)

/-- Running the PAKE inside CHIP (`pake_state.run(..)?`, chip.rs:104-105, 115-116): an `Err` leaves `self.pake_state` as it was. -/
def runPake (s : Chip R K) (p : K.State) (c : K.RunCoins) (inc : Bytes) : Step (Chip R K) K.Err (Option Bytes) :=
  match K.run p c inc with
  | .panic => .panic
  | .err _ e => .err s e
  | .ok p out => .ok { s with pakeState := some p, nextStep := s.nextStep + 2 } out

/-- `run` (chip.rs:86-125). -/
def run (s : Chip R K) (c : ChipCoins R K) (inc : Bytes) : Step (Chip R K) K.Err (Option Bytes) :=
  match s.nextStep with
  | 0 =>
    let (s, msg) := ibkeStep1 s c.r
    .ok { s with nextStep := s.nextStep + 2 } (some msg)
  | 1 =>
    let s := { s with trRecv := s.trRecv ++ [inc] }
    let (s, msg) := ibkeStep1 s c.r
    .ok { s with nextStep := s.nextStep + 2 } (some msg)
  | 2 =>
    let s := { s with trRecv := s.trRecv ++ [inc] }
    match ibkeStep2 s inc with
    | none => .panic
    | some (s, ibkeOut) => runPake s (K.new c.new s.ssid ibkeOut .initiator) c.pake []
  | 3 =>
    match s.trRecv.getLast? with
    | none => .panic
    | some lastMsg =>
      match ibkeStep2 s lastMsg with
      | none => .panic
      | some (s, ibkeOut) => runPake s (K.new c.new s.ssid ibkeOut .responder) c.pake inc
  | _ =>
    match s.pakeState with
    | none => .panic
    | some p =>
      match K.run p c.pake inc with
      | .panic => .panic
      | .err p e => .err { s with pakeState := some p } e
      | .ok p out => .ok { s with pakeState := some p, nextStep := s.nextStep + 2 } out

/-- `finalize` (chip.rs:128-130); `none` = panic. -/
def finalize (s : Chip R K) : Option SessKey :=
  match s.pakeState with
  | none => none
  | some p => K.finalize p

end Chip
end Verif.Latke
