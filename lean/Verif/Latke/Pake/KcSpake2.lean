import Verif.Latke.Traits

/-!
# latke/src/pake/kc_spake2.rs
-/

namespace Verif.Latke

/-- `Spake2<Ed25519Group>` in symmetric mode, abstractly. -/
structure Spake2 where
  State : Type
  Coins : Type
  /-- `start_symmetric_with_rng(password, identity, rng)` -/
  start : Coins → Bytes → Bytes → State × Bytes
  /-- `finish(msg)`; `none` is an `Err` (the code unwraps it) -/
  finish : State → Bytes → Option Bytes

/-- The advertised behaviour: messages are not empty, and equal passwords and identities give the same key. -/
structure Spake2.Correct (S : Spake2) : Prop where
  msg_ne : ∀ c pw i, (S.start c pw i).2 ≠ []
  agree : ∀ c c' pw i, ∃ k, S.finish (S.start c pw i).1 (S.start c' pw i).2 = some k ∧
    S.finish (S.start c' pw i).1 (S.start c pw i).2 = some k

/-- `PROTO_ID` (kc_spake2.rs:10). -/
def kcProtoId : Bytes := ascii "latke_kc_spake2"

/-- `struct KcSpake2` (kc_spake2.rs:13-25). -/
structure KcSpake2 (S : Spake2) where
  pakeState : Option S.State
  firstOutgoing : Bytes
  nextStep : Nat
  done : Bool
  outputKey : Option SessKey
  macs : Option (Bytes × Bytes)
  password : Bytes

namespace KcSpake2

/-- `KcSpake2::new` (kc_spake2.rs:30-54). -/
def new (S : Spake2) (c : S.Coins) (ssid : Ssid) (password : Bytes) (role : Role) : KcSpake2 S :=
  let (pakeState, outgoing) := S.start c password ssid.1
  { pakeState := some pakeState
    firstOutgoing := outgoing
    nextStep := if role = .initiator then 0 else 1
    done := false
    outputKey := none
    macs := none
    password := password }

/-- `sess_hash` and its three parts `(mac0, mac1, output_key)` (kc_spake2.rs:77-89 and 106-124). `first` and `second` are the two SPAKE2
messages in the order they were sent. -/
def sessHash (P : SymPrims) (password first second pakeKey : Bytes) : Bytes × Bytes × SessKey :=
  let h := P.hkdfExpand pakeKey (password ++ kcProtoId ++ first ++ second ++ pakeKey) 96
  (h.1.take 32, (h.1.drop 32).take 32, ⟨h.1.drop 64, by simp [h.2]⟩)

/-- `KcSpake2::run` (kc_spake2.rs:60-155). -/
def run {S : Spake2} (P : SymPrims) (s : KcSpake2 S) (_ : Unit) (inc : Bytes) :
    Step (KcSpake2 S) MacError (Option Bytes) :=
  match s.nextStep with
  | 0 =>
    if inc.length ≠ 0 then .panic else
    .ok { s with nextStep := s.nextStep + 2 } (some s.firstOutgoing)
  | 1 =>
    match s.pakeState with
    | none => .panic
    | some st =>
      match S.finish st inc with
      | none => .panic
      | some pakeKey =>
        let (mac0, mac1, key) := sessHash P s.password inc s.firstOutgoing pakeKey
        .ok { s with pakeState := none, macs := some (mac0, mac1), outputKey := some key
                     nextStep := s.nextStep + 2 } (some (s.firstOutgoing ++ mac1))
  | 2 =>
    match splitEnd? 32 inc with
    | none => .panic
    | some (incPake, incMac1) =>
      match s.pakeState with
      | none => .panic
      | some st =>
        match S.finish st incPake with
        | none => .panic
        | some pakeKey =>
          let (mac0, mac1, key) := sessHash P s.password s.firstOutgoing incPake pakeKey
          let s := { s with pakeState := none, macs := some (mac0, mac1), outputKey := some key }
          if mac1 ≠ incMac1 then .err s .mk else
          .ok { s with done := true, nextStep := s.nextStep + 2 } (some mac0)
  | 3 =>
    match s.macs with
    | none => .panic
    | some (mac0, _) =>
      if mac0 ≠ inc then .err s .mk else
      .ok { s with done := true, nextStep := s.nextStep + 2 } none
  | _ => .panic

end KcSpake2

/-- `impl Pake for KcSpake2` (kc_spake2.rs:27-160). -/
def kcSpake2Pake (P : SymPrims) (S : Spake2) : Pake where
  State := KcSpake2 S
  Err := MacError
  NewCoins := S.Coins
  RunCoins := Unit
  new c ssid pw role := KcSpake2.new S c ssid pw role
  run := KcSpake2.run P
  isDone s := s.done
  finalize s := s.outputKey

/-- Toy SPAKE2 for non-vacuity examples. -/
def toySpake2 : Spake2 where
  State := UInt8 × Bytes
  Coins := UInt8
  start c pw i := ((c, pw ++ i), [c * 5])
  finish s m :=
    match m with
    | [x] => some (toyMix 11 [x * s.1] s.2 32).1
    | _ => none

end Verif.Latke
