import Verif.Latke.Traits

/-!
# latke/src/pake/cpace.rs
-/

namespace Verif.Latke

/-- The alphabet of `base64::engine::general_purpose::STANDARD` (RFC 4648, with padding). -/
def b64Alphabet : Bytes := ascii "ABCDEFGHIJKLMNOPQRSTUVWXYZabcdefghijklmnopqrstuvwxyz0123456789+/"

/-- The character for a 6-bit value. -/
def b64Char (n : Nat) : UInt8 := b64Alphabet.getD (n % 64) 0

/-- `BASE64_STANDARD.encode` (used at cpace.rs:32), as the bytes of the resulting string. External crate; RFC 4648 section 4. -/
def base64 : Bytes → Bytes
  | [] => []
  | [a] => [b64Char (a.toNat / 4), b64Char (a.toNat % 4 * 16), 0x3d, 0x3d]
  | [a, b] => [b64Char (a.toNat / 4), b64Char (a.toNat % 4 * 16 + b.toNat / 16), b64Char (b.toNat % 16 * 4), 0x3d]
  | a :: b :: c :: rest =>
    b64Char (a.toNat / 4) :: b64Char (a.toNat % 4 * 16 + b.toNat / 16) ::
      b64Char (b.toNat % 16 * 4 + c.toNat / 64) :: b64Char (c.toNat % 64) :: base64 rest

/-- The `pake-cpace` crate, abstractly: packet sizes and the three calls.  `none` is an `Err` (the code unwraps it).
`step1`/`step2` draw coins. Arguments: password, initiator id, responder id, associated data. -/
structure CpaceLib where
  step1Len : Nat
  step2Len : Nat
  Step1Out : Type
  Coins : Type
  step1 : Coins → Bytes → Bytes → Bytes → Bytes → Option Step1Out
  packet : Step1Out → ByteArr step1Len
  /-- returns the packet and `shared_keys().k1` -/
  step2 : Coins → ByteArr step1Len → Bytes → Bytes → Bytes → Bytes → Option (ByteArr step2Len × SessKey)
  /-- returns `k1` -/
  step3 : Step1Out → ByteArr step2Len → Option SessKey

/-- The advertised behaviour of the crate: with equal arguments on both sides nothing fails and the keys agree. -/
structure CpaceLib.Correct (L : CpaceLib) : Prop where
  step1Len_pos : 0 < L.step1Len
  step2Len_pos : 0 < L.step2Len
  step1_ok : ∀ c pw a b ad, ∃ st, L.step1 c pw a b ad = some st
  agree : ∀ c c' pw a b ad st, L.step1 c pw a b ad = some st →
    ∃ p k, L.step2 c' (L.packet st) pw a b ad = some (p, k) ∧ L.step3 st p = some k

/-- `PROTO_ID_INIT` (cpace.rs:9). -/
def cpaceInit : Bytes := ascii "latke_cpace_initiator"
/-- `PROTO_ID_RESP` (cpace.rs:10). -/
def cpaceResp : Bytes := ascii "latke_cpace_responder"

/-- `struct Cpace` (cpace.rs:12-21). -/
structure Cpace (L : CpaceLib) where
  step1State : Option L.Step1Out
  nextStep : Nat
  done : Bool
  outputKey : Option SessKey
  ssid : Ssid
  password : Bytes

namespace Cpace

/-- `Cpace::new` (cpace.rs:26-42). -/
def new (L : CpaceLib) (ssid : Ssid) (password : Bytes) (role : Role) : Cpace L :=
  { step1State := none
    nextStep := if role = .initiator then 0 else 1
    done := false
    outputKey := none
    ssid := ssid
    password := base64 password }

/-- The `match` of `Cpace::run` (cpace.rs:49-102). `none` = panic. -/
def body {L : CpaceLib} (s : Cpace L) (c : L.Coins) (inc : Bytes) : Option (Cpace L × Option Bytes) :=
  match s.nextStep with
  | 0 => do
    if inc.length ≠ 0 then none else
    let client ← L.step1 c s.password cpaceInit cpaceResp s.ssid.1
    return ({ s with step1State := some client }, some (L.packet client).1)
  | 1 => do
    let packet ← toArr? L.step1Len inc
    let (out, k1) ← L.step2 c packet s.password cpaceInit cpaceResp s.ssid.1
    return ({ s with outputKey := some k1, done := true }, some out.1)
  | 2 => do
    let packet ← toArr? L.step2Len inc
    let st ← s.step1State
    let k1 ← L.step3 st packet
    return ({ s with outputKey := some k1, done := true }, none)
  | _ => none

/-- `Cpace::run` (cpace.rs:48-108). -/
def run {L : CpaceLib} (s : Cpace L) (c : L.Coins) (inc : Bytes) : Step (Cpace L) Unit (Option Bytes) :=
  match body s c inc with
  | some (s, o) => .ok { s with nextStep := s.nextStep + 2 } o
  | none => .panic

end Cpace

/-- `impl Pake for Cpace` (cpace.rs:23-113). -/
def cpacePake (L : CpaceLib) : Pake where
  State := Cpace L
  Err := Unit
  NewCoins := Unit
  RunCoins := L.Coins
  new _ ssid pw role := Cpace.new L ssid pw role
  run := Cpace.run
  isDone s := s.done
  finalize s := s.outputKey

/-- Toy CPace: Diffie–Hellman-like agreement on bytes, for non-vacuity examples. -/
def toyCpace : CpaceLib where
  step1Len := 1
  step2Len := 1
  Step1Out := UInt8 × Bytes
  Coins := UInt8
  step1 c pw a b ad := some (c, pw ++ a ++ b ++ ad)
  packet s := ⟨[s.1 * 5], rfl⟩
  step2 c p pw a b ad := some (⟨[c * 5], rfl⟩, toyMix 9 (p.1.map (· * c)) (pw ++ a ++ b ++ ad) 32)
  step3 s p := some (toyMix 9 (p.1.map (· * s.1)) s.2 32)

end Verif.Latke
