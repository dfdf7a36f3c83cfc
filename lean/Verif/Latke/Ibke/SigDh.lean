import Verif.Latke.Asym

/-!
# latke/src/ibke/id_sig_dh.rs
-/

namespace Verif.Latke

/-- `struct SigDhCert` (id_sig_dh.rs:20-24). -/
structure SigDhCert (G : Ed25519) where
  id : Id
  sigPk : G.Pk
  dhPk : ByteArr 32
  sig : ByteArr 64

namespace SigDhCert
variable {G : Ed25519}

/-- `SigDhCert::to_bytes` (id_sig_dh.rs:27-35). -/
def toBytes (c : SigDhCert G) : Bytes := c.id.1 ++ (G.pkToBytes c.sigPk).1 ++ c.dhPk.1 ++ c.sig.1

/-- `SigDhCert::from_bytes` (id_sig_dh.rs:37-52); `none` = panic (short input, bad key, wrong signature length). -/
def fromBytes (b : Bytes) : Option (SigDhCert G) := do
  let (id, rest) ← splitAt? 32 b
  let (sigUpk, rest) ← splitAt? 32 rest
  let (dhUpk, rest) ← splitAt? 32 rest
  let id ← toArr? 32 id
  let sigUpk ← toArr? 32 sigUpk
  let sigUpk ← G.pkFromBytes sigUpk
  let dhUpk ← toArr? 32 dhUpk
  let sig ← toArr? 64 rest
  return { id := id, sigPk := sigUpk, dhPk := dhUpk, sig := sig }

/-- `SigDhCert::size` (id_sig_dh.rs:54-56). -/
def size : Nat := 32 + 32 + 32 + 64

/-- The byte string a certificate signs (id_sig_dh.rs:141-146, 210-215, 283-288). -/
def tbs (c : SigDhCert G) : Bytes := c.id.1 ++ (G.pkToBytes c.sigPk).1 ++ c.dhPk.1

end SigDhCert

/-- `struct IdSigDh` (id_sig_dh.rs:72-87). -/
structure IdSigDh (G : Ed25519) (D : X25519) where
  ssid : Ssid
  cert : SigDhCert G
  mpk : G.Pk
  usk : G.Sk × D.Sk
  ephSk : Option D.Sk
  ephPk : Option (ByteArr 32)
  outputKey : Option SessKey
  outputId : Option Id
  nextStep : Nat
  done : Bool

/-- `ed25519_dalek::SignatureError`. -/
inductive SigError where
  | mk
  deriving DecidableEq

namespace IdSigDh
variable {G : Ed25519} {D : X25519}

/-- `new_session` (id_sig_dh.rs:97-118). -/
def newSession (ssid : Ssid) (mpk : G.Pk) (cert : SigDhCert G) (usk : G.Sk × D.Sk) (role : Role) : IdSigDh G D :=
  { ssid := ssid, cert := cert, mpk := mpk, usk := usk, ephSk := none, ephPk := none, outputKey := none, outputId := none
    nextStep := if role = .initiator then 0 else 1
    done := false }

/-- Parsing of `eph_pk ‖ sig ‖ cert` (id_sig_dh.rs:198-206 and 271-279); `none` = panic. -/
def parse (G : Ed25519) (inc : Bytes) : Option (ByteArr 32 × ByteArr 64 × SigDhCert G) := do
  let (eph, rest) ← splitAt? 32 inc
  let (sig, rest) ← splitAt? 64 rest
  let eph ← toArr? 32 eph
  let sig ← toArr? 64 sig
  let cert ← SigDhCert.fromBytes rest
  return (eph, sig, cert)

/-- `MyKdf::extract(None, z1‖z2‖z3‖z4)` then `expand_multi_info([ssid, first, second])` (id_sig_dh.rs:243-256, 310-323). `extract(None, _)` uses a
salt of zeros, which HMAC makes equivalent to the empty salt; modelled as the empty salt. -/
def kdf (P : SymPrims) (z1 z2 z3 z4 : ByteArr 32) (ssid : Ssid) (first second : ByteArr 32) : SessKey :=
  P.hkdfExpand (P.hkdfExtract [] (z1.1 ++ z2.1 ++ z3.1 ++ z4.1)).1 (ssid.1 ++ first.1 ++ second.1) 32

/-- The byte string a party signs over its ephemeral key (id_sig_dh.rs:183, 224, 236, 297). -/
def ephTbs (b : UInt8) (ssid : Ssid) (eph : ByteArr 32) : Bytes := [b] ++ ssid.1 ++ eph.1

/-- `run` (id_sig_dh.rs:163-336). The coin is the ephemeral secret drawn from `thread_rng`. -/
def run (P : SymPrims) (s : IdSigDh G D) (ephCoin : D.Sk) (inc : Bytes) : Step (IdSigDh G D) SigError (Option Bytes) :=
  match s.nextStep with
  | 0 =>
    if inc ≠ [] then .panic else
    let ephPk := D.pub ephCoin
    let sig := G.sign s.usk.1 (ephTbs 0x00 s.ssid ephPk)
    .ok { s with ephSk := some ephCoin, ephPk := some ephPk, nextStep := s.nextStep + 2 }
      (some (ephPk.1 ++ sig.1 ++ s.cert.toBytes))
  | 1 =>
    match parse G inc with
    | none => .panic
    | some (incEph, incSig, incCert) =>
      if !G.verify s.mpk incCert.tbs incCert.sig then .err s .mk else
      let s := { s with outputId := some incCert.id }
      if !G.verify incCert.sigPk (ephTbs 0x00 s.ssid incEph) incSig then .err s .mk else
      let ephPk := D.pub ephCoin
      let sig := G.sign s.usk.1 (ephTbs 0x01 s.ssid ephPk)
      let z1 := D.dh s.usk.2 incCert.dhPk
      let z2 := D.dh s.usk.2 incEph
      let z3 := D.dh ephCoin incCert.dhPk
      let z4 := D.dh ephCoin incEph
      let key := kdf P z1 z2 z3 z4 s.ssid incEph ephPk
      .ok { s with outputKey := some key, done := true, nextStep := s.nextStep + 2 }
        (some (ephPk.1 ++ sig.1 ++ s.cert.toBytes))
  | 2 =>
    match parse G inc with
    | none => .panic
    | some (incEph, incSig, incCert) =>
      if !G.verify s.mpk incCert.tbs incCert.sig then .err s .mk else
      let s := { s with outputId := some incCert.id }
      if !G.verify incCert.sigPk (ephTbs 0x01 s.ssid incEph) incSig then .err s .mk else
      match s.ephSk, s.ephPk with
      | some ephSk, some ephPk =>
        let z1 := D.dh s.usk.2 incCert.dhPk
        let z2 := D.dh ephSk incCert.dhPk
        let z3 := D.dh s.usk.2 incEph
        let z4 := D.dh ephSk incEph
        let key := kdf P z1 z2 z3 z4 s.ssid ephPk incEph
        .ok { s with outputKey := some key, done := true, nextStep := s.nextStep + 2 } none
      | _, _ => .panic
  | _ => .panic

/-- `run_sim` (id_sig_dh.rs:338-360); `none` = panic. -/
def runSim (s : IdSigDh G D) : Option (IdSigDh G D × Option Nat) :=
  match s.nextStep with
  | 0 => some ({ s with nextStep := s.nextStep + 2 }, some (32 + 64 + SigDhCert.size))
  | 1 => some ({ s with done := true, nextStep := s.nextStep + 2 }, some (32 + 64 + SigDhCert.size))
  | 2 => some ({ s with done := true, nextStep := s.nextStep + 2 }, none)
  | _ => none

end IdSigDh

/-- `impl IdentityBasedKeyExchange for IdSigDh` (id_sig_dh.rs:89-361). Key generation is modelled by its result: the coins are the secret keys. -/
def sigDhIbke (P : SymPrims) (G : Ed25519) (D : X25519) : Ibke where
  MainPubkey := G.Pk
  MainPrivkey := G.Sk
  UserPubkey := G.Pk × ByteArr 32
  UserPrivkey := G.Sk × D.Sk
  Certificate := SigDhCert G
  Err := SigError
  State := IdSigDh G D
  MainCoins := G.Sk
  UserCoins := G.Sk × D.Sk
  ExtractCoins := Unit
  SessCoins := Unit
  RunCoins := D.Sk
  mpkBytes pk := (G.pkToBytes pk).1
  certId c := c.id
  genMain sk := (G.pkOf sk, sk)
  genUser c := ((G.pkOf c.1, D.pub c.2), c)
  extract _ msk id upk :=
    { id := id, sigPk := upk.1, dhPk := upk.2, sig := G.sign msk (id.1 ++ (G.pkToBytes upk.1).1 ++ upk.2.1) }
  newSession _ ssid mpk cert usk role := IdSigDh.newSession ssid mpk cert usk role
  run := IdSigDh.run P
  runSim := IdSigDh.runSim
  isDone s := s.done
  finalize s := match s.outputId, s.outputKey with
    | some i, some k => some (i, k)
    | _, _ => none

end Verif.Latke
