import Verif.Latke.Ibke.SigmaSchemes

/-!
# latke/src/ibke/id_sigma_r.rs with its enums

`SigmaR.lean` models `IdSigmaR` for one signature scheme.  The Rust code keeps every key and signature in an enum over the two schemes and asks
the main public key which one to use (`self.mpk.kind()`, id_sigma_r.rs:389, 436); both public wrappers have the same key types, so a caller can hand a
session keys, certificates and a main public key of different schemes.  Here the enums are modelled as they are.
-/

namespace Verif.Latke

/-- `enum IdSigmaSignatureScheme` (id_sigma_r.rs:35-38). -/
inductive SigmaKind where
  | dilithium2
  | ed25519
  deriving DecidableEq

/-- The functions behind the two arms of the enums. -/
abbrev SigmaSchemes := SigmaKind → SigmaScheme

/-- `enum IdSigmaPubkey` (id_sigma_r.rs:62-65). -/
abbrev PkE (S : SigmaSchemes) := (k : SigmaKind) × (S k).Pk

/-- `enum IdSigmaPrivkey` (id_sigma_r.rs:41-44). -/
abbrev SkE (S : SigmaSchemes) := (k : SigmaKind) × (S k).Sk

/-- `enum IdSigmaSignature` (id_sigma_r.rs:108-111). -/
abbrev SigE (S : SigmaSchemes) := (k : SigmaKind) × ByteArr (S k).sigLen

variable {S : SigmaSchemes} {E : Kem}

/-- `IdSigmaPrivkey::sign` (id_sigma_r.rs:47-58); the coins say what each arm would draw. -/
def SkE.sign (c : (k : SigmaKind) → (S k).SignCoins) (sk : SkE S) (m : Bytes) : SigE S := ⟨sk.1, (S sk.1).sign (c sk.1) sk.2 m⟩

/-- `IdSigmaPubkey::as_bytes` (id_sigma_r.rs:76-85). -/
def PkE.bytes (pk : PkE S) : Bytes := ((S pk.1).pkToBytes pk.2).1

/-- `IdSigmaSignature::to_bytes` (id_sigma_r.rs:135-141). -/
def SigE.bytes (sig : SigE S) : Bytes := sig.2.1

/-- `IdSigmaPubkey::verify` (id_sigma_r.rs:88-105).  `mm` stands for `panic!("Signature scheme mismatch")` (lines 94, 101): `none` is a panic, as in the
code. -/
def PkE.verify (mm : Option Bool) (pk : PkE S) (m : Bytes) (sig : SigE S) : Option Bool :=
  if h : sig.1 = pk.1 then some ((S pk.1).verify pk.2 m (h ▸ sig.2)) else mm

/-- `struct SigmaCert` (id_sigma_r.rs:196-200). -/
structure CertE (S : SigmaSchemes) where
  id : Id
  upk : PkE S
  sig : SigE S

namespace CertE

/-- `SigmaCert::to_bytes` (id_sigma_r.rs:213-215). -/
def toBytes (c : CertE S) : Bytes := c.id.1 ++ c.upk.bytes ++ c.sig.bytes

/-- `SigmaCert::from_bytes` (id_sigma_r.rs:218-254). -/
def fromBytes (ty : SigmaKind) (b : Bytes) : Res SigmaError (CertE S) :=
  if b.length ≠ SigmaCert.size (S ty) then .err .invalidLength else
  match (do
    let (id, rest) ← splitAt? 32 b
    let (upkBytes, sigBytes) ← splitAt? (S ty).pkLen rest
    let upkArr ← toArr? (S ty).pkLen upkBytes
    let upk ← (S ty).pkFromBytes upkArr
    let sig ← toArr? (S ty).sigLen sigBytes
    let id ← toArr? 32 id
    return ({ id := id, upk := ⟨ty, upk⟩, sig := ⟨ty, sig⟩ } : CertE S)) with
  | some c => .ok c
  | none => .panic

end CertE

/-- `struct IdSigmaR` (id_sigma_r.rs:265-290). -/
structure SigmaE (S : SigmaSchemes) (E : Kem) where
  ssid : Ssid
  nonceA : Option Nonce
  nonceB : Option Nonce
  mpk : PkE S
  cert : CertE S
  sigPrivkey : SkE S
  kemPubkey : Option E.Pk
  kemPrivkey : Option E.Sk
  encappedKey : Option (ByteArr 736)
  macKey : Option (ByteArr 32)
  encKeys : Option (AuthEncKey × AuthEncKey)
  outputId : Option Id
  outputKey : Option SessKey
  nextStep : Nat
  done : Bool

/-- Coins of one `run` call. -/
structure CoinsE (S : SigmaSchemes) (E : Kem) where
  kem : KemCoins E
  sign : (k : SigmaKind) → (S k).SignCoins
  ae : ByteArr 12

namespace SigmaE

/-- `new_session` (id_sigma_r.rs:339-377). -/
def newSession (myNonce : Nonce) (ssid : Ssid) (mpk : PkE S) (cert : CertE S) (usk : SkE S) (role : Role) : SigmaE S E :=
  { ssid := ssid
    nonceA := if role = .initiator then some myNonce else none
    nonceB := if role = .initiator then none else some myNonce
    mpk := mpk, cert := cert, sigPrivkey := usk
    kemPubkey := none, kemPrivkey := none, encappedKey := none, macKey := none, encKeys := none
    outputId := none, outputKey := none
    nextStep := if role = .initiator then 0 else 1
    done := false }

/-- Splitting of the decrypted `sig ‖ mac ‖ cert` and parsing of the signature (`IdSigmaSignature::from_bytes`, id_sigma_r.rs:122-131) and
certificate (id_sigma_r.rs:552-557, 624-629). -/
def parsePayload (ty : SigmaKind) (pt : Bytes) : Res SigmaError (SigE S × Bytes × Bytes × CertE S) :=
  match (do
    let (sigMac, certBytes) ← splitEnd? (SigmaCert.size (S ty)) pt
    let (sig, mac) ← splitAt? (S ty).sigLen sigMac
    let sig ← toArr? (S ty).sigLen sig
    return ((⟨ty, sig⟩ : SigE S), mac, certBytes)) with
  | none => .panic
  | some (sig, mac, certBytes) =>
    match CertE.fromBytes ty certBytes with
    | .panic => .panic
    | .err e => .err e
    | .ok cert => .ok (sig, mac, certBytes, cert)

/-- The verification block shared by steps 3 and 4 (id_sigma_r.rs:556-583, 628-656). -/
def verifyPeer (mm : Option Bool) (P : SymPrims) (s : SigmaE S E) (macKey : ByteArr 32) (b : UInt8) (tbs : Bytes → Bytes) (pt : Bytes) :
    Step (SigmaE S E) SigmaError Unit :=
  match parsePayload s.mpk.1 pt with
  | .panic => .panic
  | .err e => .err s e
  | .ok (sig, mac, certBytes, cert) =>
    let s := { s with outputId := some cert.id }
    match s.mpk.verify mm (cert.id.1 ++ cert.upk.bytes) cert.sig with
    | none => .panic
    | some false => .err s .sig
    | some true =>
      match cert.upk.verify mm (tbs certBytes) sig with
      | none => .panic
      | some false => .err s .sig
      | some true => if (P.hmac macKey.1 ([b] ++ cert.id.1)).1 ≠ mac then .err s .mac else .ok s ()

/-- `run` (id_sigma_r.rs:431-670). -/
def run (mm : Option Bool) (P : SymPrims) (s : SigmaE S E) (c : CoinsE S E) (inc : Bytes) : Step (SigmaE S E) SigmaError (Option Bytes) :=
  match s.nextStep with
  | 0 =>
    if inc.length ≠ 0 then .panic else
    match s.nonceA with
    | none => .panic
    | some nonceA =>
      let (pk, sk) := E.keygen c.kem.key
      .ok { s with kemPubkey := some pk, kemPrivkey := some sk, nextStep := s.nextStep + 2 }
        (some (nonceA.1 ++ (E.pkToBytes pk).1))
  | 1 =>
    match (do
      let (nonce, pkBytes) ← splitAt? 32 inc
      let nonce ← toArr? 32 nonce
      let pk ← toArr? 672 pkBytes
      let nonceB ← s.nonceB
      return (nonce, E.pkFromBytes pk, nonceB)) with
    | none => .panic
    | some (nonceA, pk, nonceB) =>
      let (ss, ct) := E.encap c.kem.enc pk
      let (outKey, macKey, encA, encB) := IdSigmaR.derive P ss
      .ok { s with nonceA := some nonceA, kemPubkey := some pk, encappedKey := some ct, outputKey := some outKey
                   macKey := some macKey, encKeys := some (encA, encB), nextStep := s.nextStep + 2 }
        (some (nonceB.1 ++ ct.1))
  | 2 =>
    match (do
      let (nonceB, ctBytes) ← splitAt? 32 inc
      let ct ← toArr? 736 ctBytes
      let nonceB ← toArr? 32 nonceB
      let sk ← s.kemPrivkey
      let pk ← s.kemPubkey
      return (nonceB, ct, sk, pk)) with
    | none => .panic
    | some (nonceB, ct, sk, pk) =>
      let ss := E.decap ct sk
      let (outKey, macKey, encA, encB) := IdSigmaR.derive P ss
      let certBytes := s.cert.toBytes
      let sig := s.sigPrivkey.sign c.sign (IdSigmaR.tbsA nonceB s.ssid (E.pkToBytes pk) ct certBytes)
      let mac := P.hmac macKey.1 ([0x00] ++ s.cert.id.1)
      .ok { s with nonceB := some nonceB, encappedKey := some ct, outputKey := some outKey, macKey := some macKey
                   encKeys := some (encA, encB), nextStep := s.nextStep + 2 }
        (some (authEncrypt P c.ae encA (sig.bytes ++ mac.1 ++ certBytes)))
  | 3 =>
    match s.encKeys, s.nonceA, s.nonceB, s.kemPubkey, s.encappedKey, s.macKey with
    | some (encA, encB), some nonceA, some nonceB, some pk, some ct, some macKey =>
      match authDecrypt P encA inc with
      | .panic => .panic
      | .err _ => .err s .mac
      | .ok pt =>
        match verifyPeer mm P s macKey 0x00 (IdSigmaR.tbsA nonceB s.ssid (E.pkToBytes pk) ct) pt with
        | .panic => .panic
        | .err s e => .err s e
        | .ok s _ =>
          let certBytes := s.cert.toBytes
          let sig := s.sigPrivkey.sign c.sign (IdSigmaR.tbsB nonceA s.ssid ct (E.pkToBytes pk) certBytes)
          let mac := P.hmac macKey.1 ([0x01] ++ s.cert.id.1)
          .ok { s with done := true, nextStep := s.nextStep + 2 }
            (some (authEncrypt P c.ae encB (sig.bytes ++ mac.1 ++ certBytes)))
    | _, _, _, _, _, _ => .panic
  | 4 =>
    match s.encKeys, s.nonceA, s.kemPubkey, s.encappedKey, s.macKey with
    | some (_, encB), some nonceA, some pk, some ct, some macKey =>
      match authDecrypt P encB inc with
      | .panic => .panic
      | .err _ => .err s .mac
      | .ok pt =>
        match verifyPeer mm P s macKey 0x01 (IdSigmaR.tbsB nonceA s.ssid ct (E.pkToBytes pk)) pt with
        | .panic => .panic
        | .err s e => .err s e
        | .ok s _ => .ok { s with done := true, nextStep := s.nextStep + 2 } none
    | _, _, _, _, _ => .panic
  | _ => .panic

/-- `run_sim` (id_sigma_r.rs:387-429). -/
def runSim (s : SigmaE S E) : Option (SigmaE S E × Option Nat) :=
  let ty := s.mpk.1
  match s.nextStep with
  | 0 => some ({ s with nextStep := s.nextStep + 2 }, some (32 + 672))
  | 1 => some ({ s with nextStep := s.nextStep + 2 }, some (32 + 736))
  | 2 => some ({ s with nextStep := s.nextStep + 2 }, some ((S ty).sigLen + 32 + SigmaCert.size (S ty) + TAGLEN))
  | 3 => some ({ s with done := true, nextStep := s.nextStep + 2 }, some ((S ty).sigLen + 32 + SigmaCert.size (S ty) + TAGLEN))
  | 4 => some ({ s with done := true, nextStep := s.nextStep + 2 }, none)
  | _ => none

end SigmaE

/-- `impl IdentityBasedKeyExchange for IdSigmaREd25519` / `IdSigmaRDilithium2` (id_sigma_r.rs:678-790): the wrapper only decides which arm the two
`gen_…_keypair` functions use (`k`). -/
def sigmaEIbke (k : SigmaKind) (P : SymPrims) (S : SigmaSchemes) (E : Kem) : Ibke where
  MainPubkey := PkE S
  MainPrivkey := SkE S
  UserPubkey := PkE S
  UserPrivkey := SkE S
  Certificate := CertE S
  Err := SigmaError
  State := SigmaE S E
  MainCoins := (S k).KeyCoins
  UserCoins := (S k).KeyCoins
  ExtractCoins := (k : SigmaKind) → (S k).SignCoins
  SessCoins := Nonce
  RunCoins := CoinsE S E
  mpkBytes pk := pk.bytes
  certId c := c.id
  genMain c := (⟨k, ((S k).keygen c).1⟩, ⟨k, ((S k).keygen c).2⟩)
  genUser c := (⟨k, ((S k).keygen c).1⟩, ⟨k, ((S k).keygen c).2⟩)
  extract c msk id upk := { id := id, upk := upk, sig := msk.sign c (id.1 ++ upk.bytes) }
  newSession nonce ssid mpk cert usk role := SigmaE.newSession nonce ssid mpk cert usk role
  run := SigmaE.run none P
  runSim := SigmaE.runSim
  isDone s := s.done
  finalize s := match s.outputId, s.outputKey with
    | some i, some k => some (i, k)
    | _, _ => none

end Verif.Latke
