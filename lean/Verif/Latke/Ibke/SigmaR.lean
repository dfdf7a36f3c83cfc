import Verif.Latke.AuthEnc
import Verif.Latke.Traits
import Verif.Latke.Kem

/-!
# latke/src/ibke/id_sigma_r.rs

`IdSigmaR` is written over an enum of two signature schemes; the two public wrappers `IdSigmaREd25519` and `IdSigmaRDilithium2`
(id_sigma_r.rs:675-790) each fix one.  The model is generic in one scheme (`SigmaScheme`), so "scheme mismatch" panics
(keys of one scheme handed to a session of the other) do not occur here; `SigmaEnum.lean` models the enums (C102).
-/

namespace Verif.Latke

/-- One arm of `IdSigmaSignatureScheme` with its key, signature and encoding functions (id_sigma_r.rs:34-141). -/
structure SigmaScheme where
  /-- `dilithium_sig_pubkey_size()` or 32 -/
  pkLen : Nat
  /-- `IdSigmaSignature::size` (id_sigma_r.rs:115-120) -/
  sigLen : Nat
  Sk : Type
  Pk : Type
  KeyCoins : Type
  SignCoins : Type
  keygen : KeyCoins → Pk × Sk
  sign : SignCoins → Sk → Bytes → ByteArr sigLen
  verify : Pk → Bytes → ByteArr sigLen → Bool
  pkToBytes : Pk → ByteArr pkLen
  /-- `none` = panic (`EdVerifyingKey::from_bytes(..).unwrap()`; Dilithium never fails at the right length) -/
  pkFromBytes : ByteArr pkLen → Option Pk

/-- Honest signatures verify; public keys survive their encoding. -/
structure SigmaScheme.Correct (G : SigmaScheme) : Prop where
  verify_sign : ∀ kc sc m, G.verify (G.keygen kc).1 m (G.sign sc (G.keygen kc).2 m) = true
  pk_roundtrip : ∀ pk, G.pkFromBytes (G.pkToBytes pk) = some pk

/-- `enum SigmaError` (id_sigma_r.rs:162-167), without payloads. -/
inductive SigmaError where
  | invalidLength
  | sig
  | mac
  deriving DecidableEq

/-- `struct SigmaCert` (id_sigma_r.rs:196-200). -/
structure SigmaCert (G : SigmaScheme) where
  id : Id
  upk : G.Pk
  sig : ByteArr G.sigLen

namespace SigmaCert
variable {G : SigmaScheme}

/-- `SigmaCert::size` (id_sigma_r.rs:203-210). -/
def size (G : SigmaScheme) : Nat := 32 + G.pkLen + G.sigLen

/-- `to_bytes` (id_sigma_r.rs:213-215). -/
def toBytes (c : SigmaCert G) : Bytes := c.id.1 ++ (G.pkToBytes c.upk).1 ++ c.sig.1

/-- `from_bytes` (id_sigma_r.rs:218-254). -/
def fromBytes (b : Bytes) : Res SigmaError (SigmaCert G) :=
  if b.length ≠ size G then .err .invalidLength else
  match (do
    let (id, rest) ← splitAt? 32 b
    let (upkBytes, sigBytes) ← splitAt? G.pkLen rest
    let upkArr ← toArr? G.pkLen upkBytes
    let upk ← G.pkFromBytes upkArr
    let sig ← toArr? G.sigLen sigBytes
    let id ← toArr? 32 id
    return ({ id := id, upk := upk, sig := sig } : SigmaCert G)) with
  | some c => .ok c
  | none => .panic

/-- What the certificate signs (id_sigma_r.rs:330, 563, 635). -/
def tbs (c : SigmaCert G) : Bytes := c.id.1 ++ (G.pkToBytes c.upk).1

end SigmaCert

/-- `struct IdSigmaR` (id_sigma_r.rs:265-290). -/
structure IdSigmaR (G : SigmaScheme) (E : Kem) where
  ssid : Ssid
  nonceA : Option Nonce
  nonceB : Option Nonce
  mpk : G.Pk
  cert : SigmaCert G
  sigPrivkey : G.Sk
  kemPubkey : Option E.Pk
  kemPrivkey : Option E.Sk
  encappedKey : Option (ByteArr 736)
  macKey : Option (ByteArr 32)
  encKeys : Option (AuthEncKey × AuthEncKey)
  outputId : Option Id
  outputKey : Option SessKey
  nextStep : Nat
  done : Bool

/-- Coins of one `run` call: the KEM's own draws, the signing randomness, the nonce drawn by `auth_encrypt`. -/
structure SigmaCoins (G : SigmaScheme) (E : Kem) where
  kem : KemCoins E
  sign : G.SignCoins
  ae : ByteArr 12

namespace IdSigmaR
variable {G : SigmaScheme} {E : Kem}

/-- `new_session` (id_sigma_r.rs:339-377). -/
def newSession (myNonce : Nonce) (ssid : Ssid) (mpk : G.Pk) (cert : SigmaCert G) (usk : G.Sk) (role : Role) : IdSigmaR G E :=
  { ssid := ssid
    nonceA := if role = .initiator then some myNonce else none
    nonceB := if role = .initiator then none else some myNonce
    mpk := mpk, cert := cert, sigPrivkey := usk
    kemPubkey := none, kemPrivkey := none, encappedKey := none, macKey := none, encKeys := none
    outputId := none, outputKey := none
    nextStep := if role = .initiator then 0 else 1
    done := false }

/-- Keys derived from the KEM secret: output key, MAC key, encryption keys a and b (id_sigma_r.rs:468-476, 504-512). -/
def derive (P : SymPrims) (ss : ByteArr 32) : SessKey × ByteArr 32 × AuthEncKey × AuthEncKey :=
  (P.hkdfExpand ss.1 (ascii "output_key") 32, P.hkdfExpand ss.1 (ascii "mac_key") 32,
    P.hkdfExpand ss.1 (ascii "enc_key_a") 64, P.hkdfExpand ss.1 (ascii "enc_key_b") 64)

/-- What the initiator signs (id_sigma_r.rs:522-530, 568-576). -/
def tbsA (nonceB : Nonce) (ssid : Ssid) (pk : ByteArr 672) (ct : ByteArr 736) (cert : Bytes) : Bytes :=
  [0x00] ++ nonceB.1 ++ ssid.1 ++ pk.1 ++ ct.1 ++ cert

/-- What the responder signs (id_sigma_r.rs:588-596, 640-648). -/
def tbsB (nonceA : Nonce) (ssid : Ssid) (ct : ByteArr 736) (pk : ByteArr 672) (cert : Bytes) : Bytes :=
  [0x01] ++ nonceA.1 ++ ssid.1 ++ ct.1 ++ pk.1 ++ cert

/-- Splitting of the decrypted `sig ‖ mac ‖ cert` and parsing of the signature and certificate
(id_sigma_r.rs:552-557, 624-629): signature, MAC bytes, certificate bytes, certificate. -/
def parsePayload (G : SigmaScheme) (pt : Bytes) : Res SigmaError (ByteArr G.sigLen × Bytes × Bytes × SigmaCert G) :=
  match (do
    let (sigMac, certBytes) ← splitEnd? (SigmaCert.size G) pt
    let (sig, mac) ← splitAt? G.sigLen sigMac
    let sig ← toArr? G.sigLen sig
    return (sig, mac, certBytes)) with
  | none => .panic
  | some (sig, mac, certBytes) =>
    match SigmaCert.fromBytes certBytes with
    | .panic => .panic
    | .err e => .err e
    | .ok cert => .ok (sig, mac, certBytes, cert)

/-- The verification block shared by steps 3 and 4 (id_sigma_r.rs:556-583, 628-656), after decryption: parse, set `output_id`, check certificate,
signature and MAC. `tbs` is the signed byte string as a function of the certificate bytes, `b` the role byte of the MAC. -/
def verifyPeer (P : SymPrims) (s : IdSigmaR G E) (macKey : ByteArr 32) (b : UInt8) (tbs : Bytes → Bytes) (pt : Bytes) :
    Step (IdSigmaR G E) SigmaError Unit :=
  match parsePayload G pt with
  | .panic => .panic
  | .err e => .err s e
  | .ok (sig, mac, certBytes, cert) =>
    let s := { s with outputId := some cert.id }
    if !G.verify s.mpk cert.tbs cert.sig then .err s .sig else
    if !G.verify cert.upk (tbs certBytes) sig then .err s .sig else
    if (P.hmac macKey.1 ([b] ++ cert.id.1)).1 ≠ mac then .err s .mac else
    .ok s ()

/-- `run` (id_sigma_r.rs:431-670). -/
def run (P : SymPrims) (s : IdSigmaR G E) (c : SigmaCoins G E) (inc : Bytes) : Step (IdSigmaR G E) SigmaError (Option Bytes) :=
  match s.nextStep with
  | 0 =>
    if inc.length ≠ 0 then .panic else
    match s.nonceA with
    | none => .panic
    | some nonceA =>
      let (pk, sk) := E.keygen c.kem.key
      .ok { s with kemPubkey := some pk, kemPrivkey := some sk, nextStep := s.nextStep + 2 }
        (some (nonceA.1 ++ (E.pkToBytes pk).1))
  | 1 =>
    match (do
      let (nonce, pkBytes) ← splitAt? 32 inc
      let nonce ← toArr? 32 nonce
      let pk ← toArr? 672 pkBytes
      let nonceB ← s.nonceB
      return (nonce, E.pkFromBytes pk, nonceB)) with
    | none => .panic
    | some (nonceA, pk, nonceB) =>
      let (ss, ct) := E.encap c.kem.enc pk
      let (outKey, macKey, encA, encB) := derive P ss
      .ok { s with nonceA := some nonceA, kemPubkey := some pk, encappedKey := some ct, outputKey := some outKey
                   macKey := some macKey, encKeys := some (encA, encB), nextStep := s.nextStep + 2 }
        (some (nonceB.1 ++ ct.1))
  | 2 =>
    match (do
      let (nonceB, ctBytes) ← splitAt? 32 inc
      let ct ← toArr? 736 ctBytes
      let nonceB ← toArr? 32 nonceB
      let sk ← s.kemPrivkey
      let pk ← s.kemPubkey
      return (nonceB, ct, sk, pk)) with
    | none => .panic
    | some (nonceB, ct, sk, pk) =>
      let ss := E.decap ct sk
      let (outKey, macKey, encA, encB) := derive P ss
      let certBytes := s.cert.toBytes
      let sig := G.sign c.sign s.sigPrivkey (tbsA nonceB s.ssid (E.pkToBytes pk) ct certBytes)
      let mac := P.hmac macKey.1 ([0x00] ++ s.cert.id.1)
      .ok { s with nonceB := some nonceB, encappedKey := some ct, outputKey := some outKey, macKey := some macKey
                   encKeys := some (encA, encB), nextStep := s.nextStep + 2 }
        (some (authEncrypt P c.ae encA (sig.1 ++ mac.1 ++ certBytes)))
  | 3 =>
    match s.encKeys, s.nonceA, s.nonceB, s.kemPubkey, s.encappedKey, s.macKey with
    | some (encA, encB), some nonceA, some nonceB, some pk, some ct, some macKey =>
      match authDecrypt P encA inc with
      | .panic => .panic
      | .err _ => .err s .mac
      | .ok pt =>
        match verifyPeer P s macKey 0x00 (tbsA nonceB s.ssid (E.pkToBytes pk) ct) pt with
        | .panic => .panic
        | .err s e => .err s e
        | .ok s _ =>
          let certBytes := s.cert.toBytes
          let sig := G.sign c.sign s.sigPrivkey (tbsB nonceA s.ssid ct (E.pkToBytes pk) certBytes)
          let mac := P.hmac macKey.1 ([0x01] ++ s.cert.id.1)
          .ok { s with done := true, nextStep := s.nextStep + 2 }
            (some (authEncrypt P c.ae encB (sig.1 ++ mac.1 ++ certBytes)))
    | _, _, _, _, _, _ => .panic
  | 4 =>
    match s.encKeys, s.nonceA, s.kemPubkey, s.encappedKey, s.macKey with
    | some (_, encB), some nonceA, some pk, some ct, some macKey =>
      match authDecrypt P encB inc with
      | .panic => .panic
      | .err _ => .err s .mac
      | .ok pt =>
        match verifyPeer P s macKey 0x01 (tbsB nonceA s.ssid ct (E.pkToBytes pk)) pt with
        | .panic => .panic
        | .err s e => .err s e
        | .ok s _ => .ok { s with done := true, nextStep := s.nextStep + 2 } none
    | _, _, _, _, _ => .panic
  | _ => .panic

/-- `run_sim` (id_sigma_r.rs:387-429). -/
def runSim (s : IdSigmaR G E) : Option (IdSigmaR G E × Option Nat) :=
  match s.nextStep with
  | 0 => some ({ s with nextStep := s.nextStep + 2 }, some (32 + 672))
  | 1 => some ({ s with nextStep := s.nextStep + 2 }, some (32 + 736))
  | 2 => some ({ s with nextStep := s.nextStep + 2 }, some (G.sigLen + 32 + SigmaCert.size G + TAGLEN))
  | 3 => some ({ s with done := true, nextStep := s.nextStep + 2 }, some (G.sigLen + 32 + SigmaCert.size G + TAGLEN))
  | 4 => some ({ s with done := true, nextStep := s.nextStep + 2 }, none)
  | _ => none

end IdSigmaR

/-- `impl IdentityBasedKeyExchange for IdSigmaREd25519` / `IdSigmaRDilithium2` (id_sigma_r.rs:678-790). -/
def sigmaIbke (P : SymPrims) (G : SigmaScheme) (E : Kem) : Ibke where
  MainPubkey := G.Pk
  MainPrivkey := G.Sk
  UserPubkey := G.Pk
  UserPrivkey := G.Sk
  Certificate := SigmaCert G
  Err := SigmaError
  State := IdSigmaR G E
  MainCoins := G.KeyCoins
  UserCoins := G.KeyCoins
  ExtractCoins := G.SignCoins
  SessCoins := Nonce
  RunCoins := SigmaCoins G E
  mpkBytes pk := (G.pkToBytes pk).1
  certId c := c.id
  genMain := G.keygen
  genUser := G.keygen
  extract sc msk id upk := { id := id, upk := upk, sig := G.sign sc msk (id.1 ++ (G.pkToBytes upk).1) }
  newSession nonce ssid mpk cert usk role := IdSigmaR.newSession nonce ssid mpk cert usk role
  run := IdSigmaR.run P
  runSim := IdSigmaR.runSim
  isDone s := s.done
  finalize s := match s.outputId, s.outputKey with
    | some i, some k => some (i, k)
    | _, _ => none

/-- A toy scheme for non-vacuity examples. -/
def toySigma : SigmaScheme where
  pkLen := 1
  sigLen := 3
  Sk := UInt8
  Pk := UInt8
  KeyCoins := UInt8
  SignCoins := Unit
  keygen c := (c + 1, c)
  sign _ sk m := toyMix 22 [sk] m 3
  verify pk m s := decide (s = toyMix 22 [pk - 1] m 3)
  pkToBytes pk := ⟨[pk], rfl⟩
  pkFromBytes b := match b.1 with
    | x :: _ => some x
    | [] => none

theorem toySigma_correct : toySigma.Correct where
  verify_sign := fun (kc : UInt8) _ m => by simp [toySigma]
  pk_roundtrip := fun (pk : UInt8) => by simp [toySigma]

end Verif.Latke
