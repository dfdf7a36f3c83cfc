import Verif.Latke.Ibke.SigmaSchemes
import Verif.Avx2.Machine

/-!
# SIGMA-R with Dilithium2 on real machines (latke/src/ibke/id_sigma_r.rs)

Every call of `run` and `extract` happens on some machine, which decides what code signs and verifies: it is part of the coins of the call.  Machines are
`Rust.Env` (x86_64) here, `Rust.Machine` (x86_64 or aarch64) in `Verif/Neon/Machine.lean`; the protocol is the same for every type `X` of machines.
(Simplification: within one call of `run`, uninitialised memory is the same for the two verifications.)
-/

namespace Verif.Latke
open Verif.Dilithium

/-- A signature scheme with other code for signing and verifying. -/
def SigmaScheme.withCode (G : SigmaScheme) (sg : G.SignCoins → G.Sk → Bytes → ByteArr G.sigLen) (vf : G.Pk → Bytes → ByteArr G.sigLen → Bool) : SigmaScheme :=
  { G with sign := sg, verify := vf }

/-- A session is data; it does not depend on the code. -/
def IdSigmaR.recode {G : SigmaScheme} {E : Kem} (sg : G.SignCoins → G.Sk → Bytes → ByteArr G.sigLen) (vf : G.Pk → Bytes → ByteArr G.sigLen → Bool)
    (s : IdSigmaR G E) : IdSigmaR (G.withCode sg vf) E :=
  { ssid := s.ssid, nonceA := s.nonceA, nonceB := s.nonceB, mpk := s.mpk, cert := ⟨s.cert.id, s.cert.upk, s.cert.sig⟩, sigPrivkey := s.sigPrivkey
    kemPubkey := s.kemPubkey, kemPrivkey := s.kemPrivkey, encappedKey := s.encappedKey, macKey := s.macKey, encKeys := s.encKeys
    outputId := s.outputId, outputKey := s.outputKey, nextStep := s.nextStep, done := s.done }

/-- The same in the other direction. -/
def IdSigmaR.uncode {G : SigmaScheme} {E : Kem} {sg : G.SignCoins → G.Sk → Bytes → ByteArr G.sigLen} {vf : G.Pk → Bytes → ByteArr G.sigLen → Bool}
    (s : IdSigmaR (G.withCode sg vf) E) : IdSigmaR G E :=
  { ssid := s.ssid, nonceA := s.nonceA, nonceB := s.nonceB, mpk := s.mpk, cert := ⟨s.cert.id, s.cert.upk, s.cert.sig⟩, sigPrivkey := s.sigPrivkey
    kemPubkey := s.kemPubkey, kemPrivkey := s.kemPrivkey, encappedKey := s.encappedKey, macKey := s.macKey, encKeys := s.encKeys
    outputId := s.outputId, outputKey := s.outputKey, nextStep := s.nextStep, done := s.done }

/-- `gen_main_keypair` (id_sigma_r.rs:292-313) on a machine; zeroes where the C code would not terminate. -/
def machKeygen (e : Rust.Env) (coins : ByteArr 32) : Rust.PublicKey × Rust.SecretKey :=
  (Rust.keypairDetOn e coins).getD (⟨.rep PKLEN 0⟩, ⟨.rep SKLEN 0⟩)

/-- `sign` on a machine (id_sigma_r.rs:47-58); zeroes where the C code would not terminate. -/
def machSign (e : Rust.Env) (sk : Rust.SecretKey) (m : Bytes) : ByteArr SIGLEN := ((Rust.detachedSignOn e m sk).map (·.arr)).getD (.rep SIGLEN 0)

/-- `verify` on a machine (id_sigma_r.rs:88-105). -/
def machVerify (e : Rust.Env) (pk : Rust.PublicKey) (m : Bytes) (s : ByteArr SIGLEN) : Bool :=
  match Rust.verifyDetachedSignatureOn e ⟨s, SIGLEN⟩ m pk with
  | some (.ok _) => true
  | _ => false

/-- The code of the `Dilithium2` arms of `gen_main_keypair`, `sign` and `verify`, for each machine. -/
structure MachCode (X : Type) where
  keygen : X → ByteArr 32 → Rust.PublicKey × Rust.SecretKey
  sign : X → Rust.SecretKey → Bytes → ByteArr SIGLEN
  verify : X → Rust.PublicKey → Bytes → ByteArr SIGLEN → Bool

/-- The code of the repository (id_sigma_r.rs:47-58, 88-105, 292-313). -/
def machCode : MachCode Rust.Env := ⟨machKeygen, machSign, machVerify⟩

variable {X : Type}

/-- The `Dilithium2` arm on the machine `e`. -/
def machScheme (M : MachCode X) (e : X) : SigmaScheme where
  pkLen := Rust.publicKeyBytes
  sigLen := Rust.signatureBytes
  Sk := Rust.SecretKey
  Pk := Rust.PublicKey
  KeyCoins := ByteArr 32
  SignCoins := Unit
  keygen := M.keygen e
  sign _ := M.sign e
  verify := M.verify e
  pkToBytes pk := pk.arr
  pkFromBytes b := some ⟨b⟩

/-- The coins of one call of `run` on a machine. -/
structure MachCoins (X : Type) (E : Kem) where
  kem : KemCoins E
  ae : ByteArr 12
  env : X

/-- One call of `run` of a session, on the machine of the coins. -/
def machRun (P : SymPrims) (M : MachCode X) (e0 : X) (E : Kem) (s : IdSigmaR (machScheme M e0) E) (c : MachCoins X E) (inc : Bytes) :
    Step (IdSigmaR (machScheme M e0) E) SigmaError (Option Bytes) :=
  match IdSigmaR.run P (s.recode (fun _ => M.sign c.env) (M.verify c.env)) ⟨c.kem, (), c.ae⟩ inc with
  | .ok s o => .ok s.uncode o
  | .err s e => .err s.uncode e
  | .panic => .panic

/-- SIGMA-R with Dilithium2 where every call runs on some machine; keys are made by `keypair_det` on `e0`. -/
def machIbke (P : SymPrims) (M : MachCode X) (e0 : X) (E : Kem) : Ibke where
  MainPubkey := Rust.PublicKey
  MainPrivkey := Rust.SecretKey
  UserPubkey := Rust.PublicKey
  UserPrivkey := Rust.SecretKey
  Certificate := SigmaCert (machScheme M e0)
  Err := SigmaError
  State := IdSigmaR (machScheme M e0) E
  MainCoins := ByteArr 32
  UserCoins := ByteArr 32
  ExtractCoins := X
  SessCoins := Nonce
  RunCoins := MachCoins X E
  mpkBytes pk := pk.arr.1
  certId c := c.id
  genMain := M.keygen e0
  genUser := M.keygen e0
  extract e msk id upk := { id := id, upk := upk, sig := M.sign e msk (id.1 ++ upk.arr.1) }
  newSession nonce ssid mpk cert usk role := IdSigmaR.newSession nonce ssid mpk cert usk role
  run := machRun P M e0 E
  runSim := IdSigmaR.runSim
  isDone s := s.done
  finalize s := match s.outputId, s.outputKey with
    | some i, some k => some (i, k)
    | _, _ => none

end Verif.Latke
