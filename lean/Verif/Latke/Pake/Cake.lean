import Verif.Latke.Traits
import Verif.Latke.IdealCipher
import Verif.Latke.Kem

/-!
# latke/src/pake/cake.rs
-/

namespace Verif.Latke

/-- Key derivation shared by `ideal_cipher_encrypt` and `ideal_cipher_decrypt` (cake.rs:18-22, 31-35). -/
def icKey (P : SymPrims) (domainSep : UInt8) (ssid password : Bytes) : Bytes :=
  (P.hkdfExpand (P.hash256 password).1 ([domainSep] ++ ssid) 32).1

/-- `ideal_cipher_encrypt` (cake.rs:16-26). `none` = panic. -/
def icEncrypt (P : SymPrims) (domainSep : UInt8) (ssid password payload : Bytes) : Option Bytes :=
  wideBlockEncrypt P (icKey P domainSep ssid password) payload

/-- `ideal_cipher_decrypt` (cake.rs:29-39). `none` = panic. -/
def icDecrypt (P : SymPrims) (domainSep : UInt8) (ssid password payload : Bytes) : Option Bytes :=
  wideBlockDecrypt P (icKey P domainSep ssid password) payload

/-- `struct Cake` (cake.rs:43-51). -/
structure Cake (E : Kem) where
  password : Bytes
  ssid : Ssid
  ephPk : Option E.Pk
  ephSk : Option E.Sk
  sessKey : Option SessKey
  nextStep : Nat
  done : Bool

namespace Cake

/-- `Cake::new` (cake.rs:56-69); the RNG is not used. -/
def new (E : Kem) (ssid : Ssid) (password : Bytes) (role : Role) : Cake E :=
  { password := password, ssid := ssid, ephPk := none, ephSk := none, sessKey := none
    nextStep := if role = .initiator then 0 else 1
    done := false }

/-- Step 0 of `run` (cake.rs:82-96). -/
def step0 {E : Kem} (P : SymPrims) (s : Cake E) (c : KemCoins E) (inc : Bytes) : Option (Cake E × Option Bytes) := do
  if inc ≠ [] then none else
  let (pk, sk) := E.keygen c.key
  let s := { s with ephPk := some pk, ephSk := some sk }
  let encryptedPk ← icEncrypt P 0x00 s.ssid.1 s.password (E.pkToBytes pk).1
  return (s, some encryptedPk)

/-- Step 1 of `run` (cake.rs:98-116): `copy_from_slice` panics on a wrong length. -/
def step1 {E : Kem} (P : SymPrims) (s : Cake E) (c : KemCoins E) (inc : Bytes) : Option (Cake E × Option Bytes) := do
  let ephPk ← toArr? 672 inc
  let ephPk ← icDecrypt P 0x00 s.ssid.1 s.password ephPk.1
  let ephPk ← toArr? 672 ephPk
  let ephPk := E.pkFromBytes ephPk
  let (sharedSecret, encappedKey) := E.encap c.enc ephPk
  let s := { s with sessKey := some sharedSecret, done := true }
  let encEncappedKey ← icEncrypt P 0x01 s.ssid.1 s.password encappedKey.1
  return (s, some encEncappedKey)

/-- Step 2 of `run` (cake.rs:118-130): `EncappedKey::from_bytes(..).unwrap()` panics on a wrong length. -/
def step2 {E : Kem} (P : SymPrims) (s : Cake E) (inc : Bytes) : Option (Cake E × Option Bytes) := do
  let encappedKey ← toArr? 736 inc
  let encappedKey ← icDecrypt P 0x01 s.ssid.1 s.password encappedKey.1
  let encappedKey ← toArr? 736 encappedKey
  let sk ← s.ephSk
  let sharedSecret := E.decap encappedKey sk
  return ({ s with sessKey := some sharedSecret, done := true }, none)

/-- `Cake::run` (cake.rs:79-140). It never returns `Err`. The `toArr?` after a decryption only restores the array type: the cipher
preserves lengths. -/
def run {E : Kem} (P : SymPrims) (s : Cake E) (c : KemCoins E) (inc : Bytes) : Step (Cake E) Unit (Option Bytes) :=
  let out :=
    match s.nextStep with
    | 0 => step0 P s c inc
    | 1 => step1 P s c inc
    | 2 => step2 P s inc
    | _ => none
  match out with
  | some (s, o) => .ok { s with nextStep := s.nextStep + 2 } o
  | none => .panic

end Cake

/-- `impl Pake for Cake` (cake.rs:53-141). -/
def cakePake (P : SymPrims) (E : Kem) : Pake where
  State := Cake E
  Err := Unit
  NewCoins := Unit
  RunCoins := KemCoins E
  new _ ssid pw role := Cake.new E ssid pw role
  run := Cake.run P
  isDone s := s.done
  finalize s := s.sessKey

end Verif.Latke
