import Verif.Latke.Prims

/-!
# latke/src/auth_enc.rs
-/

namespace Verif.Latke

/-- `TAGLEN` (auth_enc.rs:15). -/
def TAGLEN : Nat := 32

/-- `AuthEncKey = [u8; 64]` (auth_enc.rs:18): encryption key then MAC key. -/
abbrev AuthEncKey := ByteArr 64

/-- `MacError` of the `digest` crate. -/
inductive MacError where
  | mk
  deriving DecidableEq

/-- `auth_encrypt` (auth_enc.rs:24-51).  `nonce` is what `rng.fill_bytes` wrote (line 31-32). -/
def authEncrypt (P : SymPrims) (nonce : ByteArr 12) (key : AuthEncKey) (msg : Bytes) : Bytes :=
  let encKey := key.1.take 32
  let macKey := key.1.drop 32
  let ciphertext := xorBytes msg (P.keystream encKey nonce.1 msg.length).1
  let ciphertext := ciphertext ++ nonce.1
  ciphertext ++ (P.hmac macKey ciphertext).1

/-- `auth_decrypt` (auth_enc.rs:54-73). Both `split_at` calls (58, 59) panic on short input. -/
def authDecrypt (P : SymPrims) (key : AuthEncKey) (sealed : Bytes) : Res MacError Bytes :=
  let encKey := key.1.take 32
  let macKey := key.1.drop 32
  match splitEnd? TAGLEN sealed with
  | none => .panic
  | some (ciphertextAndNonce, mac) =>
    match splitEnd? 12 ciphertextAndNonce with
    | none => .panic
    | some (ciphertext, nonce) =>
      if (P.hmac macKey ciphertextAndNonce).1 = mac then
        .ok (xorBytes ciphertext (P.keystream encKey nonce ciphertext.length).1)
      else .err .mk

end Verif.Latke
