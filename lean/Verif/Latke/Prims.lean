import Verif.Basic.Bytes

/-!
# Types of the `latke` crate and its external symmetric primitives
-/

namespace Verif.Latke

/-- `Id = [u8; 32]` (latke/src/lib.rs:23). -/
abbrev Id := ByteArr 32
/-- `Ssid = [u8; 32]` (latke/src/lib.rs:26). -/
abbrev Ssid := ByteArr 32
/-- `Nonce = [u8; 32]` (latke/src/lib.rs:29). -/
abbrev Nonce := ByteArr 32
/-- `SessKey = [u8; 32]` (latke/src/lib.rs:32). -/
abbrev SessKey := ByteArr 32

/-- `PartyRole` (latke/src/lib.rs:36-39). -/
inductive Role where
  | initiator
  | responder
  deriving DecidableEq

/-- The external symmetric primitives (crates `chacha20`, `hkdf`/`hmac`, `blake2`, `deck_farfalle`), as
uninterpreted deterministic functions with fixed output sizes.
Simplifications: the ChaCha20 counter limit (messages of 256 GiB or more panic) is not modelled; `from_prk`
is only ever called with at least 32 bytes and `expand` with at most 96 bytes of output, so their
error cases cannot occur and are not modelled. -/
structure SymPrims where
  /-- `ChaCha20::new(key, nonce).apply_keystream`: the first `n` keystream bytes. -/
  keystream : Bytes → Bytes → (n : Nat) → ByteArr n
  /-- `SimpleHmac<Blake2b<U32>>` (latke/src/lib.rs:20) with key and message. -/
  hmac : Bytes → Bytes → ByteArr 32
  /-- `MyKdf::from_prk(prk).expand(info, out)` with `out` of length `n`. -/
  hkdfExpand : Bytes → Bytes → (n : Nat) → ByteArr n
  /-- `MyKdf::extract(salt, ikm)` / `MyKdfExtract::new(salt)` with all `input_ikm` data concatenated: the PRK. -/
  hkdfExtract : Bytes → Bytes → ByteArr 32
  /-- `MyHash256::digest` (latke/src/lib.rs:16). -/
  hash256 : Bytes → ByteArr 32
  /-- Kravatte: `F_key(input)` truncated to `n` bytes (latke/src/ideal_cipher.rs:22-31). -/
  deck : Bytes → Bytes → (n : Nat) → ByteArr n

/-- ASCII bytes of a string literal (`b"..."`).
The `UInt8.ofNat` of the scalar value is the identity on ASCII, the only literals the crate uses. -/
def ascii (s : String) : Bytes := s.toList.map fun c => UInt8.ofNat c.toNat

/-- A concrete (insecure) instance, used only to show that hypotheses are satisfiable: it mixes its inputs so that
distinct keys and messages usually give distinct outputs. -/
def toyMix (tag : Nat) (a b : Bytes) (n : Nat) : ByteArr n :=
  ⟨(List.range n).map fun i =>
      UInt8.ofNat ((a.foldl (fun acc x => 31 * acc + x.toNat + 7) tag
        + b.foldl (fun acc x => 37 * acc + x.toNat + 3) (tag + 1)) / (i + 1) + i), by simp⟩

/-- Instance of the primitives built from `toyMix`. -/
def toyPrims : SymPrims where
  keystream k n l := toyMix 1 k n l
  hmac k m := toyMix 2 k m 32
  hkdfExpand p i n := toyMix 3 p i n
  hkdfExtract s i := toyMix 4 s i 32
  hash256 b := toyMix 5 [] b 32
  deck k m n := toyMix 6 k m n

end Verif.Latke
