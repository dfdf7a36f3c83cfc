import Verif.Latke.Prims

/-!
# latke/src/ideal_cipher.rs
-/

namespace Verif.Latke

/-- `eval_deck` (ideal_cipher.rs:15-34): `F_key(prefix ‖ input ‖ suffix)` with `outlen` output bytes. -/
def evalDeck (P : SymPrims) (key : Bytes) (pre suf : UInt8) (input : Bytes) (outlen : Nat) : Bytes :=
  (P.deck key ([pre] ++ input ++ [suf]) outlen).1

/-- `b'h'`. -/
def chH : UInt8 := 0x68
/-- `b'g'`. -/
def chG : UInt8 := 0x67

/-- `R_0 ^= H_k(L ‖ 0)` (ideal_cipher.rs:38-42 and 79-83). `none` = panic in one of the two `split_at_mut(16)`. -/
def roundR0 (P : SymPrims) (key : Bytes) (x : Bytes) : Option Bytes := do
  let (left, right) ← splitAt? 16 x
  let (r0, rest) ← splitAt? 16 right
  let hkl := evalDeck P key chH 0x00 left r0.length
  return left ++ (xorBytes r0 hkl ++ rest)

/-- `L ^= G_k(R ‖ 1)` (ideal_cipher.rs:44-47 and 74-77). -/
def roundL (P : SymPrims) (key : Bytes) (x : Bytes) : Option Bytes := do
  let (left, right) ← splitAt? 16 x
  let gkr := evalDeck P key chG 0x01 right left.length
  return xorBytes left gkr ++ right

/-- `R ^= G_k(L ‖ 0)` (ideal_cipher.rs:49-52 and 69-72). -/
def roundR (P : SymPrims) (key : Bytes) (x : Bytes) : Option Bytes := do
  let (left, right) ← splitAt? 16 x
  let gkl := evalDeck P key chG 0x00 left right.length
  return left ++ xorBytes right gkl

/-- `L_0 ^= H_k(R ‖ 1)` (ideal_cipher.rs:54-58 and 63-67); `left` has 16 bytes so `l0` is all of it. -/
def roundL0 (P : SymPrims) (key : Bytes) (x : Bytes) : Option Bytes := do
  let (left, right) ← splitAt? 16 x
  let (l0, lrest) ← splitAt? 16 left
  let hkr := evalDeck P key chH 0x01 right l0.length
  return (xorBytes l0 hkr ++ lrest) ++ right

/-- `wide_block_encrypt` (ideal_cipher.rs:37-59). `none` = panic. -/
def wideBlockEncrypt (P : SymPrims) (key x : Bytes) : Option Bytes := do
  let x ← roundR0 P key x
  let x ← roundL P key x
  let x ← roundR P key x
  roundL0 P key x

/-- `wide_block_decrypt` (ideal_cipher.rs:62-84). `none` = panic. -/
def wideBlockDecrypt (P : SymPrims) (key x : Bytes) : Option Bytes := do
  let x ← roundL0 P key x
  let x ← roundR P key x
  let x ← roundL P key x
  roundR0 P key x

end Verif.Latke
