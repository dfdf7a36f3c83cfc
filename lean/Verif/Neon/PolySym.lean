import Verif.Neon.NttSym

/-!
# The coefficient-wise aarch64 routines run symbolically by the kernel

Memory word `a` is variable `a`; the whole of the described memory is read off afterwards, so that nothing else is written.
-/

namespace Verif.Neon

open Verif.Avx2 (W32)

/-- All of memory is the given terms. -/
def allIs (f : Nat → V) (s : SSt) : Bool :=
  (List.range s.mem.length).all fun r => (List.range 4).all fun j => (lane s.mem r j).beq (f (4 * r + j))

/-- The state at a call, with `n` rows of memory. -/
def plain (n : Nat) (args : List Nat) : SSt := start (rowsX n fun c => c) args

/-- Montgomery reduction of a quadword term; the constants are at `k`. -/
def mTerm (k : Nat) (A : V) : V := .hi (.qsub A (.sml (.mul (.lo A) (.x (k + 1))) (.x k)))

/-- Product, output at 0, inputs at 256 and 512, constants at 768. -/
def pwT (a : Nat) : V := if a < 256 then mTerm 768 (.sml (.x (256 + a)) (.x (512 + a))) else .x a
/-- Product over the second input. -/
def pwT' (a : Nat) : V := if a < 256 then mTerm 512 (.sml (.x (256 + a)) (.x a)) else .x a
/-- Inner product; `u` at 256, `v` at 1280, constants at 2304. -/
def accT (a : Nat) : V :=
  if a < 256 then
    mTerm 2304 (.qadd (.qadd (.qadd (.sml (.x (256 + a)) (.x (1280 + a))) (.sml (.x (512 + a)) (.x (1536 + a)))) (.sml (.x (768 + a)) (.x (1792 + a)))) (.sml (.x (1024 + a)) (.x (2048 + a))))
  else .x a
/-- Reduction; constants at `k`. -/
def redT (k : Nat) (v : V) : V := .sub v (.mul (.srs 23 v) (.x k))
/-- Conditional addition. -/
def caddqT (k : Nat) (v : V) : V := .sub v (.mul (.sar 31 v) (.x k))
/-- High part. -/
def p2hi (v : V) : V := .srs 13 (.sub v (.lit 1))
/-- Low part. -/
def p2lo (v : V) : V := .sub v (.shl 13 (p2hi v))
/-- The ten-bit fields; packed words at 256. -/
def unT (a : Nat) : V :=
  if a < 256 then
    let w := 256 + 10 * a / 32
    let o := 10 * a % 32
    if o ≤ 22 then .ubf o 10 (.x w) else .orr (.shl (32 - o) (.ubf 0 (o - 22) (.x (w + 1)))) (.lsr o (.x w))
  else .x a

set_option maxRecDepth 100000

theorem pointwise_sym : symRun id 193 polyPointwiseAsm (plain 193 [0, 256, 512, 768]) (allIs pwT) = some true := by decide +kernel
theorem pointwise'_sym : symRun id 129 polyPointwiseAsm (plain 129 [0, 256, 0, 512]) (allIs pwT') = some true := by decide +kernel
theorem pointwiseAcc_sym : symRun id 577 pointwiseAccAsm (plain 577 [0, 256, 1280, 2304]) (allIs accT) = some true := by decide +kernel
theorem reduce_sym : symRun id 65 polyReduceAsm (plain 65 [0, 256]) (allIs fun a => if a < 256 then redT 256 (.x a) else .x a) = some true := by decide +kernel
theorem caddq_sym : symRun id 65 polyCaddqAsm (plain 65 [0, 256]) (allIs fun a => if a < 256 then caddqT 256 (.x a) else .x a) = some true := by decide +kernel
/-- `poly_freeze` handles 288 words. -/
theorem freeze_sym : symRun id 73 polyFreezeAsm (plain 73 [0, 288]) (allIs fun a => if a < 288 then caddqT 288 (redT 288 (.x a)) else .x a) = some true := by decide +kernel
theorem power2round_sym : symRun id 128 polyPower2roundAsm (plain 128 [0, 256, 0]) (allIs fun a => if a < 256 then p2hi (.x a) else p2lo (.x (a - 256))) = some true := by
  decide +kernel
theorem unpack10_sym : symRun id 84 unpack10 (plain 84 [0, 256]) (allIs unT) = some true := by decide +kernel

end Verif.Neon
