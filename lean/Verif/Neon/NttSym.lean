import Verif.Neon.Sym
import Verif.Neon.Asm
import Verif.Avx2.NttSym

/-!
# The NTT assembly of dilithium2/aarch64 as functions, and what it computes

The routines are run on a machine that is arbitrary except for the arrays passed to them, which are placed at fixed disjoint addresses; the code does not
depend on the addresses otherwise.
-/

namespace Verif.Neon

open Verif.Avx2 (W32 VPoly)
open Verif.Dilithium (rd)

/-- An array of `n` words placed in memory. -/
def Mach.arr (s : Mach) (base n : Nat) (f : Nat → W32) : Mach := { s with mem := fun x => if base ≤ x ∧ x < base + n then f (x - base) else s.mem x }

/-- The pointer arguments of a call: `x0`, `x1`, … -/
def Mach.args (s : Mach) (l : List Nat) : Mach := { s with x := fun r => l.getD r (s.x r) }

/-- Entry of a table. -/
def tabW (t : List Int) (n : Nat) : W32 := BitVec.ofInt 32 (t.getD n 0)

/-- Call of a transform of NTT_params.h: `f(src, table, constants)`. -/
def call3 (s : Mach) (p : List Instr) : Mach := run (s.args [0, 256, 804]) p

/-- The memory of the forward transform. -/
def fwdMem (M : Mach) (a : VPoly) : Mach := ((M.arr 0 256 (rd 0 a)).arr 256 546 (tabW ctTable)).arr 804 16 (tabW nttConstants)
/-- The memory of the inverse transform. -/
def invMem (M : Mach) (a : VPoly) : Mach := ((M.arr 0 256 (rd 0 a)).arr 256 546 (tabW invTable)).arr 804 16 (tabW nttConstants)

/-- `ntt` (aarch64/ntt.c:47-50): `asm_ntt_SIMD_top` then `asm_ntt_SIMD_bot`. -/
def nttN (M : Mach) (a : VPoly) : VPoly := fun i => (call3 (call3 (fwdMem M a) nttTop) nttBot).mem i.1

/-- `invntt_tomont` (aarch64/ntt.c:52-55): `asm_intt_SIMD_bot` then `asm_intt_SIMD_top`. -/
def invnttN (M : Mach) (a : VPoly) : VPoly := fun i => (call3 (call3 (invMem M a) inttBot) inttTop).mem i.1

/-! ## Codes of the symbolic variables -/

/-- The place in `zetas` of the clean code of pair `n` of `ctTable`. -/
def kapF (n : Nat) : Nat := if n < 16 then n else 2 ^ Nat.log2 ((n - 16) % 16) * (15 + (n - 16) / 16) + (n - 16) % 16
/-- The same for `invTable`. -/
def kapI (n : Nat) : Nat := 3 * 2 ^ Nat.log2 (kapF n) - 1 - kapF n

/-- A pair that the code uses. -/
def used (n : Nat) : Bool := decide (n < 272) && n % 16 != 0

/-- The variable of word `n` of a table. -/
def codeOf (kap : Nat → Nat) (n : Nat) : Nat := if used (n / 2) then (if n % 2 = 0 then 4000 else 3000) + kap (n / 2) else 6000 + n

/-- A row of variables. -/
def rowX (f : Nat → Nat) (r : Nat) : Row := ⟨.x (f (4 * r)), .x (f (4 * r + 1)), .x (f (4 * r + 2)), .x (f (4 * r + 3))⟩
/-- Rows of variables. -/
def rowsX (n : Nat) (f : Nat → Nat) : List Row := (List.range n).map (rowX f)

/-- The symbolic state at a call. -/
def start (mem : List Row) (args : List Nat) : SSt :=
  ⟨rowsX 32 (7000 + ·), (args.map (· + 1)) ++ List.replicate (32 - args.length) 0, (List.range 64).map fun r => .x (7200 + r), mem⟩

/-- The tables in memory. -/
def tabRows (kap : Nat → Nat) : List Row := rowsX 137 (codeOf kap) ++ rowsX 4 (5000 + ·)

/-- Memory of the transforms: variables `256 L + i` for the polynomial. -/
def memOf (L : Nat) (kap : Nat → Nat) : List Row :=
  rowsX 64 (256 * L + ·) ++ tabRows kap

/-- Forward butterflies, from layer `L0` on. -/
def fwdNorm (L0 : Nat) (v : V) : V :=
  match v with
  | .add (.x c') (.sub (.mul (.x c) (.x kz)) (.mul (.rdm (.x c2) (.x kq)) (.x qq))) =>
    let len := 128 / 2 ^ (c' / 256)
    let k := 2 ^ (c' / 256) + c' % 256 / (2 * len)
    if 256 * L0 ≤ c' && c' < 2048 && c' % 256 % (2 * len) < len && c == c' + len && c2 == c && qq == 5000 && kz == 3000 + k && kq == 4000 + k then .x (c' + 256) else v
  | .sub (.x c') (.sub (.mul (.x c) (.x kz)) (.mul (.rdm (.x c2) (.x kq)) (.x qq))) =>
    let len := 128 / 2 ^ (c' / 256)
    let k := 2 ^ (c' / 256) + c' % 256 / (2 * len)
    if 256 * L0 ≤ c' && c' < 2048 && c' % 256 % (2 * len) < len && c == c' + len && c2 == c && qq == 5000 && kz == 3000 + k && kq == 4000 + k then .x (c + 256) else v
  | v => v

/-- Inverse butterflies from layer `L0` on, and the final scaling (variables `2304 + i`). -/
def invNorm (L0 : Nat) (v : V) : V :=
  match v with
  | .add (.x c') (.x c) =>
    let len := 2 ^ (c' / 256)
    if 256 * L0 ≤ c' && c' < 2048 && c' % 256 % (2 * len) < len && c == c' + len then .x (c' + 256) else v
  | .sub (.mul (.sub (.x c') (.x c)) (.x kz)) (.mul (.rdm (.sub (.x d') (.x d)) (.x kq)) (.x qq)) =>
    let len := 2 ^ (c' / 256)
    let k := 256 / len - 1 - c' % 256 / (2 * len)
    if 256 * L0 ≤ c' && c' < 1792 && c' % 256 % (2 * len) < len && c == c' + len && c == d && c' == d' && qq == 5000 && kz == 3000 + k && kq == 4000 + k then .x (c + 256)
    else if 1792 ≤ c' && c' < 1920 && c == c' + 128 && c == d && c' == d' && qq == 5000 && kz == 5007 && kq == 5006 then .x (c + 512) else v
  | .sub (.mul (.x c) (.x kz)) (.mul (.rdm (.x d) (.x kq)) (.x qq)) =>
    if 2048 ≤ c && c < 2176 && c == d && qq == 5000 && kq == 5004 && kz == 5005 then .x (c + 256) else v
  | v => v

/-- The memory left behind: the first 256 words are the given terms, the rest as before. -/
def outIs (f : Nat → V) (rest : List Row) (s : SSt) : Bool :=
  ((List.range 256).all fun i => (lane s.mem (i / 4) (i % 4)).beq (f i)) &&
  (List.range rest.length).all fun r => (List.range 4).all fun j => (lane s.mem (64 + r) j).beq (lane rest r j)

/-- The last step of `asm_intt_SIMD_bot`: half of the coefficients are reduced. -/
def redTerm (i : Nat) : V := if i % 16 < 8 then .sub (.x (1024 + i)) (.mul (.srs 23 (.x (1024 + i))) (.x 5000)) else .x (1024 + i)

/-- The last step of `asm_intt_SIMD_top`. -/
def canTerm (i : Nat) : V :=
  .add (.x (2304 + i)) (.mul (.sub (.cge (.x (2304 + i)) (.lsr 1 (.x 5000))) (.cge (.neg (.lsr 1 (.x 5000))) (.x (2304 + i)))) (.x 5000))

set_option maxRecDepth 100000

theorem nttTop_sym : symRun (fwdNorm 0) 205 nttTop (start (memOf 0 kapF) [0, 256, 804]) (outIs (fun i => .x (1024 + i)) (tabRows kapF)) = some true := by
  decide +kernel

theorem nttBot_sym : symRun (fwdNorm 4) 205 nttBot (start (memOf 4 kapF) [0, 256, 804]) (outIs (fun i => .x (2048 + i)) (tabRows kapF)) = some true := by
  decide +kernel

theorem inttBot_sym : symRun (invNorm 0) 205 inttBot (start (memOf 0 kapI) [0, 256, 804]) (outIs redTerm (tabRows kapI)) = some true := by
  decide +kernel

theorem inttTop_sym : symRun (invNorm 4) 205 inttTop (start (memOf 4 kapI) [0, 256, 804]) (outIs canTerm (tabRows kapI)) = some true := by
  decide +kernel

end Verif.Neon
