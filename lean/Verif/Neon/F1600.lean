import Verif.Keccak.Permute

/-!
# The machine of the two-way Keccak permutation (dilithium2/aarch64: feat.S and fips202x2.c)

Registers hold 128-bit vectors as two 64-bit lanes; every instruction used works on each lane by itself.  The same instructions describe the assembly routine
(`eor3`, `rax1`, `xar`, `bcax` are the SHA3 instructions of Armv8.2) and the version in intrinsics (`veorq_u64` = `eor`, `vshlq_n_u64` = `shl`,
`vsriq_n_u64` = `sri`, `vbicq_u64` = `bic`, `vdupq_n_u64` of a round constant = `rc`).
-/

namespace Verif.Neon.F1600

open Verif.Keccak (U64)

/-- A 128-bit vector as two 64-bit lanes. -/
abbrev V2 := Fin 2 → U64

/-- The instructions, destination first (Arm's operand order). -/
inductive Ins where
  | eor (d n m : Nat)
  | eor3 (d n m a : Nat)
  | rax1 (d n m : Nat)
  | xar (d n m k : Nat)
  | bcax (d n m a : Nat)
  | mov (d n : Nat)
  | rc (d j : Nat)
  | shl (d n k : Nat)
  | sri (d n k : Nat)
  | bic (d n m : Nat)
deriving DecidableEq, Repr

/-- The destination. -/
def Ins.dst : Ins → Nat
  | .eor d _ _ | .eor3 d _ _ _ | .rax1 d _ _ | .xar d _ _ _ | .bcax d _ _ _ | .mov d _ | .rc d _ | .shl d _ _ | .sri d _ _ | .bic d _ _ => d

/-- The result in one lane, from the contents `s` of that lane of the registers; `rc j` is the `j`-th round constant from the pointer (or index) on. -/
def Ins.out (rc : Nat → U64) (s : Nat → U64) : Ins → U64
  | .eor _ n m => s n ^^^ s m
  | .eor3 _ n m a => s n ^^^ s m ^^^ s a
  | .rax1 _ n m => s n ^^^ (s m).rotateLeft 1
  | .xar _ n m k => (s n ^^^ s m).rotateRight k
  | .bcax _ n m a => s n ^^^ (s m &&& ~~~s a)
  | .mov _ n => s n
  | .rc _ j => rc j
  | .shl _ n k => s n <<< k
  | .sri d n k => (s d &&& ~~~(BitVec.allOnes 64 >>> k)) ||| (s n >>> k)
  | .bic _ n m => s n &&& ~~~s m

/-- One instruction on the registers. -/
def step (rc : Nat → U64) (s : Nat → V2) (i : Ins) : Nat → V2 := fun r => if r = i.dst then fun l => i.out rc (fun r => s r l) else s r

/-- Straight-line code. -/
def run (rc : Nat → U64) (code : List Ins) (s : Nat → V2) : Nat → V2 := code.foldl (step rc) s

end Verif.Neon.F1600
