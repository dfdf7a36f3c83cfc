import Verif.Avx2.F1600Asm

/-! # `f1600x4` -/

namespace Verif.Avx2.F1600

open Verif.Keccak (U64)

/-- A 32-byte constant of the data section. -/
def constVec (b : List (BitVec 8)) : Q4 := ofBytes fun j => b.getD j.1 0

/-- The loop body (f1600x4.S:22-902). -/
def body : List Ins := round0 ++ round1 ++ round2 ++ round3

/-- The loop `looptop: …; addq $32, %rsi; subq $1, %rax; jnz looptop` with `rax = n` (f1600x4.S:21-905); `off` counts quadwords at `rsi`. -/
def loop (rc : Nat → U64) : Nat → Nat → St Q4 → St Q4
  | 0, _, s => s
  | n + 1, off, s => loop rc n (off + 4) (run (fun k => rc (off + k)) (constVec rho56Bytes) body s)

/-- `f1600x4(s, rc)` (f1600x4.S:17-906): `regs` are the registers at the call, `s` the 25 vectors; the registers are lost. -/
def f1600x4 (rc : Nat → U64) (regs : Nat → Q4) (s : Nat → Q4) : Nat → Q4 :=
  (loop rc 6 0 ⟨upd regs 0 (constVec rho8Bytes), s⟩).mem

end Verif.Avx2.F1600
