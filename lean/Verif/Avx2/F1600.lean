import Verif.Keccak.Permute

/-!
# The machine of f1600x4.S (dilithium2/avx2)

Registers and memory hold 256-bit vectors as four quadwords.  `rdi` points to the 25 vectors of the state, addressed by byte offset; `rsi` points to the
round constants; `rho8`, `rho56` are constants of the data section.  Alignment is not modelled.
-/

namespace Verif.Avx2.F1600

open Verif.Keccak (U64)

/-- A 256-bit vector as four quadwords, lowest first. -/
abbrev Q4 := Fin 4 → U64

/-- The instructions used, operands in the AT&T order of the source; offsets are from `rdi` (`bcast`: from `rsi`). -/
inductive Ins where
  /-- `vmovdqa off(%rdi), d` -/
  | load (off d : Nat)
  /-- `vmovdqa r, off(%rdi)` -/
  | store (r off : Nat)
  /-- `vpxor off(%rdi), b, d` -/
  | xorm (off b d : Nat)
  /-- `vpxor a, b, d` -/
  | xor (a b d : Nat)
  /-- `vpor a, b, d` -/
  | or (a b d : Nat)
  /-- `vpandn a, b, d`: `(not b) and a` -/
  | andn (a b d : Nat)
  /-- `vpsllq $k, a, d` -/
  | sll (k a d : Nat)
  /-- `vpsrlq $k, a, d` -/
  | srl (k a d : Nat)
  /-- `vpbroadcastq off(%rsi), d` -/
  | bcast (off d : Nat)
  /-- `vpshufb m, a, d` -/
  | shuf (m a d : Nat)
  /-- `vpshufb rho56(%rip), a, d` -/
  | shufm (a d : Nat)
deriving DecidableEq, Repr

/-- Byte `j` of a vector. -/
def byte (a : Q4) (j : Fin 32) : BitVec 8 := (a ⟨j.1 / 8, by omega⟩).extractLsb' (8 * (j.1 % 8)) 8

/-- The vector with given bytes. -/
def ofBytes (f : Fin 32 → BitVec 8) : Q4 := fun i =>
  (List.finRange 8).foldl (fun r (k : Fin 8) => r ||| ((f ⟨8 * i.1 + k.1, by omega⟩).setWidth 64 <<< (8 * k.1))) 0

/-- `vpshufb m, a`: in each 128-bit half, byte `j` is byte `m[j] mod 16` of `a`'s half, or 0 if `m[j]` has its top bit set. -/
def pshufb (m a : Q4) : Q4 := ofBytes fun j =>
  if (byte m j).msb then 0 else byte a ⟨16 * (j.1 / 16) + (byte m j).toNat % 16, by omega⟩

/-- Update of one cell. -/
def upd {α : Type} (f : Nat → α) (k : Nat) (v : α) : Nat → α := fun j => bif Nat.beq j k then v else f j

/-- Registers and memory. -/
structure St (α : Type) where
  reg : Nat → α
  mem : Nat → α

/-- One instruction; `rc` are the round constants at `rsi`, `r56` the constant `rho56`. -/
def step (rc : Nat → U64) (r56 : Q4) (s : St Q4) : Ins → St Q4
  | .load off d => { s with reg := upd s.reg d (s.mem off) }
  | .store r off => { s with mem := upd s.mem off (s.reg r) }
  | .xorm off b d => { s with reg := upd s.reg d (fun l => s.reg b l ^^^ s.mem off l) }
  | .xor a b d => { s with reg := upd s.reg d (fun l => s.reg b l ^^^ s.reg a l) }
  | .or a b d => { s with reg := upd s.reg d (fun l => s.reg b l ||| s.reg a l) }
  | .andn a b d => { s with reg := upd s.reg d (fun l => ~~~s.reg b l &&& s.reg a l) }
  | .sll k a d => { s with reg := upd s.reg d (fun l => s.reg a l <<< k) }
  | .srl k a d => { s with reg := upd s.reg d (fun l => s.reg a l >>> k) }
  | .bcast off d => { s with reg := upd s.reg d (fun _ => rc (off / 8)) }
  | .shuf m a d => { s with reg := upd s.reg d (pshufb (s.reg m) (s.reg a)) }
  | .shufm a d => { s with reg := upd s.reg d (pshufb r56 (s.reg a)) }

/-- Straight-line code. -/
def run (rc : Nat → U64) (r56 : Q4) (code : List Ins) (s : St Q4) : St Q4 := code.foldl (step rc r56) s

end Verif.Avx2.F1600
