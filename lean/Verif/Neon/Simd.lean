import Verif.Avx2.Simd

/-!
# ARMv8-A registers and the instructions used by pqclean's dilithium2/aarch64

A 128-bit register is its four words, lane 0 least significant.  The semantics follow the Arm Architecture Reference Manual; operands are in the order
of the assembly (destination first).
-/

namespace Verif.Neon

open Verif.Avx2 (W32 lo32 hi32 smul)

/-- A 128-bit register. -/
abbrev Vq := Fin 4 → W32

/-- A word-wise second operand: a register (`.4S`) or one of its lanes (`.S[i]`). -/
inductive Op
  | v (r : Nat)
  | e (r i : Nat)
deriving Repr, DecidableEq

/-- Signed saturating rounding doubling multiply, high half (`SQRDMULH`): `(2·a·b + 2^31) >> 32`, saturated. -/
def rdmulh (a b : W32) : W32 :=
  let r := (2 * (a.toInt * b.toInt) + 2147483648) / 4294967296
  BitVec.ofInt 32 (if r > 2147483647 then 2147483647 else if r < -2147483648 then -2147483648 else r)

/-- Signed rounding shift right (`SRSHR #n`): `(a + 2^(n-1)) >> n`, no overflow of the sum. -/
def srs (n : Nat) (a : W32) : W32 := BitVec.ofInt 32 ((a.toInt + 2 ^ (n - 1)) / 2 ^ n)

/-- `CMGE`: all ones if `a ≥ b` (signed). -/
def cge (a b : W32) : W32 := if b.toInt ≤ a.toInt then BitVec.allOnes 32 else 0

/-- `UBFX #lsb, #width`. -/
def ubf (lsb width : Nat) (a : W32) : W32 := BitVec.ofNat 32 (a.toNat / 2 ^ lsb % 2 ^ width)

/-- Quadword of a register. -/
def dbl (a : Vq) (i : Fin 2) : BitVec 64 := a ⟨2 * i.1 + 1, by omega⟩ ++ a ⟨2 * i.1, by omega⟩
/-- The register with given quadwords. -/
def ofDbl (f : Fin 2 → BitVec 64) : Vq := fun j => if j.1 % 2 = 0 then lo32 (f ⟨j.1 / 2, by omega⟩) else hi32 (f ⟨j.1 / 2, by omega⟩)

/-- Vector registers, pointer registers, data registers and memory.  Addresses count words (byte addresses divided by 4; every access of the modelled
routines is a multiple of 4 bytes).  A general-purpose register holding a pointer is in `x`, one holding data is in `w` (entry `r + 32` is the upper half of
a 64-bit data register); no routine uses a register for both at a time. -/
structure Mach where
  reg : Nat → Vq
  x : Nat → Nat
  w : Nat → W32
  mem : Nat → W32

/-- The instructions. -/
inductive Instr
  | addx (d s n : Nat)             -- add xd, xs, #4n (also mov xd, xs and the post-increments)
  | ldrw (d s off : Nat)           -- ldr wd, [xs, #4off]
  | ldrx (d s off : Nat)           -- ldr xd, [xs, #4off], data
  | strw (s p : Nat)               -- str ws, [xp]
  | movw (d n : Nat)               -- mov wd, #n
  | lsrw (d s n : Nat)             -- lsr wd, ws, #n
  | lslw (d s n : Nat)             -- lsl wd, ws, #n
  | orrw (d a b : Nat)             -- orr wd, wa, wb
  | ubfx (d s l n : Nat)           -- ubfx wd, ws, #l, #n
  | negw (d s : Nat)               -- neg wd, ws
  | dup (d s : Nat)                -- dup vd.4S, ws
  | insS (d i s : Nat)             -- mov vd.S[i], ws
  | insD0 (d s : Nat)              -- mov vd.D[0], xs
  | ldn (n k d p : Nat)            -- one register of ld1/ld2/ld4: lane j from [xp + 4(k + n j)]
  | st (s p off : Nat)             -- one register of st1
  | st4row (j s p : Nat)           -- row j of st4 {vs.4S - v(s+3).4S}, [xp]
  | mul (d a : Nat) (b : Op)
  | mla (d a : Nat) (b : Op)
  | mls (d a : Nat) (b : Op)
  | sqrdmulh (d a : Nat) (b : Op)
  | add (d a b : Nat)
  | sub (d a b : Nat)
  | cmge (d a b : Nat)
  | srshr (d a n : Nat)
  | sshr (d a n : Nat)
  | shl (d a n : Nat)
  | uzp1 (d a b : Nat)
  | uzp2 (d a b : Nat)
  | trn1s (d a b : Nat)
  | trn2s (d a b : Nat)
  | trn1d (d a b : Nat)
  | trn2d (d a b : Nat)
  | smull (d a b : Nat)
  | smull2 (d a b : Nat)
  | smlal (d a b : Nat)
  | smlal2 (d a b : Nat)
  | smlsl (d a b : Nat)
  | smlsl2 (d a b : Nat)
deriving Repr, DecidableEq

/-- Vector register update. -/
def Mach.set (s : Mach) (r : Nat) (v : Vq) : Mach := { s with reg := fun i => if i = r then v else s.reg i }
/-- Pointer register update. -/
def Mach.setx (s : Mach) (r n : Nat) : Mach := { s with x := fun i => if i = r then n else s.x i }
/-- Data register update. -/
def Mach.setw (s : Mach) (r : Nat) (v : W32) : Mach := { s with w := fun i => if i = r then v else s.w i }
/-- 16 bytes to memory. -/
def Mach.store (s : Mach) (addr : Nat) (v : Vq) : Mach :=
  { s with mem := fun x => if h : addr ≤ x ∧ x < addr + 4 then v ⟨x - addr, by omega⟩ else s.mem x }

/-- Lane of a second operand. -/
def Mach.op (s : Mach) (o : Op) (j : Fin 4) : W32 :=
  match o with
  | .v r => s.reg r j
  | .e r i => s.reg r (Fin.ofNat 4 i)

/-- One instruction. -/
def exec (s : Mach) : Instr → Mach
  | .addx d p n => s.setx d (s.x p + n)
  | .ldrw d p off => s.setw d (s.mem (s.x p + off))
  | .ldrx d p off => (s.setw d (s.mem (s.x p + off))).setw (d + 32) (s.mem (s.x p + off + 1))
  | .strw r p => { s with mem := fun x => if x = s.x p then s.w r else s.mem x }
  | .movw d n => s.setw d (BitVec.ofNat 32 n)
  | .lsrw d r n => s.setw d (s.w r >>> n)
  | .lslw d r n => s.setw d (s.w r <<< n)
  | .orrw d a b => s.setw d (s.w a ||| s.w b)
  | .ubfx d r l n => s.setw d (ubf l n (s.w r))
  | .negw d r => s.setw d (-s.w r)
  | .dup d r => s.set d fun _ => s.w r
  | .insS d i r => s.set d fun j => if j.1 = i then s.w r else s.reg d j
  | .insD0 d r => s.set d fun j => if j.1 = 0 then s.w r else if j.1 = 1 then s.w (r + 32) else s.reg d j
  | .ldn n k d p => s.set d fun j => s.mem (s.x p + (k + n * j.1))
  | .st r p off => s.store (s.x p + off) (s.reg r)
  | .st4row j r p => s.store (s.x p + 4 * j) fun k => s.reg (r + k.1) (Fin.ofNat 4 j)
  | .mul d a b => s.set d fun j => s.reg a j * s.op b j
  | .mla d a b => s.set d fun j => s.reg d j + s.reg a j * s.op b j
  | .mls d a b => s.set d fun j => s.reg d j - s.reg a j * s.op b j
  | .sqrdmulh d a b => s.set d fun j => rdmulh (s.reg a j) (s.op b j)
  | .add d a b => s.set d fun j => s.reg a j + s.reg b j
  | .sub d a b => s.set d fun j => s.reg a j - s.reg b j
  | .cmge d a b => s.set d fun j => cge (s.reg a j) (s.reg b j)
  | .srshr d a n => s.set d fun j => srs n (s.reg a j)
  | .sshr d a n => s.set d fun j => (s.reg a j).sshiftRight n
  | .shl d a n => s.set d fun j => s.reg a j <<< n
  | .uzp1 d a b => s.set d fun j => if j.1 < 2 then s.reg a ⟨2 * (j.1 % 2), by omega⟩ else s.reg b ⟨2 * (j.1 % 2), by omega⟩
  | .uzp2 d a b => s.set d fun j => if j.1 < 2 then s.reg a ⟨2 * (j.1 % 2) + 1, by omega⟩ else s.reg b ⟨2 * (j.1 % 2) + 1, by omega⟩
  | .trn1s d a b => s.set d fun j => if j.1 % 2 = 0 then s.reg a ⟨2 * (j.1 / 2), by omega⟩ else s.reg b ⟨2 * (j.1 / 2), by omega⟩
  | .trn2s d a b => s.set d fun j => if j.1 % 2 = 0 then s.reg a ⟨2 * (j.1 / 2) + 1, by omega⟩ else s.reg b ⟨2 * (j.1 / 2) + 1, by omega⟩
  | .trn1d d a b => s.set d fun j => if j.1 < 2 then s.reg a ⟨j.1 % 2, by omega⟩ else s.reg b ⟨j.1 % 2, by omega⟩
  | .trn2d d a b => s.set d fun j => if j.1 < 2 then s.reg a ⟨2 + j.1 % 2, by omega⟩ else s.reg b ⟨2 + j.1 % 2, by omega⟩
  | .smull d a b => s.set d (ofDbl fun i => smul (s.reg a ⟨i.1, by omega⟩) (s.reg b ⟨i.1, by omega⟩))
  | .smull2 d a b => s.set d (ofDbl fun i => smul (s.reg a ⟨2 + i.1, by omega⟩) (s.reg b ⟨2 + i.1, by omega⟩))
  | .smlal d a b => s.set d (ofDbl fun i => dbl (s.reg d) i + smul (s.reg a ⟨i.1, by omega⟩) (s.reg b ⟨i.1, by omega⟩))
  | .smlal2 d a b => s.set d (ofDbl fun i => dbl (s.reg d) i + smul (s.reg a ⟨2 + i.1, by omega⟩) (s.reg b ⟨2 + i.1, by omega⟩))
  | .smlsl d a b => s.set d (ofDbl fun i => dbl (s.reg d) i - smul (s.reg a ⟨i.1, by omega⟩) (s.reg b ⟨i.1, by omega⟩))
  | .smlsl2 d a b => s.set d (ofDbl fun i => dbl (s.reg d) i - smul (s.reg a ⟨2 + i.1, by omega⟩) (s.reg b ⟨2 + i.1, by omega⟩))

/-- Straight-line code. -/
def run (s : Mach) (p : List Instr) : Mach := p.foldl exec s

/-- `mov c, #n; label: body; sub c, c, #1; cbnz c, label`: the body `n` times (`n ≥ 1`; no body uses the counter). -/
def loop (n : Nat) (body : List Instr) : List Instr := (List.replicate n body).flatten

end Verif.Neon
