import Mathlib.Data.BitVec
import Mathlib.Data.Fin.VecNotation

/-!
# AVX2 registers and the assembly instructions used by pqclean's dilithium2/avx2

A 256-bit register is its eight dwords, lane 0 least significant.  The semantics follow the Intel SDM; operands of the assembly instructions are in
AT&T order (sources first, destination last), as in the .S files.
-/

namespace Verif.Avx2

/-- A dword. -/
abbrev W32 := BitVec 32
/-- A 256-bit register. -/
abbrev Ymm := Fin 8 → W32

/-- Low dword. -/
def lo32 (x : BitVec 64) : W32 := x.setWidth 32
/-- High dword. -/
def hi32 (x : BitVec 64) : W32 := x.extractLsb' 32 32
/-- The quadword made of lanes `2i`, `2i+1`. -/
def qword (v : Ymm) (i : Fin 4) : BitVec 64 := v ⟨2 * i.1 + 1, by omega⟩ ++ v ⟨2 * i.1, by omega⟩
/-- The register with given quadwords. -/
def ofQwords (f : Fin 4 → BitVec 64) : Ymm := fun j => if j.1 % 2 = 0 then lo32 (f ⟨j.1 / 2, by omega⟩) else hi32 (f ⟨j.1 / 2, by omega⟩)

/-- Signed 32 by 32 bit product. -/
def smul (x y : W32) : BitVec 64 := x.signExtend 64 * y.signExtend 64

/-! ## Instructions on register values -/

/-- `vpmuldq`: signed products of the even lanes. -/
def pmuldq (a b : Ymm) : Ymm := ofQwords fun i => smul (a ⟨2 * i.1, by omega⟩) (b ⟨2 * i.1, by omega⟩)
/-- `vmovshdup`: each odd lane also into the even lane below. -/
def movshdup (a : Ymm) : Ymm := fun j => a ⟨2 * (j.1 / 2) + 1, by omega⟩
/-- `vmovsldup`: each even lane also into the odd lane above. -/
def movsldup (a : Ymm) : Ymm := fun j => a ⟨2 * (j.1 / 2), by omega⟩
/-- `vpsrlq $32`. -/
def psrlq32 (a : Ymm) : Ymm := fun j => if j.1 % 2 = 0 then a ⟨2 * (j.1 / 2) + 1, by omega⟩ else 0
/-- `vpblendd $imm, a, b, _`: lane from `a` where the immediate's bit is set, else from `b`. -/
def pblendd (imm : Nat) (a b : Ymm) : Ymm := fun j => if imm.testBit j.1 then a j else b j
/-- `vpaddd`. -/
def paddd (a b : Ymm) : Ymm := fun j => b j + a j
/-- `vpsubd a, b, _`: `b - a`. -/
def psubd (a b : Ymm) : Ymm := fun j => b j - a j
/-- `vpaddq`. -/
def paddq (a b : Ymm) : Ymm := ofQwords fun i => qword b i + qword a i
/-- `vpsubq a, b, _`: `b - a`. -/
def psubq (a b : Ymm) : Ymm := ofQwords fun i => qword b i - qword a i
/-- `vpbroadcastd`. -/
def bcastd (x : W32) : Ymm := fun _ => x
/-- The 128-bit half of `b, a` selected by two bits of an immediate: `0, 1` are `b`'s halves, `2, 3` are `a`'s. -/
def half (sel : Nat) (a b : Ymm) (j : Fin 4) : W32 :=
  if sel % 4 = 0 then b ⟨j.1, by omega⟩ else if sel % 4 = 1 then b ⟨4 + j.1, by omega⟩
  else if sel % 4 = 2 then a ⟨j.1, by omega⟩ else a ⟨4 + j.1, by omega⟩
/-- `vperm2i128 $imm, a, b, _` (zeroing bits 3 and 7 not set). -/
def perm2i128 (imm : Nat) (a b : Ymm) : Ymm := fun j =>
  if h : j.1 < 4 then half imm a b ⟨j.1, h⟩ else half (imm / 16) a b ⟨j.1 - 4, by omega⟩
/-- `vpunpcklqdq a, b, _`: in each half the low quadwords of `b` and `a`. -/
def unpcklq (a b : Ymm) : Ymm := fun j => if j.1 % 4 < 2 then b ⟨4 * (j.1 / 4) + j.1 % 2, by omega⟩ else a ⟨4 * (j.1 / 4) + j.1 % 2, by omega⟩
/-- `vpunpckhqdq a, b, _`: in each half the high quadwords of `b` and `a`. -/
def unpckhq (a b : Ymm) : Ymm := fun j =>
  if j.1 % 4 < 2 then b ⟨4 * (j.1 / 4) + 2 + j.1 % 2, by omega⟩ else a ⟨4 * (j.1 / 4) + 2 + j.1 % 2, by omega⟩
/-- `vpermq $imm`: quadword `i` is source quadword `(imm >> 2i) & 3`. -/
def permq (imm : Nat) (a : Ymm) : Ymm := fun j => a ⟨2 * (imm / 4 ^ (j.1 / 2) % 4) + j.1 % 2, by omega⟩

/-! ## Machine -/

/-- Sixteen registers and memory, addressed by dwords.  (Byte addresses divided by 4; every access of the modelled routines is a multiple of 4 bytes.
`vmovdqa` faults on addresses that are not multiples of 32; the C code aligns all its arrays, and alignment is not modelled.) -/
structure Mach where
  reg : Nat → Ymm
  mem : Nat → W32

/-- Register update. -/
def Mach.set (s : Mach) (r : Nat) (v : Ymm) : Mach := { s with reg := fun x => if x = r then v else s.reg x }
/-- 32 bytes from memory. -/
def Mach.load (s : Mach) (addr : Nat) : Ymm := fun j => s.mem (addr + j.1)
/-- 32 bytes to memory. -/
def Mach.store (s : Mach) (addr : Nat) (v : Ymm) : Mach :=
  { s with mem := fun x => if h : addr ≤ x ∧ x < addr + 8 then v ⟨x - addr, by omega⟩ else s.mem x }

/-- The instructions, with memory operands as dword addresses. -/
inductive Instr
  | load (addr d : Nat)            -- vmovdqa mem, ymm
  | store (s addr : Nat)           -- vmovdqa ymm, mem
  | mov (s d : Nat)                -- vmovdqa ymm, ymm
  | bcast (addr d : Nat)           -- vpbroadcastd mem, ymm
  | permqm (imm addr d : Nat)      -- vpermq imm, mem, ymm
  | muldq (a b d : Nat)            -- vpmuldq
  | shdup (a d : Nat)              -- vmovshdup
  | sldup (a d : Nat)              -- vmovsldup
  | srlq32 (a d : Nat)             -- vpsrlq $32
  | blendd (imm a b d : Nat)       -- vpblendd
  | addd (a b d : Nat)             -- vpaddd
  | subd (a b d : Nat)             -- vpsubd
  | addq (a b d : Nat)             -- vpaddq
  | subq (a b d : Nat)             -- vpsubq
  | perm128 (imm a b d : Nat)      -- vperm2i128
  | unpl (a b d : Nat)             -- vpunpcklqdq
  | unph (a b d : Nat)             -- vpunpckhqdq
deriving Repr, DecidableEq

/-- One instruction. -/
def exec (s : Mach) : Instr → Mach
  | .load addr d => s.set d (s.load addr)
  | .store r addr => s.store addr (s.reg r)
  | .mov r d => s.set d (s.reg r)
  | .bcast addr d => s.set d (bcastd (s.mem addr))
  | .permqm imm addr d => s.set d (permq imm (s.load addr))
  | .muldq a b d => s.set d (pmuldq (s.reg a) (s.reg b))
  | .shdup a d => s.set d (movshdup (s.reg a))
  | .sldup a d => s.set d (movsldup (s.reg a))
  | .srlq32 a d => s.set d (psrlq32 (s.reg a))
  | .blendd imm a b d => s.set d (pblendd imm (s.reg a) (s.reg b))
  | .addd a b d => s.set d (paddd (s.reg a) (s.reg b))
  | .subd a b d => s.set d (psubd (s.reg a) (s.reg b))
  | .addq a b d => s.set d (paddq (s.reg a) (s.reg b))
  | .subq a b d => s.set d (psubq (s.reg a) (s.reg b))
  | .perm128 imm a b d => s.set d (perm2i128 imm (s.reg a) (s.reg b))
  | .unpl a b d => s.set d (unpcklq (s.reg a) (s.reg b))
  | .unph a b d => s.set d (unpckhq (s.reg a) (s.reg b))

/-- Straight-line code. -/
def run (s : Mach) (p : List Instr) : Mach := p.foldl exec s

end Verif.Avx2
