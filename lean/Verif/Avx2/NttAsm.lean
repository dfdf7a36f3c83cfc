import Verif.Avx2.Simd

/-!
# The assembly of pqclean/crypto_sign/dilithium2/avx2: ntt.S, invntt.S, shuffle.inc, shuffle.S, pointwise.S

Generated by tools/gen_avx2_asm.py, macro by macro, one `Instr` per instruction.  `rdi`, `rsi`, `rdx`, `rcx` are the pointer arguments (dword addresses).
Pointer increments and the loop counters are unrolled: the body of a loop is repeated with its pointers advanced.
-/

namespace Verif.Avx2

/-- Macro `shuffle8` (shuffle.inc:1-4). -/
def shuffle8 (r0 r1 r2 r3 : Nat) : List Instr :=
  [.perm128 32 r1 r0 r2,
   .perm128 49 r1 r0 r3]

/-- Macro `shuffle4` (shuffle.inc:6-9). -/
def shuffle4 (r0 r1 r2 r3 : Nat) : List Instr :=
  [.unpl r1 r0 r2,
   .unph r1 r0 r3]

/-- Macro `shuffle2` (shuffle.inc:11-18). -/
def shuffle2 (r0 r1 r2 r3 : Nat) : List Instr :=
  [.sldup r1 r2,
   .blendd 170 r2 r0 r2,
   .srlq32 r0 r0,
   .blendd 170 r1 r0 r3]

/-- Macro `butterfly` (ntt.S:4-26). -/
def ntt_butterfly (l h zl0 zl1 zh0 zh1 : Nat) : List Instr :=
  [.muldq zl0 h 13,
   .shdup h 12,
   .muldq zl1 12 14,
   .muldq zh0 h h,
   .muldq zh1 12 12,
   .muldq 0 13 13,
   .muldq 0 14 14,
   .shdup h h,
   .blendd 170 12 h h,
   .subd h l 12,
   .addd h l l,
   .shdup 13 13,
   .blendd 170 14 13 13,
   .addd 13 12 h,
   .subd 13 l l]

/-- Macro `levels0t1` (ntt.S:28-66). -/
def ntt_levels0t1 (rdi rsi off : Nat) : List Instr :=
  [.bcast (rsi + (32 + 1)) 1,
   .bcast (rsi + (328 + 1)) 2,
   .load (rdi + ((0 + 32 * off) / 4)) 4,
   .load (rdi + ((128 + 32 * off) / 4)) 5,
   .load (rdi + ((256 + 32 * off) / 4)) 6,
   .load (rdi + ((384 + 32 * off) / 4)) 7,
   .load (rdi + ((512 + 32 * off) / 4)) 8,
   .load (rdi + ((640 + 32 * off) / 4)) 9,
   .load (rdi + ((768 + 32 * off) / 4)) 10,
   .load (rdi + ((896 + 32 * off) / 4)) 11] ++
  ntt_butterfly 4 8 1 1 2 2 ++
  ntt_butterfly 5 9 1 1 2 2 ++
  ntt_butterfly 6 10 1 1 2 2 ++
  ntt_butterfly 7 11 1 1 2 2 ++
  [.bcast (rsi + (32 + 2)) 1,
   .bcast (rsi + (328 + 2)) 2] ++
  ntt_butterfly 4 6 1 1 2 2 ++
  ntt_butterfly 5 7 1 1 2 2 ++
  [.bcast (rsi + (32 + 3)) 1,
   .bcast (rsi + (328 + 3)) 2] ++
  ntt_butterfly 8 10 1 1 2 2 ++
  ntt_butterfly 9 11 1 1 2 2 ++
  [.store 4 (rdi + ((0 + 32 * off) / 4)),
   .store 5 (rdi + ((128 + 32 * off) / 4)),
   .store 6 (rdi + ((256 + 32 * off) / 4)),
   .store 7 (rdi + ((384 + 32 * off) / 4)),
   .store 8 (rdi + ((512 + 32 * off) / 4)),
   .store 9 (rdi + ((640 + 32 * off) / 4)),
   .store 10 (rdi + ((768 + 32 * off) / 4)),
   .store 11 (rdi + ((896 + 32 * off) / 4))]

/-- Macro `levels2t7` (ntt.S:68-179). -/
def ntt_levels2t7 (rdi rsi off : Nat) : List Instr :=
  [.load (rdi + ((256 * off + 0) / 4)) 4,
   .load (rdi + ((256 * off + 32) / 4)) 5,
   .load (rdi + ((256 * off + 64) / 4)) 6,
   .load (rdi + ((256 * off + 96) / 4)) 7,
   .load (rdi + ((256 * off + 128) / 4)) 8,
   .load (rdi + ((256 * off + 160) / 4)) 9,
   .load (rdi + ((256 * off + 192) / 4)) 10,
   .load (rdi + ((256 * off + 224) / 4)) 11,
   .bcast (rsi + (32 + 4 + off)) 1,
   .bcast (rsi + (328 + 4 + off)) 2] ++
  ntt_butterfly 4 8 1 1 2 2 ++
  ntt_butterfly 5 9 1 1 2 2 ++
  ntt_butterfly 6 10 1 1 2 2 ++
  ntt_butterfly 7 11 1 1 2 2 ++
  shuffle8 4 8 3 8 ++
  shuffle8 5 9 4 9 ++
  shuffle8 6 10 5 10 ++
  shuffle8 7 11 6 11 ++
  [.load (rsi + (32 + 8 + 8 * off)) 1,
   .load (rsi + (328 + 8 + 8 * off)) 2] ++
  ntt_butterfly 3 5 1 1 2 2 ++
  ntt_butterfly 8 10 1 1 2 2 ++
  ntt_butterfly 4 6 1 1 2 2 ++
  ntt_butterfly 9 11 1 1 2 2 ++
  shuffle4 3 5 7 5 ++
  shuffle4 8 10 3 10 ++
  shuffle4 4 6 8 6 ++
  shuffle4 9 11 4 11 ++
  [.load (rsi + (32 + 40 + 8 * off)) 1,
   .load (rsi + (328 + 40 + 8 * off)) 2] ++
  ntt_butterfly 7 8 1 1 2 2 ++
  ntt_butterfly 5 6 1 1 2 2 ++
  ntt_butterfly 3 4 1 1 2 2 ++
  ntt_butterfly 10 11 1 1 2 2 ++
  shuffle2 7 8 9 8 ++
  shuffle2 5 6 7 6 ++
  shuffle2 3 4 5 4 ++
  shuffle2 10 11 3 11 ++
  [.load (rsi + (32 + 72 + 8 * off)) 1,
   .load (rsi + (328 + 72 + 8 * off)) 2,
   .srlq32 1 10,
   .shdup 2 15] ++
  ntt_butterfly 9 5 1 10 2 15 ++
  ntt_butterfly 8 4 1 10 2 15 ++
  ntt_butterfly 7 3 1 10 2 15 ++
  ntt_butterfly 6 11 1 10 2 15 ++
  [.load (rsi + (32 + 104 + 8 * off)) 1,
   .load (rsi + (328 + 104 + 8 * off)) 2,
   .srlq32 1 10,
   .shdup 2 15] ++
  ntt_butterfly 9 7 1 10 2 15 ++
  ntt_butterfly 8 6 1 10 2 15 ++
  [.load (rsi + (32 + 104 + 8 * off + 32)) 1,
   .load (rsi + (328 + 104 + 8 * off + 32)) 2,
   .srlq32 1 10,
   .shdup 2 15] ++
  ntt_butterfly 5 3 1 10 2 15 ++
  ntt_butterfly 4 11 1 10 2 15 ++
  [.load (rsi + (32 + 168 + 8 * off)) 1,
   .load (rsi + (328 + 168 + 8 * off)) 2,
   .srlq32 1 10,
   .shdup 2 15] ++
  ntt_butterfly 9 8 1 10 2 15 ++
  [.load (rsi + (32 + 168 + 8 * off + 32)) 1,
   .load (rsi + (328 + 168 + 8 * off + 32)) 2,
   .srlq32 1 10,
   .shdup 2 15] ++
  ntt_butterfly 7 6 1 10 2 15 ++
  [.load (rsi + (32 + 168 + 8 * off + 64)) 1,
   .load (rsi + (328 + 168 + 8 * off + 64)) 2,
   .srlq32 1 10,
   .shdup 2 15] ++
  ntt_butterfly 5 4 1 10 2 15 ++
  [.load (rsi + (32 + 168 + 8 * off + 96)) 1,
   .load (rsi + (328 + 168 + 8 * off + 96)) 2,
   .srlq32 1 10,
   .shdup 2 15] ++
  ntt_butterfly 3 11 1 10 2 15 ++
  [.store 9 (rdi + ((256 * off + 0) / 4)),
   .store 8 (rdi + ((256 * off + 32) / 4)),
   .store 7 (rdi + ((256 * off + 64) / 4)),
   .store 6 (rdi + ((256 * off + 96) / 4)),
   .store 5 (rdi + ((256 * off + 128) / 4)),
   .store 4 (rdi + ((256 * off + 160) / 4)),
   .store 3 (rdi + ((256 * off + 192) / 4)),
   .store 11 (rdi + ((256 * off + 224) / 4))]

/-- `ntt_avx` (ntt.S:184-198). -/
def nttAvx (rdi rsi : Nat) : List Instr :=
  [.load (rsi + (0)) 0] ++
  ntt_levels0t1 rdi rsi 0 ++
  ntt_levels0t1 rdi rsi 1 ++
  ntt_levels0t1 rdi rsi 2 ++
  ntt_levels0t1 rdi rsi 3 ++
  ntt_levels2t7 rdi rsi 0 ++
  ntt_levels2t7 rdi rsi 1 ++
  ntt_levels2t7 rdi rsi 2 ++
  ntt_levels2t7 rdi rsi 3

/-- Macro `butterfly` (invntt.S:4-23). -/
def inv_butterfly (l h zl0 zl1 zh0 zh1 : Nat) : List Instr :=
  [.subd l h 12,
   .addd h l l,
   .muldq zl0 12 13,
   .shdup 12 h,
   .muldq zl1 h 14,
   .muldq zh0 12 12,
   .muldq zh1 h h,
   .muldq 0 13 13,
   .muldq 0 14 14,
   .subd 13 12 12,
   .subd 14 h h,
   .shdup 12 12,
   .blendd 170 h 12 h]

/-- Macro `levels0t5` (invntt.S:25-132). -/
def inv_levels0t5 (rdi rsi off : Nat) : List Instr :=
  [.load (rdi + ((256 * off + 0) / 4)) 4,
   .load (rdi + ((256 * off + 32) / 4)) 5,
   .load (rdi + ((256 * off + 64) / 4)) 6,
   .load (rdi + ((256 * off + 96) / 4)) 7,
   .load (rdi + ((256 * off + 128) / 4)) 8,
   .load (rdi + ((256 * off + 160) / 4)) 9,
   .load (rdi + ((256 * off + 192) / 4)) 10,
   .load (rdi + ((256 * off + 224) / 4)) 11,
   .permqm 27 (rsi + (32 + 296 - 8 * off - 8)) 3,
   .permqm 27 (rsi + (328 + 296 - 8 * off - 8)) 15,
   .shdup 3 1,
   .shdup 15 2] ++
  inv_butterfly 4 5 1 3 2 15 ++
  [.permqm 27 (rsi + (32 + 296 - 8 * off - 40)) 3,
   .permqm 27 (rsi + (328 + 296 - 8 * off - 40)) 15,
   .shdup 3 1,
   .shdup 15 2] ++
  inv_butterfly 6 7 1 3 2 15 ++
  [.permqm 27 (rsi + (32 + 296 - 8 * off - 72)) 3,
   .permqm 27 (rsi + (328 + 296 - 8 * off - 72)) 15,
   .shdup 3 1,
   .shdup 15 2] ++
  inv_butterfly 8 9 1 3 2 15 ++
  [.permqm 27 (rsi + (32 + 296 - 8 * off - 104)) 3,
   .permqm 27 (rsi + (328 + 296 - 8 * off - 104)) 15,
   .shdup 3 1,
   .shdup 15 2] ++
  inv_butterfly 10 11 1 3 2 15 ++
  [.permqm 27 (rsi + (32 + 168 - 8 * off - 8)) 3,
   .permqm 27 (rsi + (328 + 168 - 8 * off - 8)) 15,
   .shdup 3 1,
   .shdup 15 2] ++
  inv_butterfly 4 6 1 3 2 15 ++
  inv_butterfly 5 7 1 3 2 15 ++
  [.permqm 27 (rsi + (32 + 168 - 8 * off - 40)) 3,
   .permqm 27 (rsi + (328 + 168 - 8 * off - 40)) 15,
   .shdup 3 1,
   .shdup 15 2] ++
  inv_butterfly 8 10 1 3 2 15 ++
  inv_butterfly 9 11 1 3 2 15 ++
  [.permqm 27 (rsi + (32 + 104 - 8 * off - 8)) 3,
   .permqm 27 (rsi + (328 + 104 - 8 * off - 8)) 15,
   .shdup 3 1,
   .shdup 15 2] ++
  inv_butterfly 4 8 1 3 2 15 ++
  inv_butterfly 5 9 1 3 2 15 ++
  inv_butterfly 6 10 1 3 2 15 ++
  inv_butterfly 7 11 1 3 2 15 ++
  shuffle2 4 5 3 5 ++
  shuffle2 6 7 4 7 ++
  shuffle2 8 9 6 9 ++
  shuffle2 10 11 8 11 ++
  [.permqm 27 (rsi + (32 + 72 - 8 * off - 8)) 1,
   .permqm 27 (rsi + (328 + 72 - 8 * off - 8)) 2] ++
  inv_butterfly 3 5 1 1 2 2 ++
  inv_butterfly 4 7 1 1 2 2 ++
  inv_butterfly 6 9 1 1 2 2 ++
  inv_butterfly 8 11 1 1 2 2 ++
  shuffle4 3 4 10 4 ++
  shuffle4 6 8 3 8 ++
  shuffle4 5 7 6 7 ++
  shuffle4 9 11 5 11 ++
  [.permqm 27 (rsi + (32 + 40 - 8 * off - 8)) 1,
   .permqm 27 (rsi + (328 + 40 - 8 * off - 8)) 2] ++
  inv_butterfly 10 4 1 1 2 2 ++
  inv_butterfly 3 8 1 1 2 2 ++
  inv_butterfly 6 7 1 1 2 2 ++
  inv_butterfly 5 11 1 1 2 2 ++
  shuffle8 10 3 9 3 ++
  shuffle8 6 5 10 5 ++
  shuffle8 4 8 6 8 ++
  shuffle8 7 11 4 11 ++
  [.bcast (rsi + (32 + 7 - off)) 1,
   .bcast (rsi + (328 + 7 - off)) 2] ++
  inv_butterfly 9 3 1 1 2 2 ++
  inv_butterfly 10 5 1 1 2 2 ++
  inv_butterfly 6 8 1 1 2 2 ++
  inv_butterfly 4 11 1 1 2 2 ++
  [.store 9 (rdi + ((256 * off + 0) / 4)),
   .store 10 (rdi + ((256 * off + 32) / 4)),
   .store 6 (rdi + ((256 * off + 64) / 4)),
   .store 4 (rdi + ((256 * off + 96) / 4)),
   .store 3 (rdi + ((256 * off + 128) / 4)),
   .store 5 (rdi + ((256 * off + 160) / 4)),
   .store 8 (rdi + ((256 * off + 192) / 4)),
   .store 11 (rdi + ((256 * off + 224) / 4))]

/-- Macro `levels6t7` (invntt.S:134-221). -/
def inv_levels6t7 (rdi rsi off : Nat) : List Instr :=
  [.load (rdi + ((0 + 32 * off) / 4)) 4,
   .load (rdi + ((128 + 32 * off) / 4)) 5,
   .load (rdi + ((256 + 32 * off) / 4)) 6,
   .load (rdi + ((384 + 32 * off) / 4)) 7,
   .load (rdi + ((512 + 32 * off) / 4)) 8,
   .load (rdi + ((640 + 32 * off) / 4)) 9,
   .load (rdi + ((768 + 32 * off) / 4)) 10,
   .load (rdi + ((896 + 32 * off) / 4)) 11,
   .bcast (rsi + (32 + 3)) 1,
   .bcast (rsi + (328 + 3)) 2] ++
  inv_butterfly 4 6 1 1 2 2 ++
  inv_butterfly 5 7 1 1 2 2 ++
  [.bcast (rsi + (32 + 2)) 1,
   .bcast (rsi + (328 + 2)) 2] ++
  inv_butterfly 8 10 1 1 2 2 ++
  inv_butterfly 9 11 1 1 2 2 ++
  [.bcast (rsi + (32 + 0)) 1,
   .bcast (rsi + (328 + 0)) 2] ++
  inv_butterfly 4 8 1 1 2 2 ++
  inv_butterfly 5 9 1 1 2 2 ++
  inv_butterfly 6 10 1 1 2 2 ++
  inv_butterfly 7 11 1 1 2 2 ++
  [.store 8 (rdi + ((512 + 32 * off) / 4)),
   .store 9 (rdi + ((640 + 32 * off) / 4)),
   .store 10 (rdi + ((768 + 32 * off) / 4)),
   .store 11 (rdi + ((896 + 32 * off) / 4)),
   .load (rsi + (16)) 1,
   .load (rsi + (24)) 2,
   .muldq 1 4 12,
   .muldq 1 5 13,
   .shdup 4 8,
   .shdup 5 9,
   .muldq 1 8 14,
   .muldq 1 9 15,
   .muldq 2 4 4,
   .muldq 2 5 5,
   .muldq 2 8 8,
   .muldq 2 9 9,
   .muldq 0 12 12,
   .muldq 0 13 13,
   .muldq 0 14 14,
   .muldq 0 15 15,
   .subd 12 4 4,
   .subd 13 5 5,
   .subd 14 8 8,
   .subd 15 9 9,
   .shdup 4 4,
   .shdup 5 5,
   .blendd 170 8 4 4,
   .blendd 170 9 5 5,
   .muldq 1 6 12,
   .muldq 1 7 13,
   .shdup 6 8,
   .shdup 7 9,
   .muldq 1 8 14,
   .muldq 1 9 15,
   .muldq 2 6 6,
   .muldq 2 7 7,
   .muldq 2 8 8,
   .muldq 2 9 9,
   .muldq 0 12 12,
   .muldq 0 13 13,
   .muldq 0 14 14,
   .muldq 0 15 15,
   .subd 12 6 6,
   .subd 13 7 7,
   .subd 14 8 8,
   .subd 15 9 9,
   .shdup 6 6,
   .shdup 7 7,
   .blendd 170 8 6 6,
   .blendd 170 9 7 7,
   .store 4 (rdi + ((0 + 32 * off) / 4)),
   .store 5 (rdi + ((128 + 32 * off) / 4)),
   .store 6 (rdi + ((256 + 32 * off) / 4)),
   .store 7 (rdi + ((384 + 32 * off) / 4))]

/-- `invntt_avx` (invntt.S:226-240). -/
def invnttAvx (rdi rsi : Nat) : List Instr :=
  [.load (rsi + (0)) 0] ++
  inv_levels0t5 rdi rsi 0 ++
  inv_levels0t5 rdi rsi 1 ++
  inv_levels0t5 rdi rsi 2 ++
  inv_levels0t5 rdi rsi 3 ++
  inv_levels6t7 rdi rsi 0 ++
  inv_levels6t7 rdi rsi 1 ++
  inv_levels6t7 rdi rsi 2 ++
  inv_levels6t7 rdi rsi 3

/-- `nttunpack128_avx` (shuffle.S:5-42). -/
def nttunpack128 (rdi : Nat) : List Instr :=
  [.load (rdi + (0)) 4,
   .load (rdi + (8)) 5,
   .load (rdi + (16)) 6,
   .load (rdi + (24)) 7,
   .load (rdi + (32)) 8,
   .load (rdi + (40)) 9,
   .load (rdi + (48)) 10,
   .load (rdi + (56)) 11] ++
  shuffle8 4 8 3 8 ++
  shuffle8 5 9 4 9 ++
  shuffle8 6 10 5 10 ++
  shuffle8 7 11 6 11 ++
  shuffle4 3 5 7 5 ++
  shuffle4 8 10 3 10 ++
  shuffle4 4 6 8 6 ++
  shuffle4 9 11 4 11 ++
  shuffle2 7 8 9 8 ++
  shuffle2 5 6 7 6 ++
  shuffle2 3 4 5 4 ++
  shuffle2 10 11 3 11 ++
  [.store 9 (rdi + (0)),
   .store 8 (rdi + (8)),
   .store 7 (rdi + (16)),
   .store 6 (rdi + (24)),
   .store 5 (rdi + (32)),
   .store 4 (rdi + (40)),
   .store 3 (rdi + (48)),
   .store 11 (rdi + (56))]

/-- `nttunpack_avx` (shuffle.S:45-54): four calls, `rdi` advanced by 256 bytes. -/
def nttunpackAvx (rdi : Nat) : List Instr :=
  nttunpack128 rdi ++ nttunpack128 (rdi + 64) ++ nttunpack128 (rdi + 128) ++ nttunpack128 (rdi + 192)

/-- Constants of `pointwise_avx` (pointwise.S:10-11). -/
def pwConsts (rcx : Nat) : List Instr :=
  [.load (rcx + (8)) 0,
   .load (rcx + (0)) 1]

/-- Loop body of `pointwise_avx` (pointwise.S:15-67): three vectors. -/
def pwBody (rdi rsi rdx : Nat) : List Instr :=
  [.load (rsi + (0)) 2,
   .load (rsi + (8)) 4,
   .load (rsi + (16)) 6,
   .load (rdx + (0)) 10,
   .load (rdx + (8)) 12,
   .load (rdx + (16)) 14,
   .srlq32 2 3,
   .srlq32 4 5,
   .shdup 6 7,
   .srlq32 10 11,
   .srlq32 12 13,
   .shdup 14 15,
   .muldq 2 10 2,
   .muldq 3 11 3,
   .muldq 4 12 4,
   .muldq 5 13 5,
   .muldq 6 14 6,
   .muldq 7 15 7,
   .muldq 0 2 10,
   .muldq 0 3 11,
   .muldq 0 4 12,
   .muldq 0 5 13,
   .muldq 0 6 14,
   .muldq 0 7 15,
   .muldq 1 10 10,
   .muldq 1 11 11,
   .muldq 1 12 12,
   .muldq 1 13 13,
   .muldq 1 14 14,
   .muldq 1 15 15,
   .subq 10 2 2,
   .subq 11 3 3,
   .subq 12 4 4,
   .subq 13 5 5,
   .subq 14 6 6,
   .subq 15 7 7,
   .srlq32 2 2,
   .srlq32 4 4,
   .shdup 6 6,
   .blendd 170 3 2 2,
   .blendd 170 5 4 4,
   .blendd 170 7 6 6,
   .store 2 (rdi + (0)),
   .store 4 (rdi + (8)),
   .store 6 (rdi + (16))]

/-- The last two vectors of `pointwise_avx` (pointwise.S:74-111). -/
def pwTail (rdi rsi rdx : Nat) : List Instr :=
  [.load (rsi + (0)) 2,
   .load (rsi + (8)) 4,
   .load (rdx + (0)) 10,
   .load (rdx + (8)) 12,
   .srlq32 2 3,
   .srlq32 4 5,
   .shdup 10 11,
   .shdup 12 13,
   .muldq 2 10 2,
   .muldq 3 11 3,
   .muldq 4 12 4,
   .muldq 5 13 5,
   .muldq 0 2 10,
   .muldq 0 3 11,
   .muldq 0 4 12,
   .muldq 0 5 13,
   .muldq 1 10 10,
   .muldq 1 11 11,
   .muldq 1 12 12,
   .muldq 1 13 13,
   .subq 10 2 2,
   .subq 11 3 3,
   .subq 12 4 4,
   .subq 13 5 5,
   .srlq32 2 2,
   .shdup 4 4,
   .blendd 85 2 3 2,
   .blendd 85 4 5 4,
   .store 2 (rdi + (0)),
   .store 4 (rdi + (8))]

/-- `pointwise_avx` (pointwise.S:5-112): ten iterations, pointers advanced by 96 bytes each. -/
def pointwiseAvx (rdi rsi rdx rcx : Nat) : List Instr :=
  pwConsts rcx ++ (List.range 10).flatMap (fun i => pwBody (rdi + 24 * i) (rsi + 24 * i) (rdx + 24 * i)) ++ pwTail (rdi + 240) (rsi + 240) (rdx + 240)

/-- Macro `pointwise` (pointwise.S:114-130). -/
def pwa_pointwise (rsi rdx off : Nat) : List Instr :=
  [.load (rsi + ((off) / 4)) 6,
   .load (rsi + ((off + 32) / 4)) 8,
   .load (rdx + ((off) / 4)) 10,
   .load (rdx + ((off + 32) / 4)) 12,
   .srlq32 6 7,
   .srlq32 8 9,
   .shdup 10 11,
   .shdup 12 13,
   .muldq 6 10 6,
   .muldq 7 11 7,
   .muldq 8 12 8,
   .muldq 9 13 9]

/-- Macro `acc` (pointwise.S:132-137). -/
def pwa_acc : List Instr :=
  [.addq 6 2 2,
   .addq 7 3 3,
   .addq 8 4 4,
   .addq 9 5 5]

/-- Loop body of `pointwise_acc_avx` (pointwise.S:149-191): two vectors. -/
def pwaBody (rdi rsi rdx : Nat) : List Instr :=
  pwa_pointwise rsi rdx 0 ++
  [.mov 6 2,
   .mov 7 3,
   .mov 8 4,
   .mov 9 5] ++
  pwa_pointwise rsi rdx 1024 ++
  pwa_acc  ++
  pwa_pointwise rsi rdx 2048 ++
  pwa_acc  ++
  pwa_pointwise rsi rdx 3072 ++
  pwa_acc  ++
  [.muldq 0 2 6,
   .muldq 0 3 7,
   .muldq 0 4 8,
   .muldq 0 5 9,
   .muldq 1 6 6,
   .muldq 1 7 7,
   .muldq 1 8 8,
   .muldq 1 9 9,
   .subq 6 2 2,
   .subq 7 3 3,
   .subq 8 4 4,
   .subq 9 5 5,
   .srlq32 2 2,
   .shdup 4 4,
   .blendd 170 3 2 2,
   .blendd 170 5 4 4,
   .store 2 (rdi + (0)),
   .store 4 (rdi + (8))]

/-- `pointwise_acc_avx` (pointwise.S:139-199): sixteen iterations, pointers advanced by 64 bytes each. -/
def pointwiseAccAvx (rdi rsi rdx rcx : Nat) : List Instr :=
  pwConsts rcx ++ (List.range 16).flatMap fun i => pwaBody (rdi + 16 * i) (rsi + 16 * i) (rdx + 16 * i)

/-- `qdata` (consts.c:10-101). -/
def qdata : List Int :=
  [8380417, 8380417, 8380417, 8380417, 8380417, 8380417, 8380417, 8380417,
   58728449, 58728449, 58728449, 58728449, 58728449, 58728449, 58728449, 58728449,
   -8395782, -8395782, -8395782, -8395782, -8395782, -8395782, -8395782, -8395782,
   41978, 41978, 41978, 41978, 41978, 41978, 41978, 41978,
   -151046689, 1830765815, -1929875198, -1927777021, 1640767044, 1477910808, 1612161320, 1640734244,
   308362795, 308362795, 308362795, 308362795, -1815525077, -1815525077, -1815525077, -1815525077,
   -1374673747, -1374673747, -1374673747, -1374673747, -1091570561, -1091570561, -1091570561, -1091570561,
   -1929495947, -1929495947, -1929495947, -1929495947, 515185417, 515185417, 515185417, 515185417,
   -285697463, -285697463, -285697463, -285697463, 625853735, 625853735, 625853735, 625853735,
   1727305304, 1727305304, 2082316400, 2082316400, -1364982364, -1364982364, 858240904, 858240904,
   1806278032, 1806278032, 222489248, 222489248, -346752664, -346752664, 684667771, 684667771,
   1654287830, 1654287830, -878576921, -878576921, -1257667337, -1257667337, -748618600, -748618600,
   329347125, 329347125, 1837364258, 1837364258, -1443016191, -1443016191, -1170414139, -1170414139,
   -1846138265, -1631226336, -1404529459, 1838055109, 1594295555, -1076973524, -1898723372, -594436433,
   -202001019, -475984260, -561427818, 1797021249, -1061813248, 2059733581, -1661512036, -1104976547,
   -1750224323, -901666090, 418987550, 1831915353, -1925356481, 992097815, 879957084, 2024403852,
   1484874664, -1636082790, -285388938, -1983539117, -1495136972, -950076368, -1714807468, -952438995,
   -1574918427, 1350681039, -2143979939, 1599739335, -1285853323, -993005454, -1440787840, 568627424,
   -783134478, -588790216, 289871779, -1262003603, 2135294594, -1018755525, -889861155, 1665705315,
   1321868265, 1225434135, -1784632064, 666258756, 675310538, -1555941048, -1999506068, -1499481951,
   -695180180, -1375177022, 1777179795, 334803717, -178766299, -518252220, 1957047970, 1146323031,
   -654783359, -1974159335, 1651689966, 140455867, -1039411342, 1955560694, 1529189038, -2131021878,
   -247357819, 1518161567, -86965173, 1708872713, 1787797779, 1638590967, -120646188, -1669960606,
   -916321552, 1155548552, 2143745726, 1210558298, -1261461890, -318346816, 628664287, -1729304568,
   1422575624, 1424130038, -1185330464, 235321234, 168022240, 1206536194, 985155484, -894060583,
   -898413, -1363460238, -605900043, 2027833504, 14253662, 1014493059, 863641633, 1819892093,
   2124962073, -1223601433, -1920467227, -1637785316, -1536588520, 694382729, 235104446, -1045062172,
   831969619, -300448763, 756955444, -260312805, 1554794072, 1339088280, -2040058690, -853476187,
   -2047270596, -1723816713, -1591599803, -440824168, 1119856484, 1544891539, 155290192, -973777462,
   991903578, 912367099, -44694137, 1176904444, -421552614, -818371958, 1747917558, -325927722,
   908452108, 1851023419, -1176751719, -1354528380, -72690498, -314284737, 985022747, 963438279,
   -1078959975, 604552167, -1021949428, 608791570, 173440395, -2126092136, -1316619236, -1039370342,
   6087993, -110126092, 565464272, -1758099917, -1600929361, 879867909, -1809756372, 400711272,
   1363007700, 30313375, -326425360, 1683520342, -517299994, 2027935492, -1372618620, 128353682,
   -1123881663, 137583815, -635454918, -642772911, 45766801, 671509323, -2070602178, 419615363,
   1216882040, -270590488, -1276805128, 371462360, -1357098057, -384158533, 827959816, -596344473,
   702390549, -279505433, -260424530, -71875110, -1208667171, -1499603926, 2036925262, -540420426,
   746144248, -1420958686, 2032221021, 1904936414, 1257750362, 1926727420, 1931587462, 1258381762,
   885133339, 1629985060, 1967222129, 6363718, -1287922800, 1136965286, 1779436847, 1116720494,
   1042326957, 1405999311, 713994583, 940195359, -1542497137, 2061661095, -883155599, 1726753853,
   -1547952704, 394851342, 283780712, 776003547, 1123958025, 201262505, 1934038751, 374860238,
   -3975713, 25847, -2608894, -518909, 237124, -777960, -876248, 466468,
   1826347, 1826347, 1826347, 1826347, 2353451, 2353451, 2353451, 2353451,
   -359251, -359251, -359251, -359251, -2091905, -2091905, -2091905, -2091905,
   3119733, 3119733, 3119733, 3119733, -2884855, -2884855, -2884855, -2884855,
   3111497, 3111497, 3111497, 3111497, 2680103, 2680103, 2680103, 2680103,
   2725464, 2725464, 1024112, 1024112, -1079900, -1079900, 3585928, 3585928,
   -549488, -549488, -1119584, -1119584, 2619752, 2619752, -2108549, -2108549,
   -2118186, -2118186, -3859737, -3859737, -1399561, -1399561, -3277672, -3277672,
   1757237, 1757237, -19422, -19422, 4010497, 4010497, 280005, 280005,
   2706023, 95776, 3077325, 3530437, -1661693, -3592148, -2537516, 3915439,
   -3861115, -3043716, 3574422, -2867647, 3539968, -300467, 2348700, -539299,
   -1699267, -1643818, 3505694, -3821735, 3507263, -2140649, -1600420, 3699596,
   811944, 531354, 954230, 3881043, 3900724, -2556880, 2071892, -2797779,
   -3930395, -3677745, -1452451, 2176455, -1257611, -4083598, -3190144, -3632928,
   3412210, 2147896, -2967645, -411027, -671102, -22981, -381987, 1852771,
   -3343383, 508951, 44288, 904516, -3724342, 1653064, 2389356, 759969,
   189548, 3159746, -2409325, 1315589, 1285669, -812732, -3019102, -3628969,
   -1528703, -3041255, 3475950, -1585221, 1939314, -1000202, -3157330, 126922,
   -983419, 2715295, -3693493, -2477047, -1228525, -1308169, 1349076, -1430430,
   264944, 3097992, -1100098, 3958618, -8578, -3249728, -210977, -1316856,
   -3553272, -1851402, -177440, 1341330, -1584928, -1439742, -3881060, 3839961,
   2091667, -3342478, 266997, -3520352, 900702, 495491, -655327, -3556995,
   342297, 3437287, 2842341, 4055324, -3767016, -2994039, -1333058, -451100,
   -1279661, 1500165, -542412, -2584293, -2013608, 1957272, -3183426, 810149,
   -3038916, 2213111, -426683, -1667432, -2939036, 183443, -554416, 3937738,
   3407706, 2244091, 2434439, -3759364, 1859098, -1613174, -3122442, -525098,
   286988, -3342277, 2691481, 1247620, 1250494, 1869119, 1237275, 1312455,
   1917081, 777191, -2831860, -3724270, 2432395, 3369112, 162844, 1652634,
   3523897, -975884, 1723600, -1104333, -2235985, -976891, 3919660, 1400424,
   2316500, -2446433, -1235728, -1197226, 909542, -43260, 2031748, -768622,
   -2437823, 1735879, -2590150, 2486353, 2635921, 1903435, -3318210, 3306115,
   -2546312, 2235880, -1671176, 594136, 2454455, 185531, 1616392, -3694233,
   3866901, 1717735, -1803090, -260646, -420899, 1612842, -48306, -846154,
   3817976, -3562462, 3513181, -3193378, 819034, -522500, 3207046, -3595838,
   4108315, 203044, 1265009, 1595974, -3548272, -1050970, -1430225, -1962642,
   -1374803, 3406031, -1846953, -3776993, -164721, -1207385, 3014001, -1799107,
   269760, 472078, 1910376, -3833893, -2286327, -3545687, -1362209, 1976782]

end Verif.Avx2
