import Verif.Neon.Simd

/-!
# The assembly of pqclean/crypto_sign/dilithium2/aarch64: __asm_NTT.S, __asm_iNTT.S, __asm_poly.S, macros.inc, macros_common.inc, ntt.h

Generated by tools/gen_neon_asm.py, macro by macro, one or more `Instr` per instruction (structure loads and stores are split into their registers or
rows, post-increments into `addx`).  `push_all`, `pop_all` (saving callee-saved registers on the stack) and the return are left out.
-/

namespace Verif.Neon

/-- Macro `wrap_qX_butterfly_top` (macros_common.inc:119-136). -/
def wrap_qX_butterfly_top (_a0 _a1 _a2 _a3 b0 b1 b2 b3 t0 t1 t2 t3 mod z0 l0 h0 z1 l1 h1 z2 l2 h2 z3 l3 h3 : Nat) : List Instr :=
  [.mul t0 b0 (.e z0 h0),
   .mul t1 b1 (.e z1 h1),
   .mul t2 b2 (.e z2 h2),
   .mul t3 b3 (.e z3 h3),
   .sqrdmulh b0 b0 (.e z0 l0),
   .sqrdmulh b1 b1 (.e z1 l1),
   .sqrdmulh b2 b2 (.e z2 l2),
   .sqrdmulh b3 b3 (.e z3 l3),
   .mls t0 b0 (.e mod 0),
   .mls t1 b1 (.e mod 0),
   .mls t2 b2 (.e mod 0),
   .mls t3 b3 (.e mod 0)]

/-- Macro `qq_butterfly_top` (macros.inc:88-90). -/
def qq_butterfly_top (a0 a1 a2 a3 b0 b1 b2 b3 t0 t1 t2 t3 mod z0 l0 h0 z1 l1 h1 z2 l2 h2 z3 l3 h3 : Nat) : List Instr :=
  wrap_qX_butterfly_top a0 a1 a2 a3 b0 b1 b2 b3 t0 t1 t2 t3 mod z0 l0 h0 z1 l1 h1 z2 l2 h2 z3 l3 h3

/-- Macro `wrap_qX_butterfly_mixed` (macros_common.inc:152-177). -/
def wrap_qX_butterfly_mixed (a0 a1 a2 a3 b0 b1 b2 b3 t0 t1 t2 t3 _a4 _a5 _a6 _a7 b4 b5 b6 b7 t4 t5 t6 t7 mod _z0 _l0 _h0 _z1 _l1 _h1 _z2 _l2 _h2 _z3 _l3 _h3 z4 l4 h4 z5 l5 h5 z6 l6 h6 z7 l7 h7 : Nat) : List Instr :=
  [.sub b0 a0 t0,
   .mul t4 b4 (.e z4 h4),
   .sub b1 a1 t1,
   .mul t5 b5 (.e z5 h5),
   .sub b2 a2 t2,
   .mul t6 b6 (.e z6 h6),
   .sub b3 a3 t3,
   .mul t7 b7 (.e z7 h7),
   .add a0 a0 t0,
   .sqrdmulh b4 b4 (.e z4 l4),
   .add a1 a1 t1,
   .sqrdmulh b5 b5 (.e z5 l5),
   .add a2 a2 t2,
   .sqrdmulh b6 b6 (.e z6 l6),
   .add a3 a3 t3,
   .sqrdmulh b7 b7 (.e z7 l7),
   .mls t4 b4 (.e mod 0),
   .mls t5 b5 (.e mod 0),
   .mls t6 b6 (.e mod 0),
   .mls t7 b7 (.e mod 0)]

/-- Macro `qq_butterfly_mixed` (macros.inc:96-98). -/
def qq_butterfly_mixed (a0 a1 a2 a3 b0 b1 b2 b3 t0 t1 t2 t3 a4 a5 a6 a7 b4 b5 b6 b7 t4 t5 t6 t7 mod z0 l0 h0 z1 l1 h1 z2 l2 h2 z3 l3 h3 z4 l4 h4 z5 l5 h5 z6 l6 h6 z7 l7 h7 : Nat) : List Instr :=
  wrap_qX_butterfly_mixed a0 a1 a2 a3 b0 b1 b2 b3 t0 t1 t2 t3 a4 a5 a6 a7 b4 b5 b6 b7 t4 t5 t6 t7 mod z0 l0 h0 z1 l1 h1 z2 l2 h2 z3 l3 h3 z4 l4 h4 z5 l5 h5 z6 l6 h6 z7 l7 h7

/-- Macro `wrap_qX_butterfly_bot` (macros_common.inc:138-150). -/
def wrap_qX_butterfly_bot (a0 a1 a2 a3 b0 b1 b2 b3 t0 t1 t2 t3 _mod _z0 _l0 _h0 _z1 _l1 _h1 _z2 _l2 _h2 _z3 _l3 _h3 : Nat) : List Instr :=
  [.sub b0 a0 t0,
   .sub b1 a1 t1,
   .sub b2 a2 t2,
   .sub b3 a3 t3,
   .add a0 a0 t0,
   .add a1 a1 t1,
   .add a2 a2 t2,
   .add a3 a3 t3]

/-- Macro `qq_butterfly_bot` (macros.inc:92-94). -/
def qq_butterfly_bot (a0 a1 a2 a3 b0 b1 b2 b3 t0 t1 t2 t3 mod z0 l0 h0 z1 l1 h1 z2 l2 h2 z3 l3 h3 : Nat) : List Instr :=
  wrap_qX_butterfly_bot a0 a1 a2 a3 b0 b1 b2 b3 t0 t1 t2 t3 mod z0 l0 h0 z1 l1 h1 z2 l2 h2 z3 l3 h3

/-- The loop body of `asm_ntt_SIMD_top` (__asm_NTT.S:33-165). -/
def nttTop_body : List Instr :=
  [.st 1 1 0,
   .addx 1 1 4,
   .ldn 1 0 1 1,
   .st 3 3 0,
   .addx 3 3 4,
   .ldn 1 0 3 3,
   .st 5 5 0,
   .addx 5 5 4,
   .ldn 1 0 5 5,
   .st 7 7 0,
   .addx 7 7 4,
   .ldn 1 0 7 7,
   .st 9 9 0,
   .addx 9 9 4,
   .ldn 1 0 9 9,
   .st 11 11 0,
   .addx 11 11 4,
   .ldn 1 0 11 11,
   .st 13 13 0,
   .addx 13 13 4,
   .ldn 1 0 13 13,
   .st 15 15 0,
   .addx 15 15 4,
   .ldn 1 0 15 15,
   .st 0 0 0,
   .addx 0 0 4,
   .ldn 1 0 0 0,
   .st 2 2 0,
   .addx 2 2 4,
   .ldn 1 0 2 2,
   .st 4 4 0,
   .addx 4 4 4,
   .ldn 1 0 4 4,
   .st 6 6 0,
   .addx 6 6 4,
   .ldn 1 0 6 6,
   .st 8 8 0,
   .addx 8 8 4,
   .ldn 1 0 8 8,
   .st 10 10 0,
   .addx 10 10 4,
   .ldn 1 0 10 10,
   .st 12 12 0,
   .addx 12 12 4,
   .ldn 1 0 12 12,
   .st 14 14 0,
   .addx 14 14 4,
   .ldn 1 0 14 14] ++
  qq_butterfly_top 1 3 5 7 9 11 13 15 16 17 18 19 20 20 2 3 20 2 3 20 2 3 20 2 3 ++
  qq_butterfly_mixed 1 3 5 7 9 11 13 15 16 17 18 19 0 2 4 6 8 10 12 14 28 29 30 31 20 20 2 3 20 2 3 20 2 3 20 2 3 20 2 3 20 2 3 20 2 3 20 2 3 ++
  qq_butterfly_mixed 0 2 4 6 8 10 12 14 28 29 30 31 1 3 9 11 5 7 13 15 16 17 18 19 20 20 2 3 20 2 3 20 2 3 20 2 3 21 0 1 21 0 1 21 2 3 21 2 3 ++
  qq_butterfly_mixed 1 3 9 11 5 7 13 15 16 17 18 19 0 2 8 10 4 6 12 14 28 29 30 31 20 21 0 1 21 0 1 21 2 3 21 2 3 21 0 1 21 0 1 21 2 3 21 2 3 ++
  qq_butterfly_mixed 0 2 8 10 4 6 12 14 28 29 30 31 1 5 9 13 3 7 11 15 16 17 18 19 20 21 0 1 21 0 1 21 2 3 21 2 3 22 0 1 22 2 3 23 0 1 23 2 3 ++
  qq_butterfly_mixed 1 5 9 13 3 7 11 15 16 17 18 19 0 4 8 12 2 6 10 14 28 29 30 31 20 22 0 1 22 2 3 23 0 1 23 2 3 22 0 1 22 2 3 23 0 1 23 2 3 ++
  qq_butterfly_mixed 0 4 8 12 2 6 10 14 28 29 30 31 0 2 4 6 1 3 5 7 16 17 18 19 20 22 0 1 22 2 3 23 0 1 23 2 3 24 0 1 24 2 3 25 0 1 25 2 3 ++
  qq_butterfly_mixed 0 2 4 6 1 3 5 7 16 17 18 19 8 10 12 14 9 11 13 15 28 29 30 31 20 24 0 1 24 2 3 25 0 1 25 2 3 26 0 1 26 2 3 27 0 1 27 2 3 ++
  qq_butterfly_bot 8 10 12 14 9 11 13 15 28 29 30 31 20 26 0 1 26 2 3 27 0 1 27 2 3

/-- `asm_ntt_SIMD_top` (__asm_NTT.S:33-206). `x0` the polynomial, `x1` the table, `x2` the constants. -/
def nttTop : List Instr :=
  [.ldrw 20 2 0,
   .addx 28 1 0,
   .addx 1 0 16,
   .addx 2 0 32,
   .addx 3 0 48,
   .addx 4 0 64,
   .addx 5 0 80,
   .addx 6 0 96,
   .addx 7 0 112,
   .addx 8 0 128,
   .addx 9 0 144,
   .addx 10 0 160,
   .addx 11 0 176,
   .addx 12 0 192,
   .addx 13 0 208,
   .addx 14 0 224,
   .addx 15 0 240,
   .ldn 1 0 20 28,
   .ldn 1 4 21 28,
   .ldn 1 8 22 28,
   .ldn 1 12 23 28,
   .addx 28 28 16,
   .ldn 1 0 24 28,
   .ldn 1 4 25 28,
   .ldn 1 8 26 28,
   .ldn 1 12 27 28,
   .addx 28 28 16,
   .insS 20 0 20,
   .ldn 1 0 1 1,
   .ldn 1 0 3 3,
   .ldn 1 0 5 5,
   .ldn 1 0 7 7,
   .ldn 1 0 9 9,
   .ldn 1 0 11 11,
   .ldn 1 0 13 13,
   .ldn 1 0 15 15,
   .ldn 1 0 0 0,
   .ldn 1 0 2 2,
   .ldn 1 0 4 4,
   .ldn 1 0 6 6,
   .ldn 1 0 8 8,
   .ldn 1 0 10 10,
   .ldn 1 0 12 12,
   .ldn 1 0 14 14] ++
  qq_butterfly_top 1 3 5 7 9 11 13 15 16 17 18 19 20 20 2 3 20 2 3 20 2 3 20 2 3 ++
  qq_butterfly_mixed 1 3 5 7 9 11 13 15 16 17 18 19 0 2 4 6 8 10 12 14 28 29 30 31 20 20 2 3 20 2 3 20 2 3 20 2 3 20 2 3 20 2 3 20 2 3 20 2 3 ++
  qq_butterfly_mixed 0 2 4 6 8 10 12 14 28 29 30 31 1 3 9 11 5 7 13 15 16 17 18 19 20 20 2 3 20 2 3 20 2 3 20 2 3 21 0 1 21 0 1 21 2 3 21 2 3 ++
  qq_butterfly_mixed 1 3 9 11 5 7 13 15 16 17 18 19 0 2 8 10 4 6 12 14 28 29 30 31 20 21 0 1 21 0 1 21 2 3 21 2 3 21 0 1 21 0 1 21 2 3 21 2 3 ++
  qq_butterfly_mixed 0 2 8 10 4 6 12 14 28 29 30 31 1 5 9 13 3 7 11 15 16 17 18 19 20 21 0 1 21 0 1 21 2 3 21 2 3 22 0 1 22 2 3 23 0 1 23 2 3 ++
  qq_butterfly_mixed 1 5 9 13 3 7 11 15 16 17 18 19 0 4 8 12 2 6 10 14 28 29 30 31 20 22 0 1 22 2 3 23 0 1 23 2 3 22 0 1 22 2 3 23 0 1 23 2 3 ++
  qq_butterfly_mixed 0 4 8 12 2 6 10 14 28 29 30 31 0 2 4 6 1 3 5 7 16 17 18 19 20 22 0 1 22 2 3 23 0 1 23 2 3 24 0 1 24 2 3 25 0 1 25 2 3 ++
  qq_butterfly_mixed 0 2 4 6 1 3 5 7 16 17 18 19 8 10 12 14 9 11 13 15 28 29 30 31 20 24 0 1 24 2 3 25 0 1 25 2 3 26 0 1 26 2 3 27 0 1 27 2 3 ++
  qq_butterfly_bot 8 10 12 14 9 11 13 15 28 29 30 31 20 26 0 1 26 2 3 27 0 1 27 2 3 ++
  loop 3 nttTop_body ++
  [.st 1 1 0,
   .addx 1 1 4,
   .st 3 3 0,
   .addx 3 3 4,
   .st 5 5 0,
   .addx 5 5 4,
   .st 7 7 0,
   .addx 7 7 4,
   .st 9 9 0,
   .addx 9 9 4,
   .st 11 11 0,
   .addx 11 11 4,
   .st 13 13 0,
   .addx 13 13 4,
   .st 15 15 0,
   .addx 15 15 4,
   .st 0 0 0,
   .addx 0 0 4,
   .st 2 2 0,
   .addx 2 2 4,
   .st 4 4 0,
   .addx 4 4 4,
   .st 6 6 0,
   .addx 6 6 4,
   .st 8 8 0,
   .addx 8 8 4,
   .st 10 10 0,
   .addx 10 10 4,
   .st 12 12 0,
   .addx 12 12 4,
   .st 14 14 0,
   .addx 14 14 4]

/-- Macro `wrap_dX_butterfly_top` (macros_common.inc:62-73). -/
def wrap_dX_butterfly_top (_a0 _a1 b0 b1 t0 t1 mod z0 l0 h0 z1 l1 h1 : Nat) : List Instr :=
  [.mul t0 b0 (.e z0 h0),
   .mul t1 b1 (.e z1 h1),
   .sqrdmulh b0 b0 (.e z0 l0),
   .sqrdmulh b1 b1 (.e z1 l1),
   .mls t0 b0 (.e mod 0),
   .mls t1 b1 (.e mod 0)]

/-- Macro `dq_butterfly_top` (macros.inc:66-68). -/
def dq_butterfly_top (a0 a1 b0 b1 t0 t1 mod z0 l0 h0 z1 l1 h1 : Nat) : List Instr :=
  wrap_dX_butterfly_top a0 a1 b0 b1 t0 t1 mod z0 l0 h0 z1 l1 h1

/-- Macro `wrap_dX_butterfly_mixed` (macros_common.inc:85-100). -/
def wrap_dX_butterfly_mixed (a0 a1 b0 b1 t0 t1 _a2 _a3 b2 b3 t2 t3 mod _z0 _l0 _h0 _z1 _l1 _h1 z2 l2 h2 z3 l3 h3 : Nat) : List Instr :=
  [.sub b0 a0 t0,
   .mul t2 b2 (.e z2 h2),
   .sub b1 a1 t1,
   .mul t3 b3 (.e z3 h3),
   .add a0 a0 t0,
   .sqrdmulh b2 b2 (.e z2 l2),
   .add a1 a1 t1,
   .sqrdmulh b3 b3 (.e z3 l3),
   .mls t2 b2 (.e mod 0),
   .mls t3 b3 (.e mod 0)]

/-- Macro `dq_butterfly_mixed` (macros.inc:74-76). -/
def dq_butterfly_mixed (a0 a1 b0 b1 t0 t1 a2 a3 b2 b3 t2 t3 mod z0 l0 h0 z1 l1 h1 z2 l2 h2 z3 l3 h3 : Nat) : List Instr :=
  wrap_dX_butterfly_mixed a0 a1 b0 b1 t0 t1 a2 a3 b2 b3 t2 t3 mod z0 l0 h0 z1 l1 h1 z2 l2 h2 z3 l3 h3

/-- Macro `wrap_dX_butterfly_bot` (macros_common.inc:75-83). -/
def wrap_dX_butterfly_bot (a0 a1 b0 b1 t0 t1 _mod _z0 _l0 _h0 _z1 _l1 _h1 : Nat) : List Instr :=
  [.sub b0 a0 t0,
   .sub b1 a1 t1,
   .add a0 a0 t0,
   .add a1 a1 t1]

/-- Macro `dq_butterfly_bot` (macros.inc:70-72). -/
def dq_butterfly_bot (a0 a1 b0 b1 t0 t1 mod z0 l0 h0 z1 l1 h1 : Nat) : List Instr :=
  wrap_dX_butterfly_bot a0 a1 b0 b1 t0 t1 mod z0 l0 h0 z1 l1 h1

/-- Macro `wrap_trn_4x4` (macros.inc:30-42). -/
def wrap_trn_4x4 (a0 a1 a2 a3 t0 t1 t2 t3 : Nat) : List Instr :=
  [.trn1s t0 a0 a1,
   .trn2s t1 a0 a1,
   .trn1s t2 a2 a3,
   .trn2s t3 a2 a3,
   .trn1d a0 t0 t2,
   .trn2d a2 t0 t2,
   .trn1d a1 t1 t3,
   .trn2d a3 t1 t3]

/-- Macro `trn_4x4` (macros.inc:44-46). -/
def trn_4x4 (a0 a1 a2 a3 t0 t1 t2 t3 : Nat) : List Instr :=
  wrap_trn_4x4 a0 a1 a2 a3 t0 t1 t2 t3

/-- Macro `wrap_dX_butterfly_vec_top` (macros_common.inc:208-219). -/
def wrap_dX_butterfly_vec_top (_a0 _a1 b0 b1 t0 t1 mod l0 h0 l1 h1 : Nat) : List Instr :=
  [.mul t0 b0 (.v h0),
   .mul t1 b1 (.v h1),
   .sqrdmulh b0 b0 (.v l0),
   .sqrdmulh b1 b1 (.v l1),
   .mls t0 b0 (.e mod 0),
   .mls t1 b1 (.e mod 0)]

/-- Macro `dq_butterfly_vec_top` (macros.inc:53-55). -/
def dq_butterfly_vec_top (a0 a1 b0 b1 t0 t1 mod l0 h0 l1 h1 : Nat) : List Instr :=
  wrap_dX_butterfly_vec_top a0 a1 b0 b1 t0 t1 mod l0 h0 l1 h1

/-- Macro `wrap_dX_butterfly_vec_mixed` (macros_common.inc:231-246). -/
def wrap_dX_butterfly_vec_mixed (a0 a1 b0 b1 t0 t1 _a2 _a3 b2 b3 t2 t3 mod _l0 _h0 _l1 _h1 l2 h2 l3 h3 : Nat) : List Instr :=
  [.sub b0 a0 t0,
   .mul t2 b2 (.v h2),
   .sub b1 a1 t1,
   .mul t3 b3 (.v h3),
   .add a0 a0 t0,
   .sqrdmulh b2 b2 (.v l2),
   .add a1 a1 t1,
   .sqrdmulh b3 b3 (.v l3),
   .mls t2 b2 (.e mod 0),
   .mls t3 b3 (.e mod 0)]

/-- Macro `dq_butterfly_vec_mixed` (macros.inc:57-59). -/
def dq_butterfly_vec_mixed (a0 a1 b0 b1 t0 t1 a2 a3 b2 b3 t2 t3 mod l0 h0 l1 h1 l2 h2 l3 h3 : Nat) : List Instr :=
  wrap_dX_butterfly_vec_mixed a0 a1 b0 b1 t0 t1 a2 a3 b2 b3 t2 t3 mod l0 h0 l1 h1 l2 h2 l3 h3

/-- Macro `wrap_dX_butterfly_vec_bot` (macros_common.inc:221-229). -/
def wrap_dX_butterfly_vec_bot (a0 a1 b0 b1 t0 t1 _mod _l0 _h0 _l1 _h1 : Nat) : List Instr :=
  [.sub b0 a0 t0,
   .sub b1 a1 t1,
   .add a0 a0 t0,
   .add a1 a1 t1]

/-- Macro `dq_butterfly_vec_bot` (macros.inc:49-51). -/
def dq_butterfly_vec_bot (a0 a1 b0 b1 t0 t1 mod l0 h0 l1 h1 : Nat) : List Instr :=
  wrap_dX_butterfly_vec_bot a0 a1 b0 b1 t0 t1 mod l0 h0 l1 h1

/-- The loop body of `asm_ntt_SIMD_bot` (__asm_NTT.S:211-268). -/
def nttBot_body : List Instr :=
  [.ldn 1 0 0 0,
   .ldn 1 4 1 0,
   .ldn 1 8 2 0,
   .ldn 1 12 3 0,
   .addx 0 0 16,
   .ldn 1 0 16 2,
   .ldn 1 4 17 2,
   .ldn 1 8 18 2,
   .ldn 1 12 19 2,
   .addx 2 2 16,
   .ldn 1 0 4 28,
   .ldn 1 4 5 28,
   .addx 28 28 8,
   .ldn 2 0 6 28,
   .ldn 2 1 7 28,
   .addx 28 28 8,
   .ldn 4 0 8 28,
   .ldn 4 1 9 28,
   .ldn 4 2 10 28,
   .ldn 4 3 11 28,
   .addx 28 28 16,
   .ldn 1 0 20 27,
   .ldn 1 4 21 27,
   .addx 27 27 8,
   .ldn 2 0 22 27,
   .ldn 2 1 23 27,
   .addx 27 27 8,
   .ldn 4 0 24 27,
   .ldn 4 1 25 27,
   .ldn 4 2 26 27,
   .ldn 4 3 27 27,
   .addx 27 27 16,
   .insS 4 0 20] ++
  dq_butterfly_top 0 1 2 3 12 13 4 4 2 3 4 2 3 ++
  dq_butterfly_mixed 0 1 2 3 12 13 16 17 18 19 28 29 4 4 2 3 4 2 3 20 2 3 20 2 3 ++
  dq_butterfly_mixed 16 17 18 19 28 29 0 2 1 3 12 13 4 20 2 3 20 2 3 5 0 1 5 2 3 ++
  dq_butterfly_mixed 0 2 1 3 12 13 16 18 17 19 28 29 4 5 0 1 5 2 3 21 0 1 21 2 3 ++
  dq_butterfly_bot 16 18 17 19 28 29 4 21 0 1 21 2 3 ++
  trn_4x4 0 1 2 3 12 13 14 15 ++
  trn_4x4 16 17 18 19 28 29 30 31 ++
  dq_butterfly_vec_top 0 1 2 3 12 13 4 6 7 6 7 ++
  dq_butterfly_vec_mixed 0 1 2 3 12 13 16 17 18 19 28 29 4 6 7 6 7 22 23 22 23 ++
  dq_butterfly_vec_mixed 16 17 18 19 28 29 0 2 1 3 12 13 4 22 23 22 23 8 9 10 11 ++
  dq_butterfly_vec_mixed 0 2 1 3 12 13 16 18 17 19 28 29 4 8 9 10 11 24 25 26 27 ++
  dq_butterfly_vec_bot 16 18 17 19 28 29 4 24 25 26 27 ++
  [.st4row 0 0 1,
   .st4row 1 0 1,
   .st4row 2 0 1,
   .st4row 3 0 1,
   .addx 1 1 16,
   .st4row 0 16 3,
   .st4row 1 16 3,
   .st4row 2 16 3,
   .st4row 3 16 3,
   .addx 3 3 16]

/-- `asm_ntt_SIMD_bot` (__asm_NTT.S:211-280). Arguments as before. -/
def nttBot : List Instr :=
  [.ldrw 20 2 0,
   .addx 28 1 32,
   .addx 27 28 256,
   .addx 2 0 128,
   .addx 1 0 0,
   .addx 3 0 128] ++
  loop 8 nttBot_body

/-- Macro `wrap_dX_butterfly_vec_mixed_rev` (macros_common.inc:248-263). -/
def wrap_dX_butterfly_vec_mixed_rev (_a0 _a1 b0 b1 t0 t1 a2 a3 b2 b3 t2 t3 mod l0 h0 l1 h1 _l2 _h2 _l3 _h3 : Nat) : List Instr :=
  [.mul t0 b0 (.v h0),
   .sub b2 a2 t2,
   .mul t1 b1 (.v h1),
   .sub b3 a3 t3,
   .sqrdmulh b0 b0 (.v l0),
   .add a2 a2 t2,
   .sqrdmulh b1 b1 (.v l1),
   .add a3 a3 t3,
   .mls t0 b0 (.e mod 0),
   .mls t1 b1 (.e mod 0)]

/-- Macro `dq_butterfly_vec_mixed_rev` (macros.inc:61-63). -/
def dq_butterfly_vec_mixed_rev (a0 a1 b0 b1 t0 t1 a2 a3 b2 b3 t2 t3 mod l0 h0 l1 h1 l2 h2 l3 h3 : Nat) : List Instr :=
  wrap_dX_butterfly_vec_mixed_rev a0 a1 b0 b1 t0 t1 a2 a3 b2 b3 t2 t3 mod l0 h0 l1 h1 l2 h2 l3 h3

/-- Macro `wrap_dX_butterfly_mixed_rev` (macros_common.inc:102-117). -/
def wrap_dX_butterfly_mixed_rev (_a0 _a1 b0 b1 t0 t1 a2 a3 b2 b3 t2 t3 mod z0 l0 h0 z1 l1 h1 _z2 _l2 _h2 _z3 _l3 _h3 : Nat) : List Instr :=
  [.mul t0 b0 (.e z0 h0),
   .sub b2 a2 t2,
   .mul t1 b1 (.e z1 h1),
   .sub b3 a3 t3,
   .sqrdmulh b0 b0 (.e z0 l0),
   .add a2 a2 t2,
   .sqrdmulh b1 b1 (.e z1 l1),
   .add a3 a3 t3,
   .mls t0 b0 (.e mod 0),
   .mls t1 b1 (.e mod 0)]

/-- Macro `dq_butterfly_mixed_rev` (macros.inc:78-80). -/
def dq_butterfly_mixed_rev (a0 a1 b0 b1 t0 t1 a2 a3 b2 b3 t2 t3 mod z0 l0 h0 z1 l1 h1 z2 l2 h2 z3 l3 h3 : Nat) : List Instr :=
  wrap_dX_butterfly_mixed_rev a0 a1 b0 b1 t0 t1 a2 a3 b2 b3 t2 t3 mod z0 l0 h0 z1 l1 h1 z2 l2 h2 z3 l3 h3

/-- The loop body of `asm_intt_SIMD_bot` (__asm_iNTT.S:440-510). -/
def inttBot_body : List Instr :=
  [.ldn 4 0 0 0,
   .ldn 4 1 1 0,
   .ldn 4 2 2 0,
   .ldn 4 3 3 0,
   .addx 0 0 16,
   .ldn 4 0 16 2,
   .ldn 4 1 17 2,
   .ldn 4 2 18 2,
   .ldn 4 3 19 2,
   .addx 2 2 16,
   .ldn 1 0 4 28,
   .ldn 1 4 5 28,
   .addx 28 28 8,
   .ldn 2 0 6 28,
   .ldn 2 1 7 28,
   .addx 28 28 8,
   .ldn 4 0 8 28,
   .ldn 4 1 9 28,
   .ldn 4 2 10 28,
   .ldn 4 3 11 28,
   .addx 28 28 16,
   .ldn 1 0 20 27,
   .ldn 1 4 21 27,
   .addx 27 27 8,
   .ldn 2 0 22 27,
   .ldn 2 1 23 27,
   .addx 27 27 8,
   .ldn 4 0 24 27,
   .ldn 4 1 25 27,
   .ldn 4 2 26 27,
   .ldn 4 3 27 27,
   .addx 27 27 16,
   .insS 4 0 20,
   .insD0 20 21] ++
  dq_butterfly_vec_bot 0 2 12 13 1 3 4 8 9 10 11 ++
  dq_butterfly_vec_mixed_rev 0 2 12 13 1 3 16 18 28 29 17 19 4 8 9 10 11 24 25 26 27 ++
  dq_butterfly_vec_mixed_rev 16 18 28 29 17 19 0 1 12 13 2 3 4 24 25 26 27 6 7 6 7 ++
  dq_butterfly_vec_mixed_rev 0 1 12 13 2 3 16 17 28 29 18 19 4 6 7 6 7 22 23 22 23 ++
  dq_butterfly_vec_top 16 17 28 29 18 19 4 22 23 22 23 ++
  trn_4x4 0 1 2 3 12 13 14 15 ++
  trn_4x4 16 17 18 19 28 29 30 31 ++
  dq_butterfly_bot 0 2 12 13 1 3 4 5 0 1 5 2 3 ++
  dq_butterfly_mixed_rev 0 2 12 13 1 3 16 18 28 29 17 19 4 5 0 1 5 2 3 21 0 1 21 2 3 ++
  dq_butterfly_mixed_rev 16 18 28 29 17 19 0 1 12 13 2 3 4 21 0 1 21 2 3 4 2 3 4 2 3 ++
  dq_butterfly_mixed_rev 0 1 12 13 2 3 16 17 28 29 18 19 4 4 2 3 4 2 3 20 2 3 20 2 3 ++
  dq_butterfly_top 16 17 28 29 18 19 4 20 2 3 20 2 3 ++
  [.srshr 14 0 23,
   .srshr 15 1 23,
   .srshr 30 16 23,
   .srshr 31 17 23,
   .mls 0 14 (.e 4 0),
   .mls 1 15 (.e 4 0),
   .mls 16 30 (.e 4 0),
   .mls 17 31 (.e 4 0),
   .st 0 1 0,
   .st 1 1 4,
   .st 2 1 8,
   .st 3 1 12,
   .addx 1 1 16,
   .st 16 3 0,
   .st 17 3 4,
   .st 18 3 8,
   .st 19 3 12,
   .addx 3 3 16]

/-- `asm_intt_SIMD_bot` (__asm_iNTT.S:440-523). Arguments as before. -/
def inttBot : List Instr :=
  [.ldrw 20 2 0,
   .ldrx 21 2 2,
   .addx 28 1 32,
   .addx 27 28 256,
   .addx 2 0 128,
   .addx 1 0 0,
   .addx 3 0 128] ++
  loop 8 inttBot_body

/-- Macro `wrap_qX_butterfly_mixed_rev` (macros_common.inc:179-204). -/
def wrap_qX_butterfly_mixed_rev (_a0 _a1 _a2 _a3 b0 b1 b2 b3 t0 t1 t2 t3 a4 a5 a6 a7 b4 b5 b6 b7 t4 t5 t6 t7 mod z0 l0 h0 z1 l1 h1 z2 l2 h2 z3 l3 h3 _z4 _l4 _h4 _z5 _l5 _h5 _z6 _l6 _h6 _z7 _l7 _h7 : Nat) : List Instr :=
  [.mul t0 b0 (.e z0 h0),
   .sub b4 a4 t4,
   .mul t1 b1 (.e z1 h1),
   .sub b5 a5 t5,
   .mul t2 b2 (.e z2 h2),
   .sub b6 a6 t6,
   .mul t3 b3 (.e z3 h3),
   .sub b7 a7 t7,
   .sqrdmulh b0 b0 (.e z0 l0),
   .add a4 a4 t4,
   .sqrdmulh b1 b1 (.e z1 l1),
   .add a5 a5 t5,
   .sqrdmulh b2 b2 (.e z2 l2),
   .add a6 a6 t6,
   .sqrdmulh b3 b3 (.e z3 l3),
   .add a7 a7 t7,
   .mls t0 b0 (.e mod 0),
   .mls t1 b1 (.e mod 0),
   .mls t2 b2 (.e mod 0),
   .mls t3 b3 (.e mod 0)]

/-- Macro `qq_butterfly_mixed_rev` (macros.inc:100-102). -/
def qq_butterfly_mixed_rev (a0 a1 a2 a3 b0 b1 b2 b3 t0 t1 t2 t3 a4 a5 a6 a7 b4 b5 b6 b7 t4 t5 t6 t7 mod z0 l0 h0 z1 l1 h1 z2 l2 h2 z3 l3 h3 z4 l4 h4 z5 l5 h5 z6 l6 h6 z7 l7 h7 : Nat) : List Instr :=
  wrap_qX_butterfly_mixed_rev a0 a1 a2 a3 b0 b1 b2 b3 t0 t1 t2 t3 a4 a5 a6 a7 b4 b5 b6 b7 t4 t5 t6 t7 mod z0 l0 h0 z1 l1 h1 z2 l2 h2 z3 l3 h3 z4 l4 h4 z5 l5 h5 z6 l6 h6 z7 l7 h7

/-- Macro `wrap_qX_sub_add` (macros_common.inc:439-450). -/
def wrap_qX_sub_add (s0 s1 s2 s3 t0 t1 t2 t3 a0 a1 a2 a3 b0 b1 b2 b3 : Nat) : List Instr :=
  [.sub t0 a0 b0,
   .add s0 a0 b0,
   .sub t1 a1 b1,
   .add s1 a1 b1,
   .sub t2 a2 b2,
   .add s2 a2 b2,
   .sub t3 a3 b3,
   .add s3 a3 b3]

/-- Macro `qq_sub_add` (macros.inc:109-111). -/
def qq_sub_add (s0 s1 s2 s3 t0 t1 t2 t3 a0 a1 a2 a3 b0 b1 b2 b3 : Nat) : List Instr :=
  wrap_qX_sub_add s0 s1 s2 s3 t0 t1 t2 t3 a0 a1 a2 a3 b0 b1 b2 b3

/-- Macro `wrap_qX_montgomery_mul` (macros_common.inc:375-392). -/
def wrap_qX_montgomery_mul (b0 b1 b2 b3 t0 t1 t2 t3 mod z0 l0 h0 z1 l1 h1 z2 l2 h2 z3 l3 h3 : Nat) : List Instr :=
  [.mul b0 t0 (.e z0 h0),
   .mul b1 t1 (.e z1 h1),
   .mul b2 t2 (.e z2 h2),
   .mul b3 t3 (.e z3 h3),
   .sqrdmulh t0 t0 (.e z0 l0),
   .sqrdmulh t1 t1 (.e z1 l1),
   .sqrdmulh t2 t2 (.e z2 l2),
   .sqrdmulh t3 t3 (.e z3 l3),
   .mls b0 t0 (.e mod 0),
   .mls b1 t1 (.e mod 0),
   .mls b2 t2 (.e mod 0),
   .mls b3 t3 (.e mod 0)]

/-- Macro `qq_montgomery_mul` (macros.inc:83-85). -/
def qq_montgomery_mul (b0 b1 b2 b3 t0 t1 t2 t3 mod z0 l0 h0 z1 l1 h1 z2 l2 h2 z3 l3 h3 : Nat) : List Instr :=
  wrap_qX_montgomery_mul b0 b1 b2 b3 t0 t1 t2 t3 mod z0 l0 h0 z1 l1 h1 z2 l2 h2 z3 l3 h3

/-- The loop body of `asm_intt_SIMD_top` (__asm_iNTT.S:33-388). -/
def inttTop_body : List Instr :=
  [.st 0 0 0,
   .addx 0 0 4,
   .ldn 1 0 0 0,
   .st 1 1 0,
   .addx 1 1 4,
   .ldn 1 0 1 1,
   .st 2 2 0,
   .addx 2 2 4,
   .ldn 1 0 2 2,
   .st 3 3 0,
   .addx 3 3 4,
   .ldn 1 0 3 3,
   .st 4 4 0,
   .addx 4 4 4,
   .ldn 1 0 4 4,
   .st 5 5 0,
   .addx 5 5 4,
   .ldn 1 0 5 5,
   .st 6 6 0,
   .addx 6 6 4,
   .ldn 1 0 6 6,
   .st 7 7 0,
   .addx 7 7 4,
   .ldn 1 0 7 7,
   .st 8 8 0,
   .addx 8 8 4,
   .ldn 1 0 8 8,
   .st 9 9 0,
   .addx 9 9 4,
   .ldn 1 0 9 9,
   .st 10 10 0,
   .addx 10 10 4,
   .ldn 1 0 10 10,
   .st 11 11 0,
   .addx 11 11 4,
   .ldn 1 0 11 11,
   .st 12 12 0,
   .addx 12 12 4,
   .ldn 1 0 12 12,
   .st 13 13 0,
   .addx 13 13 4,
   .ldn 1 0 13 13,
   .st 14 14 0,
   .addx 14 14 4,
   .ldn 1 0 14 14,
   .st 15 15 0,
   .addx 15 15 4,
   .ldn 1 0 15 15] ++
  qq_butterfly_bot 0 2 4 6 16 17 18 19 1 3 5 7 20 24 0 1 24 2 3 25 0 1 25 2 3 ++
  qq_butterfly_mixed_rev 0 2 4 6 16 17 18 19 1 3 5 7 8 10 12 14 28 29 30 31 9 11 13 15 20 24 0 1 24 2 3 25 0 1 25 2 3 26 0 1 26 2 3 27 0 1 27 2 3 ++
  qq_butterfly_mixed_rev 8 10 12 14 28 29 30 31 9 11 13 15 0 1 4 5 16 17 18 19 2 3 6 7 20 26 0 1 26 2 3 27 0 1 27 2 3 22 0 1 22 0 1 22 2 3 22 2 3 ++
  qq_butterfly_mixed_rev 0 1 4 5 16 17 18 19 2 3 6 7 8 9 12 13 28 29 30 31 10 11 14 15 20 22 0 1 22 0 1 22 2 3 22 2 3 23 0 1 23 0 1 23 2 3 23 2 3 ++
  qq_butterfly_mixed_rev 8 9 12 13 28 29 30 31 10 11 14 15 0 1 2 3 16 17 18 19 4 5 6 7 20 23 0 1 23 0 1 23 2 3 23 2 3 21 0 1 21 0 1 21 0 1 21 0 1 ++
  qq_butterfly_mixed_rev 0 1 2 3 16 17 18 19 4 5 6 7 8 9 10 11 28 29 30 31 12 13 14 15 20 21 0 1 21 0 1 21 0 1 21 0 1 21 2 3 21 2 3 21 2 3 21 2 3 ++
  qq_butterfly_top 8 9 10 11 28 29 30 31 12 13 14 15 20 21 2 3 21 2 3 21 2 3 21 2 3 ++
  [.insS 20 2 26,
   .insS 20 3 27] ++
  qq_sub_add 16 17 18 19 28 29 30 31 0 2 4 6 8 10 12 14 ++
  qq_sub_add 0 2 4 6 8 10 12 14 1 3 5 7 9 11 13 15 ++
  qq_montgomery_mul 9 11 13 15 8 10 12 14 20 20 2 3 20 2 3 20 2 3 20 2 3 ++
  qq_montgomery_mul 8 10 12 14 28 29 30 31 20 20 2 3 20 2 3 20 2 3 20 2 3 ++
  [.insS 20 2 24,
   .insS 20 3 25] ++
  qq_montgomery_mul 1 3 5 7 0 2 4 6 20 20 2 3 20 2 3 20 2 3 20 2 3 ++
  qq_montgomery_mul 0 2 4 6 16 17 18 19 20 20 2 3 20 2 3 20 2 3 20 2 3 ++
  [.dup 29 20,
   .dup 30 21,
   .dup 31 22,
   .cmge 18 31 0,
   .cmge 19 31 1,
   .cmge 16 0 30,
   .cmge 17 1 30,
   .sub 16 16 18,
   .sub 17 17 19,
   .mla 0 16 (.v 29),
   .mla 1 17 (.v 29),
   .cmge 18 31 2,
   .cmge 19 31 3,
   .cmge 16 2 30,
   .cmge 17 3 30,
   .sub 16 16 18,
   .sub 17 17 19,
   .mla 2 16 (.v 29),
   .mla 3 17 (.v 29),
   .cmge 18 31 4,
   .cmge 19 31 5,
   .cmge 16 4 30,
   .cmge 17 5 30,
   .sub 16 16 18,
   .sub 17 17 19,
   .mla 4 16 (.v 29),
   .mla 5 17 (.v 29),
   .cmge 18 31 6,
   .cmge 19 31 7,
   .cmge 16 6 30,
   .cmge 17 7 30,
   .sub 16 16 18,
   .sub 17 17 19,
   .mla 6 16 (.v 29),
   .mla 7 17 (.v 29),
   .cmge 18 31 8,
   .cmge 19 31 9,
   .cmge 16 8 30,
   .cmge 17 9 30,
   .sub 16 16 18,
   .sub 17 17 19,
   .mla 8 16 (.v 29),
   .mla 9 17 (.v 29),
   .cmge 18 31 10,
   .cmge 19 31 11,
   .cmge 16 10 30,
   .cmge 17 11 30,
   .sub 16 16 18,
   .sub 17 17 19,
   .mla 10 16 (.v 29),
   .mla 11 17 (.v 29),
   .cmge 18 31 12,
   .cmge 19 31 13,
   .cmge 16 12 30,
   .cmge 17 13 30,
   .sub 16 16 18,
   .sub 17 17 19,
   .mla 12 16 (.v 29),
   .mla 13 17 (.v 29),
   .cmge 18 31 14,
   .cmge 19 31 15,
   .cmge 16 14 30,
   .cmge 17 15 30,
   .sub 16 16 18,
   .sub 17 17 19,
   .mla 14 16 (.v 29),
   .mla 15 17 (.v 29)]

/-- `asm_intt_SIMD_top` (__asm_iNTT.S:33-435). Arguments as before. -/
def inttTop : List Instr :=
  [.ldrw 20 2 0,
   .lsrw 21 20 1,
   .negw 22 21,
   .ldrw 24 2 4,
   .ldrw 25 2 5,
   .ldrw 26 2 6,
   .ldrw 27 2 7,
   .addx 28 1 0,
   .addx 1 0 16,
   .addx 2 0 32,
   .addx 3 0 48,
   .addx 4 0 64,
   .addx 5 0 80,
   .addx 6 0 96,
   .addx 7 0 112,
   .addx 8 0 128,
   .addx 9 0 144,
   .addx 10 0 160,
   .addx 11 0 176,
   .addx 12 0 192,
   .addx 13 0 208,
   .addx 14 0 224,
   .addx 15 0 240,
   .ldn 1 0 20 28,
   .ldn 1 4 21 28,
   .ldn 1 8 22 28,
   .ldn 1 12 23 28,
   .addx 28 28 16,
   .ldn 1 0 24 28,
   .ldn 1 4 25 28,
   .ldn 1 8 26 28,
   .ldn 1 12 27 28,
   .addx 28 28 16,
   .insS 20 0 20,
   .ldn 1 0 0 0,
   .ldn 1 0 1 1,
   .ldn 1 0 2 2,
   .ldn 1 0 3 3,
   .ldn 1 0 4 4,
   .ldn 1 0 5 5,
   .ldn 1 0 6 6,
   .ldn 1 0 7 7,
   .ldn 1 0 8 8,
   .ldn 1 0 9 9,
   .ldn 1 0 10 10,
   .ldn 1 0 11 11,
   .ldn 1 0 12 12,
   .ldn 1 0 13 13,
   .ldn 1 0 14 14,
   .ldn 1 0 15 15] ++
  qq_butterfly_bot 0 2 4 6 16 17 18 19 1 3 5 7 20 24 0 1 24 2 3 25 0 1 25 2 3 ++
  qq_butterfly_mixed_rev 0 2 4 6 16 17 18 19 1 3 5 7 8 10 12 14 28 29 30 31 9 11 13 15 20 24 0 1 24 2 3 25 0 1 25 2 3 26 0 1 26 2 3 27 0 1 27 2 3 ++
  qq_butterfly_mixed_rev 8 10 12 14 28 29 30 31 9 11 13 15 0 1 4 5 16 17 18 19 2 3 6 7 20 26 0 1 26 2 3 27 0 1 27 2 3 22 0 1 22 0 1 22 2 3 22 2 3 ++
  qq_butterfly_mixed_rev 0 1 4 5 16 17 18 19 2 3 6 7 8 9 12 13 28 29 30 31 10 11 14 15 20 22 0 1 22 0 1 22 2 3 22 2 3 23 0 1 23 0 1 23 2 3 23 2 3 ++
  qq_butterfly_mixed_rev 8 9 12 13 28 29 30 31 10 11 14 15 0 1 2 3 16 17 18 19 4 5 6 7 20 23 0 1 23 0 1 23 2 3 23 2 3 21 0 1 21 0 1 21 0 1 21 0 1 ++
  qq_butterfly_mixed_rev 0 1 2 3 16 17 18 19 4 5 6 7 8 9 10 11 28 29 30 31 12 13 14 15 20 21 0 1 21 0 1 21 0 1 21 0 1 21 2 3 21 2 3 21 2 3 21 2 3 ++
  qq_butterfly_top 8 9 10 11 28 29 30 31 12 13 14 15 20 21 2 3 21 2 3 21 2 3 21 2 3 ++
  [.insS 20 2 26,
   .insS 20 3 27] ++
  qq_sub_add 16 17 18 19 28 29 30 31 0 2 4 6 8 10 12 14 ++
  qq_sub_add 0 2 4 6 8 10 12 14 1 3 5 7 9 11 13 15 ++
  qq_montgomery_mul 9 11 13 15 8 10 12 14 20 20 2 3 20 2 3 20 2 3 20 2 3 ++
  qq_montgomery_mul 8 10 12 14 28 29 30 31 20 20 2 3 20 2 3 20 2 3 20 2 3 ++
  [.insS 20 2 24,
   .insS 20 3 25] ++
  qq_montgomery_mul 1 3 5 7 0 2 4 6 20 20 2 3 20 2 3 20 2 3 20 2 3 ++
  qq_montgomery_mul 0 2 4 6 16 17 18 19 20 20 2 3 20 2 3 20 2 3 20 2 3 ++
  [.dup 29 20,
   .dup 30 21,
   .dup 31 22,
   .cmge 18 31 0,
   .cmge 19 31 1,
   .cmge 16 0 30,
   .cmge 17 1 30,
   .sub 16 16 18,
   .sub 17 17 19,
   .mla 0 16 (.v 29),
   .mla 1 17 (.v 29),
   .cmge 18 31 2,
   .cmge 19 31 3,
   .cmge 16 2 30,
   .cmge 17 3 30,
   .sub 16 16 18,
   .sub 17 17 19,
   .mla 2 16 (.v 29),
   .mla 3 17 (.v 29),
   .cmge 18 31 4,
   .cmge 19 31 5,
   .cmge 16 4 30,
   .cmge 17 5 30,
   .sub 16 16 18,
   .sub 17 17 19,
   .mla 4 16 (.v 29),
   .mla 5 17 (.v 29),
   .cmge 18 31 6,
   .cmge 19 31 7,
   .cmge 16 6 30,
   .cmge 17 7 30,
   .sub 16 16 18,
   .sub 17 17 19,
   .mla 6 16 (.v 29),
   .mla 7 17 (.v 29),
   .cmge 18 31 8,
   .cmge 19 31 9,
   .cmge 16 8 30,
   .cmge 17 9 30,
   .sub 16 16 18,
   .sub 17 17 19,
   .mla 8 16 (.v 29),
   .mla 9 17 (.v 29),
   .cmge 18 31 10,
   .cmge 19 31 11,
   .cmge 16 10 30,
   .cmge 17 11 30,
   .sub 16 16 18,
   .sub 17 17 19,
   .mla 10 16 (.v 29),
   .mla 11 17 (.v 29),
   .cmge 18 31 12,
   .cmge 19 31 13,
   .cmge 16 12 30,
   .cmge 17 13 30,
   .sub 16 16 18,
   .sub 17 17 19,
   .mla 12 16 (.v 29),
   .mla 13 17 (.v 29),
   .cmge 18 31 14,
   .cmge 19 31 15,
   .cmge 16 14 30,
   .cmge 17 15 30,
   .sub 16 16 18,
   .sub 17 17 19,
   .mla 14 16 (.v 29),
   .mla 15 17 (.v 29)] ++
  loop 3 inttTop_body ++
  [.st 0 0 0,
   .addx 0 0 4,
   .st 1 1 0,
   .addx 1 1 4,
   .st 2 2 0,
   .addx 2 2 4,
   .st 3 3 0,
   .addx 3 3 4,
   .st 4 4 0,
   .addx 4 4 4,
   .st 5 5 0,
   .addx 5 5 4,
   .st 6 6 0,
   .addx 6 6 4,
   .st 7 7 0,
   .addx 7 7 4,
   .st 8 8 0,
   .addx 8 8 4,
   .st 9 9 0,
   .addx 9 9 4,
   .st 10 10 0,
   .addx 10 10 4,
   .st 11 11 0,
   .addx 11 11 4,
   .st 12 12 0,
   .addx 12 12 4,
   .st 13 13 0,
   .addx 13 13 4,
   .st 14 14 0,
   .addx 14 14 4,
   .st 15 15 0,
   .addx 15 15 4]

/-- The loop body of `asm_10_to_32` (__asm_poly.S:34-100). -/
def unpack10_body : List Instr :=
  [.ldrw 2 1 0,
   .addx 1 1 1,
   .ubfx 3 2 0 10,
   .strw 3 0,
   .addx 0 0 1,
   .ubfx 4 2 10 10,
   .strw 4 0,
   .addx 0 0 1,
   .ubfx 5 2 20 10,
   .strw 5 0,
   .addx 0 0 1,
   .lsrw 6 2 30,
   .ldrw 2 1 0,
   .addx 1 1 1,
   .ubfx 3 2 0 8,
   .lslw 3 3 2,
   .orrw 3 3 6,
   .strw 3 0,
   .addx 0 0 1,
   .ubfx 4 2 8 10,
   .strw 4 0,
   .addx 0 0 1,
   .ubfx 5 2 18 10,
   .strw 5 0,
   .addx 0 0 1,
   .lsrw 6 2 28,
   .ldrw 2 1 0,
   .addx 1 1 1,
   .ubfx 3 2 0 6,
   .lslw 3 3 4,
   .orrw 3 3 6,
   .strw 3 0,
   .addx 0 0 1,
   .ubfx 4 2 6 10,
   .strw 4 0,
   .addx 0 0 1,
   .ubfx 5 2 16 10,
   .strw 5 0,
   .addx 0 0 1,
   .lsrw 6 2 26,
   .ldrw 2 1 0,
   .addx 1 1 1,
   .ubfx 3 2 0 4,
   .lslw 3 3 6,
   .orrw 3 3 6,
   .strw 3 0,
   .addx 0 0 1,
   .ubfx 4 2 4 10,
   .strw 4 0,
   .addx 0 0 1,
   .ubfx 5 2 14 10,
   .strw 5 0,
   .addx 0 0 1,
   .lsrw 6 2 24,
   .ldrw 2 1 0,
   .addx 1 1 1,
   .ubfx 3 2 0 2,
   .lslw 3 3 8,
   .orrw 3 3 6,
   .strw 3 0,
   .addx 0 0 1,
   .ubfx 4 2 2 10,
   .strw 4 0,
   .addx 0 0 1,
   .ubfx 5 2 12 10,
   .strw 5 0,
   .addx 0 0 1,
   .ubfx 6 2 22 10,
   .strw 6 0,
   .addx 0 0 1]

/-- `asm_10_to_32` (__asm_poly.S:34-102). `x0` the polynomial, `x1` the packed bytes. -/
def unpack10 : List Instr :=
  loop 16 unpack10_body

/-- The loop body of `asm_poly_reduce` (__asm_poly.S:107-188). -/
def polyReduceAsm_body : List Instr :=
  [.st 4 0 0,
   .addx 0 0 4,
   .ldn 1 0 0 1,
   .addx 1 1 4,
   .st 5 0 0,
   .addx 0 0 4,
   .ldn 1 0 1 1,
   .addx 1 1 4,
   .st 6 0 0,
   .addx 0 0 4,
   .ldn 1 0 2 1,
   .addx 1 1 4,
   .st 7 0 0,
   .addx 0 0 4,
   .ldn 1 0 3 1,
   .addx 1 1 4,
   .ldn 1 0 4 1,
   .addx 1 1 4,
   .srshr 16 0 23,
   .ldn 1 0 5 1,
   .addx 1 1 4,
   .srshr 17 1 23,
   .ldn 1 0 6 1,
   .addx 1 1 4,
   .srshr 18 2 23,
   .ldn 1 0 7 1,
   .addx 1 1 4,
   .srshr 19 3 23,
   .srshr 20 4 23,
   .mls 0 16 (.v 24),
   .srshr 21 5 23,
   .mls 1 17 (.v 24),
   .srshr 22 6 23,
   .mls 2 18 (.v 24),
   .srshr 23 7 23,
   .mls 3 19 (.v 24),
   .mls 4 20 (.v 24),
   .st 0 0 0,
   .addx 0 0 4,
   .mls 5 21 (.v 24),
   .st 1 0 0,
   .addx 0 0 4,
   .mls 6 22 (.v 24),
   .st 2 0 0,
   .addx 0 0 4,
   .mls 7 23 (.v 24),
   .st 3 0 0,
   .addx 0 0 4]

/-- `asm_poly_reduce` (__asm_poly.S:107-195). `x0` the polynomial, `x1` the constants. -/
def polyReduceAsm : List Instr :=
  [.ldrw 4 1 0,
   .dup 24 4,
   .addx 1 0 0,
   .ldn 1 0 0 1,
   .addx 1 1 4,
   .ldn 1 0 1 1,
   .addx 1 1 4,
   .ldn 1 0 2 1,
   .addx 1 1 4,
   .ldn 1 0 3 1,
   .addx 1 1 4,
   .ldn 1 0 4 1,
   .addx 1 1 4,
   .srshr 16 0 23,
   .ldn 1 0 5 1,
   .addx 1 1 4,
   .srshr 17 1 23,
   .ldn 1 0 6 1,
   .addx 1 1 4,
   .srshr 18 2 23,
   .ldn 1 0 7 1,
   .addx 1 1 4,
   .srshr 19 3 23,
   .srshr 20 4 23,
   .mls 0 16 (.v 24),
   .srshr 21 5 23,
   .mls 1 17 (.v 24),
   .srshr 22 6 23,
   .mls 2 18 (.v 24),
   .srshr 23 7 23,
   .mls 3 19 (.v 24),
   .mls 4 20 (.v 24),
   .st 0 0 0,
   .addx 0 0 4,
   .mls 5 21 (.v 24),
   .st 1 0 0,
   .addx 0 0 4,
   .mls 6 22 (.v 24),
   .st 2 0 0,
   .addx 0 0 4,
   .mls 7 23 (.v 24),
   .st 3 0 0,
   .addx 0 0 4] ++
  loop 7 polyReduceAsm_body ++
  [.st 4 0 0,
   .addx 0 0 4,
   .st 5 0 0,
   .addx 0 0 4,
   .st 6 0 0,
   .addx 0 0 4,
   .st 7 0 0,
   .addx 0 0 4]

/-- The loop body of `asm_poly_caddq` (__asm_poly.S:200-281). -/
def polyCaddqAsm_body : List Instr :=
  [.st 4 0 0,
   .addx 0 0 4,
   .ldn 1 0 0 1,
   .addx 1 1 4,
   .st 5 0 0,
   .addx 0 0 4,
   .ldn 1 0 1 1,
   .addx 1 1 4,
   .st 6 0 0,
   .addx 0 0 4,
   .ldn 1 0 2 1,
   .addx 1 1 4,
   .st 7 0 0,
   .addx 0 0 4,
   .ldn 1 0 3 1,
   .addx 1 1 4,
   .ldn 1 0 4 1,
   .addx 1 1 4,
   .sshr 16 0 31,
   .ldn 1 0 5 1,
   .addx 1 1 4,
   .sshr 17 1 31,
   .ldn 1 0 6 1,
   .addx 1 1 4,
   .sshr 18 2 31,
   .ldn 1 0 7 1,
   .addx 1 1 4,
   .sshr 19 3 31,
   .sshr 20 4 31,
   .mls 0 16 (.v 24),
   .sshr 21 5 31,
   .mls 1 17 (.v 24),
   .sshr 22 6 31,
   .mls 2 18 (.v 24),
   .sshr 23 7 31,
   .mls 3 19 (.v 24),
   .mls 4 20 (.v 24),
   .st 0 0 0,
   .addx 0 0 4,
   .mls 5 21 (.v 24),
   .st 1 0 0,
   .addx 0 0 4,
   .mls 6 22 (.v 24),
   .st 2 0 0,
   .addx 0 0 4,
   .mls 7 23 (.v 24),
   .st 3 0 0,
   .addx 0 0 4]

/-- `asm_poly_caddq` (__asm_poly.S:200-288). `x0` the polynomial, `x1` the constants. -/
def polyCaddqAsm : List Instr :=
  [.ldrw 4 1 0,
   .dup 24 4,
   .addx 1 0 0,
   .ldn 1 0 0 1,
   .addx 1 1 4,
   .ldn 1 0 1 1,
   .addx 1 1 4,
   .ldn 1 0 2 1,
   .addx 1 1 4,
   .ldn 1 0 3 1,
   .addx 1 1 4,
   .ldn 1 0 4 1,
   .addx 1 1 4,
   .sshr 16 0 31,
   .ldn 1 0 5 1,
   .addx 1 1 4,
   .sshr 17 1 31,
   .ldn 1 0 6 1,
   .addx 1 1 4,
   .sshr 18 2 31,
   .ldn 1 0 7 1,
   .addx 1 1 4,
   .sshr 19 3 31,
   .sshr 20 4 31,
   .mls 0 16 (.v 24),
   .sshr 21 5 31,
   .mls 1 17 (.v 24),
   .sshr 22 6 31,
   .mls 2 18 (.v 24),
   .sshr 23 7 31,
   .mls 3 19 (.v 24),
   .mls 4 20 (.v 24),
   .st 0 0 0,
   .addx 0 0 4,
   .mls 5 21 (.v 24),
   .st 1 0 0,
   .addx 0 0 4,
   .mls 6 22 (.v 24),
   .st 2 0 0,
   .addx 0 0 4,
   .mls 7 23 (.v 24),
   .st 3 0 0,
   .addx 0 0 4] ++
  loop 7 polyCaddqAsm_body ++
  [.st 4 0 0,
   .addx 0 0 4,
   .st 5 0 0,
   .addx 0 0 4,
   .st 6 0 0,
   .addx 0 0 4,
   .st 7 0 0,
   .addx 0 0 4]

/-- The loop body of `asm_poly_freeze` (__asm_poly.S:293-410). -/
def polyFreezeAsm_body : List Instr :=
  [.st 4 0 0,
   .addx 0 0 4,
   .ldn 1 0 0 1,
   .addx 1 1 4,
   .st 5 0 0,
   .addx 0 0 4,
   .ldn 1 0 1 1,
   .addx 1 1 4,
   .st 6 0 0,
   .addx 0 0 4,
   .ldn 1 0 2 1,
   .addx 1 1 4,
   .st 7 0 0,
   .addx 0 0 4,
   .ldn 1 0 3 1,
   .addx 1 1 4,
   .ldn 1 0 4 1,
   .addx 1 1 4,
   .srshr 16 0 23,
   .ldn 1 0 5 1,
   .addx 1 1 4,
   .srshr 17 1 23,
   .ldn 1 0 6 1,
   .addx 1 1 4,
   .srshr 18 2 23,
   .ldn 1 0 7 1,
   .addx 1 1 4,
   .srshr 19 3 23,
   .srshr 20 4 23,
   .mls 0 16 (.v 24),
   .srshr 21 5 23,
   .mls 1 17 (.v 24),
   .srshr 22 6 23,
   .mls 2 18 (.v 24),
   .srshr 23 7 23,
   .mls 3 19 (.v 24),
   .mls 4 20 (.v 24),
   .sshr 16 0 31,
   .mls 5 21 (.v 24),
   .sshr 17 1 31,
   .mls 6 22 (.v 24),
   .sshr 18 2 31,
   .mls 7 23 (.v 24),
   .sshr 19 3 31,
   .sshr 20 4 31,
   .mls 0 16 (.v 24),
   .sshr 21 5 31,
   .mls 1 17 (.v 24),
   .sshr 22 6 31,
   .mls 2 18 (.v 24),
   .sshr 23 7 31,
   .mls 3 19 (.v 24),
   .mls 4 20 (.v 24),
   .st 0 0 0,
   .addx 0 0 4,
   .mls 5 21 (.v 24),
   .st 1 0 0,
   .addx 0 0 4,
   .mls 6 22 (.v 24),
   .st 2 0 0,
   .addx 0 0 4,
   .mls 7 23 (.v 24),
   .st 3 0 0,
   .addx 0 0 4]

/-- `asm_poly_freeze` (__asm_poly.S:293-417). `x0` the polynomial, `x1` the constants. -/
def polyFreezeAsm : List Instr :=
  [.ldrw 4 1 0,
   .dup 24 4,
   .addx 1 0 0,
   .ldn 1 0 0 1,
   .addx 1 1 4,
   .ldn 1 0 1 1,
   .addx 1 1 4,
   .ldn 1 0 2 1,
   .addx 1 1 4,
   .ldn 1 0 3 1,
   .addx 1 1 4,
   .ldn 1 0 4 1,
   .addx 1 1 4,
   .srshr 16 0 23,
   .ldn 1 0 5 1,
   .addx 1 1 4,
   .srshr 17 1 23,
   .ldn 1 0 6 1,
   .addx 1 1 4,
   .srshr 18 2 23,
   .ldn 1 0 7 1,
   .addx 1 1 4,
   .srshr 19 3 23,
   .srshr 20 4 23,
   .mls 0 16 (.v 24),
   .srshr 21 5 23,
   .mls 1 17 (.v 24),
   .srshr 22 6 23,
   .mls 2 18 (.v 24),
   .srshr 23 7 23,
   .mls 3 19 (.v 24),
   .mls 4 20 (.v 24),
   .sshr 16 0 31,
   .mls 5 21 (.v 24),
   .sshr 17 1 31,
   .mls 6 22 (.v 24),
   .sshr 18 2 31,
   .mls 7 23 (.v 24),
   .sshr 19 3 31,
   .sshr 20 4 31,
   .mls 0 16 (.v 24),
   .sshr 21 5 31,
   .mls 1 17 (.v 24),
   .sshr 22 6 31,
   .mls 2 18 (.v 24),
   .sshr 23 7 31,
   .mls 3 19 (.v 24),
   .mls 4 20 (.v 24),
   .st 0 0 0,
   .addx 0 0 4,
   .mls 5 21 (.v 24),
   .st 1 0 0,
   .addx 0 0 4,
   .mls 6 22 (.v 24),
   .st 2 0 0,
   .addx 0 0 4,
   .mls 7 23 (.v 24),
   .st 3 0 0,
   .addx 0 0 4] ++
  loop 8 polyFreezeAsm_body ++
  [.st 4 0 0,
   .addx 0 0 4,
   .st 5 0 0,
   .addx 0 0 4,
   .st 6 0 0,
   .addx 0 0 4,
   .st 7 0 0,
   .addx 0 0 4]

/-- The loop body of `asm_poly_power2round` (__asm_poly.S:422-556). -/
def polyPower2roundAsm_body : List Instr :=
  [.st 28 1 0,
   .addx 1 1 4,
   .dup 28 4,
   .ldn 1 0 0 2,
   .addx 2 2 4,
   .st 29 1 0,
   .addx 1 1 4,
   .ldn 1 0 1 2,
   .addx 2 2 4,
   .st 30 1 0,
   .addx 1 1 4,
   .ldn 1 0 2 2,
   .addx 2 2 4,
   .st 31 1 0,
   .addx 1 1 4,
   .ldn 1 0 3 2,
   .addx 2 2 4,
   .ldn 1 0 20 2,
   .addx 2 2 4,
   .sub 4 0 28,
   .ldn 1 0 21 2,
   .addx 2 2 4,
   .sub 5 1 28,
   .ldn 1 0 22 2,
   .addx 2 2 4,
   .sub 6 2 28,
   .ldn 1 0 23 2,
   .addx 2 2 4,
   .sub 7 3 28,
   .sub 24 20 28,
   .srshr 16 4 13,
   .sub 25 21 28,
   .srshr 17 5 13,
   .sub 26 22 28,
   .srshr 18 6 13,
   .sub 27 23 28,
   .srshr 19 7 13,
   .srshr 28 24 13,
   .st 16 0 0,
   .addx 0 0 4,
   .srshr 29 25 13,
   .st 17 0 0,
   .addx 0 0 4,
   .srshr 30 26 13,
   .st 18 0 0,
   .addx 0 0 4,
   .srshr 31 27 13,
   .st 19 0 0,
   .addx 0 0 4,
   .st 28 0 0,
   .addx 0 0 4,
   .shl 4 16 13,
   .st 29 0 0,
   .addx 0 0 4,
   .shl 5 17 13,
   .st 30 0 0,
   .addx 0 0 4,
   .shl 6 18 13,
   .st 31 0 0,
   .addx 0 0 4,
   .shl 7 19 13,
   .shl 24 28 13,
   .sub 16 0 4,
   .shl 25 29 13,
   .sub 17 1 5,
   .shl 26 30 13,
   .sub 18 2 6,
   .shl 27 31 13,
   .sub 19 3 7,
   .sub 28 20 24,
   .st 16 1 0,
   .addx 1 1 4,
   .sub 29 21 25,
   .st 17 1 0,
   .addx 1 1 4,
   .sub 30 22 26,
   .st 18 1 0,
   .addx 1 1 4,
   .sub 31 23 27,
   .st 19 1 0,
   .addx 1 1 4]

/-- `asm_poly_power2round` (__asm_poly.S:422-563). `x0`, `x1` the outputs, `x2` the input. -/
def polyPower2roundAsm : List Instr :=
  [.movw 4 1,
   .dup 28 4,
   .ldn 1 0 0 2,
   .addx 2 2 4,
   .ldn 1 0 1 2,
   .addx 2 2 4,
   .ldn 1 0 2 2,
   .addx 2 2 4,
   .ldn 1 0 3 2,
   .addx 2 2 4,
   .ldn 1 0 20 2,
   .addx 2 2 4,
   .sub 4 0 28,
   .ldn 1 0 21 2,
   .addx 2 2 4,
   .sub 5 1 28,
   .ldn 1 0 22 2,
   .addx 2 2 4,
   .sub 6 2 28,
   .ldn 1 0 23 2,
   .addx 2 2 4,
   .sub 7 3 28,
   .sub 24 20 28,
   .srshr 16 4 13,
   .sub 25 21 28,
   .srshr 17 5 13,
   .sub 26 22 28,
   .srshr 18 6 13,
   .sub 27 23 28,
   .srshr 19 7 13,
   .srshr 28 24 13,
   .st 16 0 0,
   .addx 0 0 4,
   .srshr 29 25 13,
   .st 17 0 0,
   .addx 0 0 4,
   .srshr 30 26 13,
   .st 18 0 0,
   .addx 0 0 4,
   .srshr 31 27 13,
   .st 19 0 0,
   .addx 0 0 4,
   .st 28 0 0,
   .addx 0 0 4,
   .shl 4 16 13,
   .st 29 0 0,
   .addx 0 0 4,
   .shl 5 17 13,
   .st 30 0 0,
   .addx 0 0 4,
   .shl 6 18 13,
   .st 31 0 0,
   .addx 0 0 4,
   .shl 7 19 13,
   .shl 24 28 13,
   .sub 16 0 4,
   .shl 25 29 13,
   .sub 17 1 5,
   .shl 26 30 13,
   .sub 18 2 6,
   .shl 27 31 13,
   .sub 19 3 7,
   .sub 28 20 24,
   .st 16 1 0,
   .addx 1 1 4,
   .sub 29 21 25,
   .st 17 1 0,
   .addx 1 1 4,
   .sub 30 22 26,
   .st 18 1 0,
   .addx 1 1 4,
   .sub 31 23 27,
   .st 19 1 0,
   .addx 1 1 4] ++
  loop 7 polyPower2roundAsm_body ++
  [.st 28 1 0,
   .addx 1 1 4,
   .st 29 1 0,
   .addx 1 1 4,
   .st 30 1 0,
   .addx 1 1 4,
   .st 31 1 0,
   .addx 1 1 4]

/-- The loop body of `asm_poly_pointwise_montgomery` (__asm_poly.S:733-837). -/
def polyPointwiseAsm_body : List Instr :=
  [.st 24 0 0,
   .addx 0 0 4,
   .ldn 1 0 0 1,
   .addx 1 1 4,
   .st 25 0 0,
   .addx 0 0 4,
   .ldn 1 0 1 1,
   .addx 1 1 4,
   .st 26 0 0,
   .addx 0 0 4,
   .ldn 1 0 2 1,
   .addx 1 1 4,
   .st 27 0 0,
   .addx 0 0 4,
   .ldn 1 0 3 1,
   .addx 1 1 4,
   .ldn 1 0 4 2,
   .addx 2 2 4,
   .ldn 1 0 5 2,
   .addx 2 2 4,
   .ldn 1 0 6 2,
   .addx 2 2 4,
   .ldn 1 0 7 2,
   .addx 2 2 4,
   .smull 12 0 4,
   .smull2 16 0 4,
   .smull 13 1 5,
   .smull2 17 1 5,
   .smull 14 2 6,
   .smull2 18 2 6,
   .smull 15 3 7,
   .smull2 19 3 7,
   .uzp1 20 12 16,
   .uzp1 21 13 17,
   .uzp1 22 14 18,
   .uzp1 23 15 19,
   .mul 24 20 (.v 31),
   .mul 25 21 (.v 31),
   .mul 26 22 (.v 31),
   .mul 27 23 (.v 31),
   .smlsl 12 24 30,
   .smlsl2 16 24 30,
   .smlsl 13 25 30,
   .smlsl2 17 25 30,
   .smlsl 14 26 30,
   .smlsl2 18 26 30,
   .smlsl 15 27 30,
   .smlsl2 19 27 30,
   .uzp2 24 12 16,
   .uzp2 25 13 17,
   .uzp2 26 14 18,
   .uzp2 27 15 19]

/-- `asm_poly_pointwise_montgomery` (__asm_poly.S:733-846). `x0` the output, `x1`, `x2` the inputs, `x3` the constants. -/
def polyPointwiseAsm : List Instr :=
  [.ldrw 20 3 0,
   .ldrw 21 3 1,
   .dup 30 20,
   .dup 31 21,
   .ldn 1 0 0 1,
   .addx 1 1 4,
   .ldn 1 0 1 1,
   .addx 1 1 4,
   .ldn 1 0 2 1,
   .addx 1 1 4,
   .ldn 1 0 3 1,
   .addx 1 1 4,
   .ldn 1 0 4 2,
   .addx 2 2 4,
   .ldn 1 0 5 2,
   .addx 2 2 4,
   .ldn 1 0 6 2,
   .addx 2 2 4,
   .ldn 1 0 7 2,
   .addx 2 2 4,
   .smull 12 0 4,
   .smull2 16 0 4,
   .smull 13 1 5,
   .smull2 17 1 5,
   .smull 14 2 6,
   .smull2 18 2 6,
   .smull 15 3 7,
   .smull2 19 3 7,
   .uzp1 20 12 16,
   .uzp1 21 13 17,
   .uzp1 22 14 18,
   .uzp1 23 15 19,
   .mul 24 20 (.v 31),
   .mul 25 21 (.v 31),
   .mul 26 22 (.v 31),
   .mul 27 23 (.v 31),
   .smlsl 12 24 30,
   .smlsl2 16 24 30,
   .smlsl 13 25 30,
   .smlsl2 17 25 30,
   .smlsl 14 26 30,
   .smlsl2 18 26 30,
   .smlsl 15 27 30,
   .smlsl2 19 27 30,
   .uzp2 24 12 16,
   .uzp2 25 13 17,
   .uzp2 26 14 18,
   .uzp2 27 15 19] ++
  loop 15 polyPointwiseAsm_body ++
  [.st 24 0 0,
   .addx 0 0 4,
   .st 25 0 0,
   .addx 0 0 4,
   .st 26 0 0,
   .addx 0 0 4,
   .st 27 0 0,
   .addx 0 0 4]

/-- The loop body of `asm_polyvecl_pointwise_acc_montgomery` (__asm_poly.S:852-1155). -/
def pointwiseAccAsm_body : List Instr :=
  [.smlal 12 0 4,
   .smlal2 16 0 4,
   .smlal 13 1 5,
   .smlal2 17 1 5,
   .smlal 14 2 6,
   .smlal2 18 2 6,
   .smlal 15 3 7,
   .smlal2 19 3 7,
   .uzp1 20 12 16,
   .ldn 1 0 0 1,
   .addx 1 1 4,
   .uzp1 21 13 17,
   .ldn 1 0 1 1,
   .addx 1 1 4,
   .uzp1 22 14 18,
   .ldn 1 0 2 1,
   .addx 1 1 4,
   .uzp1 23 15 19,
   .ldn 1 0 3 1,
   .addx 1 1 4,
   .mul 24 20 (.v 31),
   .ldn 1 0 4 2,
   .addx 2 2 4,
   .mul 25 21 (.v 31),
   .ldn 1 0 5 2,
   .addx 2 2 4,
   .mul 26 22 (.v 31),
   .ldn 1 0 6 2,
   .addx 2 2 4,
   .mul 27 23 (.v 31),
   .ldn 1 0 7 2,
   .addx 2 2 4,
   .smlsl 12 24 30,
   .smlsl2 16 24 30,
   .smlsl 13 25 30,
   .smlsl2 17 25 30,
   .smlsl 14 26 30,
   .smlsl2 18 26 30,
   .smlsl 15 27 30,
   .smlsl2 19 27 30,
   .uzp2 24 12 16,
   .uzp2 25 13 17,
   .uzp2 26 14 18,
   .uzp2 27 15 19,
   .smull 12 0 4,
   .smull2 16 0 4,
   .ldn 1 0 0 5,
   .addx 5 5 4,
   .st 24 0 0,
   .addx 0 0 4,
   .ldn 1 0 4 6,
   .addx 6 6 4,
   .smull 13 1 5,
   .smull2 17 1 5,
   .ldn 1 0 1 5,
   .addx 5 5 4,
   .st 25 0 0,
   .addx 0 0 4,
   .ldn 1 0 5 6,
   .addx 6 6 4,
   .smull 14 2 6,
   .smull2 18 2 6,
   .ldn 1 0 2 5,
   .addx 5 5 4,
   .st 26 0 0,
   .addx 0 0 4,
   .ldn 1 0 6 6,
   .addx 6 6 4,
   .smull 15 3 7,
   .smull2 19 3 7,
   .ldn 1 0 3 5,
   .addx 5 5 4,
   .st 27 0 0,
   .addx 0 0 4,
   .ldn 1 0 7 6,
   .addx 6 6 4,
   .smlal 12 0 4,
   .smlal2 16 0 4,
   .ldn 1 0 0 7,
   .addx 7 7 4,
   .ldn 1 0 4 8,
   .addx 8 8 4,
   .smlal 13 1 5,
   .smlal2 17 1 5,
   .ldn 1 0 1 7,
   .addx 7 7 4,
   .ldn 1 0 5 8,
   .addx 8 8 4,
   .smlal 14 2 6,
   .smlal2 18 2 6,
   .ldn 1 0 2 7,
   .addx 7 7 4,
   .ldn 1 0 6 8,
   .addx 8 8 4,
   .smlal 15 3 7,
   .smlal2 19 3 7,
   .ldn 1 0 3 7,
   .addx 7 7 4,
   .ldn 1 0 7 8,
   .addx 8 8 4,
   .smlal 12 0 4,
   .smlal2 16 0 4,
   .ldn 1 0 0 9,
   .addx 9 9 4,
   .ldn 1 0 4 10,
   .addx 10 10 4,
   .smlal 13 1 5,
   .smlal2 17 1 5,
   .ldn 1 0 1 9,
   .addx 9 9 4,
   .ldn 1 0 5 10,
   .addx 10 10 4,
   .smlal 14 2 6,
   .smlal2 18 2 6,
   .ldn 1 0 2 9,
   .addx 9 9 4,
   .ldn 1 0 6 10,
   .addx 10 10 4,
   .smlal 15 3 7,
   .smlal2 19 3 7,
   .ldn 1 0 3 9,
   .addx 9 9 4,
   .ldn 1 0 7 10,
   .addx 10 10 4]

/-- `asm_polyvecl_pointwise_acc_montgomery` (__asm_poly.S:852-1197). `x0` the output, `x1`, `x2` the inputs, `x3` the constants; `L = 4`. -/
def pointwiseAccAsm : List Instr :=
  [.ldrw 20 3 0,
   .ldrw 21 3 1,
   .addx 5 1 256,
   .addx 6 2 256,
   .addx 7 1 512,
   .addx 8 2 512,
   .addx 9 1 768,
   .addx 10 2 768,
   .dup 30 20,
   .dup 31 21,
   .ldn 1 0 0 1,
   .addx 1 1 4,
   .ldn 1 0 1 1,
   .addx 1 1 4,
   .ldn 1 0 2 1,
   .addx 1 1 4,
   .ldn 1 0 3 1,
   .addx 1 1 4,
   .ldn 1 0 4 2,
   .addx 2 2 4,
   .ldn 1 0 5 2,
   .addx 2 2 4,
   .ldn 1 0 6 2,
   .addx 2 2 4,
   .ldn 1 0 7 2,
   .addx 2 2 4,
   .smull 12 0 4,
   .smull2 16 0 4,
   .ldn 1 0 0 5,
   .addx 5 5 4,
   .ldn 1 0 4 6,
   .addx 6 6 4,
   .smull 13 1 5,
   .smull2 17 1 5,
   .ldn 1 0 1 5,
   .addx 5 5 4,
   .ldn 1 0 5 6,
   .addx 6 6 4,
   .smull 14 2 6,
   .smull2 18 2 6,
   .ldn 1 0 2 5,
   .addx 5 5 4,
   .ldn 1 0 6 6,
   .addx 6 6 4,
   .smull 15 3 7,
   .smull2 19 3 7,
   .ldn 1 0 3 5,
   .addx 5 5 4,
   .ldn 1 0 7 6,
   .addx 6 6 4,
   .smlal 12 0 4,
   .smlal2 16 0 4,
   .ldn 1 0 0 7,
   .addx 7 7 4,
   .ldn 1 0 4 8,
   .addx 8 8 4,
   .smlal 13 1 5,
   .smlal2 17 1 5,
   .ldn 1 0 1 7,
   .addx 7 7 4,
   .ldn 1 0 5 8,
   .addx 8 8 4,
   .smlal 14 2 6,
   .smlal2 18 2 6,
   .ldn 1 0 2 7,
   .addx 7 7 4,
   .ldn 1 0 6 8,
   .addx 8 8 4,
   .smlal 15 3 7,
   .smlal2 19 3 7,
   .ldn 1 0 3 7,
   .addx 7 7 4,
   .ldn 1 0 7 8,
   .addx 8 8 4,
   .smlal 12 0 4,
   .smlal2 16 0 4,
   .ldn 1 0 0 9,
   .addx 9 9 4,
   .ldn 1 0 4 10,
   .addx 10 10 4,
   .smlal 13 1 5,
   .smlal2 17 1 5,
   .ldn 1 0 1 9,
   .addx 9 9 4,
   .ldn 1 0 5 10,
   .addx 10 10 4,
   .smlal 14 2 6,
   .smlal2 18 2 6,
   .ldn 1 0 2 9,
   .addx 9 9 4,
   .ldn 1 0 6 10,
   .addx 10 10 4,
   .smlal 15 3 7,
   .smlal2 19 3 7,
   .ldn 1 0 3 9,
   .addx 9 9 4,
   .ldn 1 0 7 10,
   .addx 10 10 4] ++
  loop 15 pointwiseAccAsm_body ++
  [.smlal 12 0 4,
   .smlal2 16 0 4,
   .smlal 13 1 5,
   .smlal2 17 1 5,
   .smlal 14 2 6,
   .smlal2 18 2 6,
   .smlal 15 3 7,
   .smlal2 19 3 7,
   .uzp1 20 12 16,
   .uzp1 21 13 17,
   .uzp1 22 14 18,
   .uzp1 23 15 19,
   .mul 24 20 (.v 31),
   .mul 25 21 (.v 31),
   .mul 26 22 (.v 31),
   .mul 27 23 (.v 31),
   .smlsl 12 24 30,
   .smlsl2 16 24 30,
   .smlsl 13 25 30,
   .smlsl2 17 25 30,
   .smlsl 14 26 30,
   .smlsl2 18 26 30,
   .smlsl 15 27 30,
   .smlsl2 19 27 30,
   .uzp2 24 12 16,
   .uzp2 25 13 17,
   .uzp2 26 14 18,
   .uzp2 27 15 19,
   .st 24 0 0,
   .addx 0 0 4,
   .st 25 0 0,
   .addx 0 0 4,
   .st 26 0 0,
   .addx 0 0 4,
   .st 27 0 0,
   .addx 0 0 4]

/-- `streamlined_CT_negacyclic_table_Q1_extended` (ntt.h:68-70). -/
def ctTable : List Int := [
  0, 0, -915382907, -3572223, 964937599, 3765607, 963888510, 3761513, -820383522, -3201494, -738955404, -2883726, -806080660, -3145678, -820367122, -3201430,
  -154181397, -601683, 907762539, 3542485, 687336873, 2682288, 545785280, 2129892, 964747974, 3764867, -257592709, -1005239, 142848732, 557458, -312926867, -1221177,
  0, 0, -863652652, -3370349, 923069133, 3602218, 815613168, 3182878, 787459213, 3073009, 327391679, 1277625, -675340520, -2635473, 987079667, 3852015,
  449207, 1753, -495951789, -1935420, -681503850, -2659525, -373072124, -1455890, 681730119, 2660408, -456183549, -1780227, -15156688, -59148, 710479343, 2772600,
  0, 0, -1041158200, -4063053, 702264730, 2740543, -919027554, -3586446, 1071989969, 4183372, -825844983, -3222807, -799869667, -3121440, -70227934, -274060,
  302950022, 1182243, 22347069, 87208, 163212680, 636927, -1016110510, -3965306, -1013916752, -3956745, -588452222, -2296397, -841760171, -3284915, -952468207, -3716946,
  0, 0, 682491182, 2663378, -797147778, -3110818, 538486762, 2101410, 642926661, 2508980, 519705671, 2028118, 496502727, 1937570, -977780347, -3815725,
  -7126831, -27812, 210776307, 822541, 258649997, 1009365, -628875181, -2454145, -507246529, -1979497, 409185979, 1596822, -1013967746, -3956944, -963363710, -3759465,
  0, 0, -429120452, -1674615, 949361686, 3704823, 297218217, 1159875, 720393920, 2811291, -764594519, -2983781, -284313712, -1109516, 1065510939, 4158088,
  -431820817, -1685153, -873958779, -3410568, 686309310, 2678278, -965793731, -3768948, -909946047, -3551006, 162963861, 635956, -64176841, -250446, -629190881, -2455377,
  0, 0, -903139016, -3524442, 101000509, 394148, 237992130, 928749, 391567239, 1528066, 123678909, 482649, 294395108, 1148858, -759080783, -2962264,
  -1062481036, -4146264, -454226054, -1772588, 561940831, 2192938, -442566669, -1727088, 611800717, 2387513, -925511710, -3611750, -68791907, -268456, -814992530, -3180456,
  0, 0, -111244624, -434125, 280713909, 1095468, -898510625, -3506380, -144935890, -565603, 43482586, 169688, 631001801, 2462444, -854436357, -3334383,
  960233614, 3747250, 588375860, 2296099, 317727459, 1239911, -983611064, -3838479, 818892658, 3195676, 677264190, 2642980, 321386456, 1254190, -3181859, -12417,
  0, 0, 173376332, 676590, 530906624, 2071829, -1029866791, -4018989, -1067647297, -4166425, -893898890, -3488383, 509377762, 1987814, -819295484, -3197248,
  768294260, 2998219, 36345249, 141835, -22883400, -89301, 643961400, 2513018, -347191365, -1354892, 157142369, 613238, -335754661, -1310261, -568482643, -2218467,
  0, 0, -342333886, -1335936, 830756018, 3241972, 552488273, 2156050, 444930577, 1736313, 60323094, 235407, -832852657, -3250154, 834980303, 3258457,
  -117552223, -458740, -492511373, -1921994, 1035301089, 4040196, -889718424, -3472069, 522531086, 2039144, -481719139, -1879878, -209807681, -818761, -558360247, -2178965,
  0, 0, -827143915, -3227876, 875112161, 3415069, 450833045, 1759347, -660934133, -2579253, 458160776, 1787943, -612717067, -2391089, -577774276, -2254727,
  -415984810, -1623354, 539479988, 2105286, -608441020, -2374402, -521163479, -2033807, 150224382, 586241, -302276083, -1179613, 135295244, 527981, -702999655, -2743411,
  0, 0, 439288460, 1714295, -209493775, -817536, -915957677, -3574466, 892316032, 3482206, -1071872863, -4182915, -333129378, -1300016, -605279149, -2362063,
  -378477722, -1476985, 510974714, 1994046, 638402564, 2491325, -356997292, -1393159, 130156402, 507927, -304395785, -1187885, -185731180, -724804, -470097680, -1834526,
  0, 0, 628833668, 2453983, 962678241, 3756790, -496048908, -1935799, -337655269, -1317678, 630730945, 2461387, 777970524, 3035980, 159173408, 621164,
  -777397036, -3033742, -86720197, -338420, 678549029, 2647994, 771248568, 3009748, -669544140, -2612853, 1063046068, 4148469, 192079267, 749577, -1030830548, -4022750,
  0, 0, 374309300, 1460718, -439978542, -1716988, -1012201926, -3950053, 999753034, 3901472, -314332144, -1226661, 749740976, 2925816, 864652284, 3374250,
  1020029345, 3980599, 658309618, 2569011, -413979908, -1615530, 441577800, 1723229, 426738094, 1665318, 519685171, 2028038, 298172236, 1163598, -863376927, -3369273,
  0, 0, -164673562, -642628, -742437332, -2897314, 818041395, 3192354, 347590090, 1356448, -711287812, -2775755, 687588511, 2683270, -712065019, -2778788,
  1023635298, 3994671, -3043996, -11879, -351195274, -1370517, 773976352, 3020393, 861908357, 3363542, 55063046, 214880, 139752717, 545376, -197425671, -770441,
  0, 0, -918682129, -3585098, 142694469, 556856, 991769559, 3870317, -888589898, -3467665, 592665232, 2312838, -167401858, -653275, -117660617, -459163,
  795799901, 3105558, -282732136, -1103344, 130212265, 508145, -141890356, -553718, 220412084, 860144, 879049958, 3430436, 35937555, 140244, -388001774, -1514152,
  0, 0, 721508096, 2815639, 747568486, 2917338, 475038184, 1853806, 89383150, 348812, -84011120, -327848, 259126110, 1011223, -603268097, -2354215,
  -559928242, -2185084, 800464680, 3123762, 604333585, 2358373, -561979013, -2193087, -772445769, -3014420, -439933955, -1716814, 749801963, 2926054, -100631253, -392707,
  0, 0, 585207070, 2283733, 857403734, 3345963, 476219497, 1858416, -978523985, -3818627, -492577742, -1922253, -573161516, -2236726, 447030292, 1744507,
  -77645096, -303005, 904878186, 3531229, -1018462631, -3974485, -967019376, -3773731, 486888731, 1900052, -200355636, -781875, 270210213, 1054478, -187430119, -731434,
  0, 0]

/-- `streamlined_inv_CT_table_Q1_extended` (ntt.h:72-74). -/
def invTable : List Int := [
  0, 0, 915382907, 3572223, -963888510, -3761513, -964937599, -3765607, 820367122, 3201430, 806080660, 3145678, 738955404, 2883726, 820383522, 3201494,
  312926867, 1221177, -142848732, -557458, 257592709, 1005239, -964747974, -3764867, -545785280, -2129892, -687336873, -2682288, -907762539, -3542485, 154181397, 601683,
  0, 0, -585207070, -2283733, -476219497, -1858416, -857403734, -3345963, -447030292, -1744507, 573161516, 2236726, 492577742, 1922253, 978523985, 3818627,
  187430119, 731434, -270210213, -1054478, 200355636, 781875, -486888731, -1900052, 967019376, 3773731, 1018462631, 3974485, -904878186, -3531229, 77645096, 303005,
  0, 0, -721508096, -2815639, -475038184, -1853806, -747568486, -2917338, 603268097, 2354215, -259126110, -1011223, 84011120, 327848, -89383150, -348812,
  100631253, 392707, -749801963, -2926054, 439933955, 1716814, 772445769, 3014420, 561979013, 2193087, -604333585, -2358373, -800464680, -3123762, 559928242, 2185084,
  0, 0, 918682129, 3585098, -991769559, -3870317, -142694469, -556856, 117660617, 459163, 167401858, 653275, -592665232, -2312838, 888589898, 3467665,
  388001774, 1514152, -35937555, -140244, -879049958, -3430436, -220412084, -860144, 141890356, 553718, -130212265, -508145, 282732136, 1103344, -795799901, -3105558,
  0, 0, 164673562, 642628, -818041395, -3192354, 742437332, 2897314, 712065019, 2778788, -687588511, -2683270, 711287812, 2775755, -347590090, -1356448,
  197425671, 770441, -139752717, -545376, -55063046, -214880, -861908357, -3363542, -773976352, -3020393, 351195274, 1370517, 3043996, 11879, -1023635298, -3994671,
  0, 0, -374309300, -1460718, 1012201926, 3950053, 439978542, 1716988, -864652284, -3374250, -749740976, -2925816, 314332144, 1226661, -999753034, -3901472,
  863376927, 3369273, -298172236, -1163598, -519685171, -2028038, -426738094, -1665318, -441577800, -1723229, 413979908, 1615530, -658309618, -2569011, -1020029345, -3980599,
  0, 0, -628833668, -2453983, 496048908, 1935799, -962678241, -3756790, -159173408, -621164, -777970524, -3035980, -630730945, -2461387, 337655269, 1317678,
  1030830548, 4022750, -192079267, -749577, -1063046068, -4148469, 669544140, 2612853, -771248568, -3009748, -678549029, -2647994, 86720197, 338420, 777397036, 3033742,
  0, 0, -439288460, -1714295, 915957677, 3574466, 209493775, 817536, 605279149, 2362063, 333129378, 1300016, 1071872863, 4182915, -892316032, -3482206,
  470097680, 1834526, 185731180, 724804, 304395785, 1187885, -130156402, -507927, 356997292, 1393159, -638402564, -2491325, -510974714, -1994046, 378477722, 1476985,
  0, 0, 827143915, 3227876, -450833045, -1759347, -875112161, -3415069, 577774276, 2254727, 612717067, 2391089, -458160776, -1787943, 660934133, 2579253,
  702999655, 2743411, -135295244, -527981, 302276083, 1179613, -150224382, -586241, 521163479, 2033807, 608441020, 2374402, -539479988, -2105286, 415984810, 1623354,
  0, 0, 342333886, 1335936, -552488273, -2156050, -830756018, -3241972, -834980303, -3258457, 832852657, 3250154, -60323094, -235407, -444930577, -1736313,
  558360247, 2178965, 209807681, 818761, 481719139, 1879878, -522531086, -2039144, 889718424, 3472069, -1035301089, -4040196, 492511373, 1921994, 117552223, 458740,
  0, 0, -173376332, -676590, 1029866791, 4018989, -530906624, -2071829, 819295484, 3197248, -509377762, -1987814, 893898890, 3488383, 1067647297, 4166425,
  568482643, 2218467, 335754661, 1310261, -157142369, -613238, 347191365, 1354892, -643961400, -2513018, 22883400, 89301, -36345249, -141835, -768294260, -2998219,
  0, 0, 111244624, 434125, 898510625, 3506380, -280713909, -1095468, 854436357, 3334383, -631001801, -2462444, -43482586, -169688, 144935890, 565603,
  3181859, 12417, -321386456, -1254190, -677264190, -2642980, -818892658, -3195676, 983611064, 3838479, -317727459, -1239911, -588375860, -2296099, -960233614, -3747250,
  0, 0, 903139016, 3524442, -237992130, -928749, -101000509, -394148, 759080783, 2962264, -294395108, -1148858, -123678909, -482649, -391567239, -1528066,
  814992530, 3180456, 68791907, 268456, 925511710, 3611750, -611800717, -2387513, 442566669, 1727088, -561940831, -2192938, 454226054, 1772588, 1062481036, 4146264,
  0, 0, 429120452, 1674615, -297218217, -1159875, -949361686, -3704823, -1065510939, -4158088, 284313712, 1109516, 764594519, 2983781, -720393920, -2811291,
  629190881, 2455377, 64176841, 250446, -162963861, -635956, 909946047, 3551006, 965793731, 3768948, -686309310, -2678278, 873958779, 3410568, 431820817, 1685153,
  0, 0, -682491182, -2663378, -538486762, -2101410, 797147778, 3110818, 977780347, 3815725, -496502727, -1937570, -519705671, -2028118, -642926661, -2508980,
  963363710, 3759465, 1013967746, 3956944, -409185979, -1596822, 507246529, 1979497, 628875181, 2454145, -258649997, -1009365, -210776307, -822541, 7126831, 27812,
  0, 0, 1041158200, 4063053, 919027554, 3586446, -702264730, -2740543, 70227934, 274060, 799869667, 3121440, 825844983, 3222807, -1071989969, -4183372,
  952468207, 3716946, 841760171, 3284915, 588452222, 2296397, 1013916752, 3956745, 1016110510, 3965306, -163212680, -636927, -22347069, -87208, -302950022, -1182243,
  0, 0, 863652652, 3370349, -815613168, -3182878, -923069133, -3602218, -987079667, -3852015, 675340520, 2635473, -327391679, -1277625, -787459213, -3073009,
  -710479343, -2772600, 15156688, 59148, 456183549, 1780227, -681730119, -2660408, 373072124, 1455890, 681503850, 2659525, 495951789, 1935420, -449207, -1753,
  0, 0]

/-- `constants` (ntt.h:60-65, NTT_params.h). -/
def nttConstants : List Int := [8380417, -58728449, 256, 1, 4197891, 16382, -75523344, -294725, 0, 0, 0, 0, 0, 0, 0, 0]

end Verif.Neon
