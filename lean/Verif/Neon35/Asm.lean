import Verif.Neon.Simd

/-!
# asm_polyvecl_pointwise_acc_montgomery of dilithium3/aarch64 and dilithium5/aarch64

Generated by tools/gen_neon_asm.py.  All other assembly of the two is, byte for byte up to the names, that of dilithium2 (`Asm.lean`); this routine too, but it
is assembled with `L = 5` and `L = 7`.
-/

namespace Verif.Neon

/-- The loop body of `asm_polyvecl_pointwise_acc_montgomery` (__asm_poly.S:852-1155). -/
def pointwiseAccAsm5_body : List Instr :=
  [.smlal 12 0 4,
   .smlal2 16 0 4,
   .smlal 13 1 5,
   .smlal2 17 1 5,
   .smlal 14 2 6,
   .smlal2 18 2 6,
   .smlal 15 3 7,
   .smlal2 19 3 7,
   .uzp1 20 12 16,
   .ldn 1 0 0 1,
   .addx 1 1 4,
   .uzp1 21 13 17,
   .ldn 1 0 1 1,
   .addx 1 1 4,
   .uzp1 22 14 18,
   .ldn 1 0 2 1,
   .addx 1 1 4,
   .uzp1 23 15 19,
   .ldn 1 0 3 1,
   .addx 1 1 4,
   .mul 24 20 (.v 31),
   .ldn 1 0 4 2,
   .addx 2 2 4,
   .mul 25 21 (.v 31),
   .ldn 1 0 5 2,
   .addx 2 2 4,
   .mul 26 22 (.v 31),
   .ldn 1 0 6 2,
   .addx 2 2 4,
   .mul 27 23 (.v 31),
   .ldn 1 0 7 2,
   .addx 2 2 4,
   .smlsl 12 24 30,
   .smlsl2 16 24 30,
   .smlsl 13 25 30,
   .smlsl2 17 25 30,
   .smlsl 14 26 30,
   .smlsl2 18 26 30,
   .smlsl 15 27 30,
   .smlsl2 19 27 30,
   .uzp2 24 12 16,
   .uzp2 25 13 17,
   .uzp2 26 14 18,
   .uzp2 27 15 19,
   .smull 12 0 4,
   .smull2 16 0 4,
   .ldn 1 0 0 5,
   .addx 5 5 4,
   .st 24 0 0,
   .addx 0 0 4,
   .ldn 1 0 4 6,
   .addx 6 6 4,
   .smull 13 1 5,
   .smull2 17 1 5,
   .ldn 1 0 1 5,
   .addx 5 5 4,
   .st 25 0 0,
   .addx 0 0 4,
   .ldn 1 0 5 6,
   .addx 6 6 4,
   .smull 14 2 6,
   .smull2 18 2 6,
   .ldn 1 0 2 5,
   .addx 5 5 4,
   .st 26 0 0,
   .addx 0 0 4,
   .ldn 1 0 6 6,
   .addx 6 6 4,
   .smull 15 3 7,
   .smull2 19 3 7,
   .ldn 1 0 3 5,
   .addx 5 5 4,
   .st 27 0 0,
   .addx 0 0 4,
   .ldn 1 0 7 6,
   .addx 6 6 4,
   .smlal 12 0 4,
   .smlal2 16 0 4,
   .ldn 1 0 0 7,
   .addx 7 7 4,
   .ldn 1 0 4 8,
   .addx 8 8 4,
   .smlal 13 1 5,
   .smlal2 17 1 5,
   .ldn 1 0 1 7,
   .addx 7 7 4,
   .ldn 1 0 5 8,
   .addx 8 8 4,
   .smlal 14 2 6,
   .smlal2 18 2 6,
   .ldn 1 0 2 7,
   .addx 7 7 4,
   .ldn 1 0 6 8,
   .addx 8 8 4,
   .smlal 15 3 7,
   .smlal2 19 3 7,
   .ldn 1 0 3 7,
   .addx 7 7 4,
   .ldn 1 0 7 8,
   .addx 8 8 4,
   .smlal 12 0 4,
   .smlal2 16 0 4,
   .ldn 1 0 0 9,
   .addx 9 9 4,
   .ldn 1 0 4 10,
   .addx 10 10 4,
   .smlal 13 1 5,
   .smlal2 17 1 5,
   .ldn 1 0 1 9,
   .addx 9 9 4,
   .ldn 1 0 5 10,
   .addx 10 10 4,
   .smlal 14 2 6,
   .smlal2 18 2 6,
   .ldn 1 0 2 9,
   .addx 9 9 4,
   .ldn 1 0 6 10,
   .addx 10 10 4,
   .smlal 15 3 7,
   .smlal2 19 3 7,
   .ldn 1 0 3 9,
   .addx 9 9 4,
   .ldn 1 0 7 10,
   .addx 10 10 4,
   .smlal 12 0 4,
   .smlal2 16 0 4,
   .ldn 1 0 0 11,
   .addx 11 11 4,
   .ldn 1 0 4 12,
   .addx 12 12 4,
   .smlal 13 1 5,
   .smlal2 17 1 5,
   .ldn 1 0 1 11,
   .addx 11 11 4,
   .ldn 1 0 5 12,
   .addx 12 12 4,
   .smlal 14 2 6,
   .smlal2 18 2 6,
   .ldn 1 0 2 11,
   .addx 11 11 4,
   .ldn 1 0 6 12,
   .addx 12 12 4,
   .smlal 15 3 7,
   .smlal2 19 3 7,
   .ldn 1 0 3 11,
   .addx 11 11 4,
   .ldn 1 0 7 12,
   .addx 12 12 4]

/-- What comes before the loop of `asm_polyvecl_pointwise_acc_montgomery` (__asm_poly.S:852-1197). -/
def pointwiseAccAsm5_pre : List Instr :=
  [.ldrw 20 3 0,
   .ldrw 21 3 1,
   .addx 5 1 256,
   .addx 6 2 256,
   .addx 7 1 512,
   .addx 8 2 512,
   .addx 9 1 768,
   .addx 10 2 768,
   .addx 11 1 1024,
   .addx 12 2 1024,
   .dup 30 20,
   .dup 31 21,
   .ldn 1 0 0 1,
   .addx 1 1 4,
   .ldn 1 0 1 1,
   .addx 1 1 4,
   .ldn 1 0 2 1,
   .addx 1 1 4,
   .ldn 1 0 3 1,
   .addx 1 1 4,
   .ldn 1 0 4 2,
   .addx 2 2 4,
   .ldn 1 0 5 2,
   .addx 2 2 4,
   .ldn 1 0 6 2,
   .addx 2 2 4,
   .ldn 1 0 7 2,
   .addx 2 2 4,
   .smull 12 0 4,
   .smull2 16 0 4,
   .ldn 1 0 0 5,
   .addx 5 5 4,
   .ldn 1 0 4 6,
   .addx 6 6 4,
   .smull 13 1 5,
   .smull2 17 1 5,
   .ldn 1 0 1 5,
   .addx 5 5 4,
   .ldn 1 0 5 6,
   .addx 6 6 4,
   .smull 14 2 6,
   .smull2 18 2 6,
   .ldn 1 0 2 5,
   .addx 5 5 4,
   .ldn 1 0 6 6,
   .addx 6 6 4,
   .smull 15 3 7,
   .smull2 19 3 7,
   .ldn 1 0 3 5,
   .addx 5 5 4,
   .ldn 1 0 7 6,
   .addx 6 6 4,
   .smlal 12 0 4,
   .smlal2 16 0 4,
   .ldn 1 0 0 7,
   .addx 7 7 4,
   .ldn 1 0 4 8,
   .addx 8 8 4,
   .smlal 13 1 5,
   .smlal2 17 1 5,
   .ldn 1 0 1 7,
   .addx 7 7 4,
   .ldn 1 0 5 8,
   .addx 8 8 4,
   .smlal 14 2 6,
   .smlal2 18 2 6,
   .ldn 1 0 2 7,
   .addx 7 7 4,
   .ldn 1 0 6 8,
   .addx 8 8 4,
   .smlal 15 3 7,
   .smlal2 19 3 7,
   .ldn 1 0 3 7,
   .addx 7 7 4,
   .ldn 1 0 7 8,
   .addx 8 8 4,
   .smlal 12 0 4,
   .smlal2 16 0 4,
   .ldn 1 0 0 9,
   .addx 9 9 4,
   .ldn 1 0 4 10,
   .addx 10 10 4,
   .smlal 13 1 5,
   .smlal2 17 1 5,
   .ldn 1 0 1 9,
   .addx 9 9 4,
   .ldn 1 0 5 10,
   .addx 10 10 4,
   .smlal 14 2 6,
   .smlal2 18 2 6,
   .ldn 1 0 2 9,
   .addx 9 9 4,
   .ldn 1 0 6 10,
   .addx 10 10 4,
   .smlal 15 3 7,
   .smlal2 19 3 7,
   .ldn 1 0 3 9,
   .addx 9 9 4,
   .ldn 1 0 7 10,
   .addx 10 10 4,
   .smlal 12 0 4,
   .smlal2 16 0 4,
   .ldn 1 0 0 11,
   .addx 11 11 4,
   .ldn 1 0 4 12,
   .addx 12 12 4,
   .smlal 13 1 5,
   .smlal2 17 1 5,
   .ldn 1 0 1 11,
   .addx 11 11 4,
   .ldn 1 0 5 12,
   .addx 12 12 4,
   .smlal 14 2 6,
   .smlal2 18 2 6,
   .ldn 1 0 2 11,
   .addx 11 11 4,
   .ldn 1 0 6 12,
   .addx 12 12 4,
   .smlal 15 3 7,
   .smlal2 19 3 7,
   .ldn 1 0 3 11,
   .addx 11 11 4,
   .ldn 1 0 7 12,
   .addx 12 12 4]

/-- What comes after the loop of `asm_polyvecl_pointwise_acc_montgomery` (__asm_poly.S:852-1197). -/
def pointwiseAccAsm5_post : List Instr :=
  [.smlal 12 0 4,
   .smlal2 16 0 4,
   .smlal 13 1 5,
   .smlal2 17 1 5,
   .smlal 14 2 6,
   .smlal2 18 2 6,
   .smlal 15 3 7,
   .smlal2 19 3 7,
   .uzp1 20 12 16,
   .uzp1 21 13 17,
   .uzp1 22 14 18,
   .uzp1 23 15 19,
   .mul 24 20 (.v 31),
   .mul 25 21 (.v 31),
   .mul 26 22 (.v 31),
   .mul 27 23 (.v 31),
   .smlsl 12 24 30,
   .smlsl2 16 24 30,
   .smlsl 13 25 30,
   .smlsl2 17 25 30,
   .smlsl 14 26 30,
   .smlsl2 18 26 30,
   .smlsl 15 27 30,
   .smlsl2 19 27 30,
   .uzp2 24 12 16,
   .uzp2 25 13 17,
   .uzp2 26 14 18,
   .uzp2 27 15 19,
   .st 24 0 0,
   .addx 0 0 4,
   .st 25 0 0,
   .addx 0 0 4,
   .st 26 0 0,
   .addx 0 0 4,
   .st 27 0 0,
   .addx 0 0 4]

/-- `asm_polyvecl_pointwise_acc_montgomery` (__asm_poly.S:852-1197). dilithium3: `L = 5`. -/
def pointwiseAccAsm5 : List Instr :=
  pointwiseAccAsm5_pre ++
  loop 15 pointwiseAccAsm5_body ++
  pointwiseAccAsm5_post

/-- The loop body of `asm_polyvecl_pointwise_acc_montgomery` (__asm_poly.S:852-1155). -/
def pointwiseAccAsm7_body : List Instr :=
  [.smlal 12 0 4,
   .smlal2 16 0 4,
   .smlal 13 1 5,
   .smlal2 17 1 5,
   .smlal 14 2 6,
   .smlal2 18 2 6,
   .smlal 15 3 7,
   .smlal2 19 3 7,
   .uzp1 20 12 16,
   .ldn 1 0 0 1,
   .addx 1 1 4,
   .uzp1 21 13 17,
   .ldn 1 0 1 1,
   .addx 1 1 4,
   .uzp1 22 14 18,
   .ldn 1 0 2 1,
   .addx 1 1 4,
   .uzp1 23 15 19,
   .ldn 1 0 3 1,
   .addx 1 1 4,
   .mul 24 20 (.v 31),
   .ldn 1 0 4 2,
   .addx 2 2 4,
   .mul 25 21 (.v 31),
   .ldn 1 0 5 2,
   .addx 2 2 4,
   .mul 26 22 (.v 31),
   .ldn 1 0 6 2,
   .addx 2 2 4,
   .mul 27 23 (.v 31),
   .ldn 1 0 7 2,
   .addx 2 2 4,
   .smlsl 12 24 30,
   .smlsl2 16 24 30,
   .smlsl 13 25 30,
   .smlsl2 17 25 30,
   .smlsl 14 26 30,
   .smlsl2 18 26 30,
   .smlsl 15 27 30,
   .smlsl2 19 27 30,
   .uzp2 24 12 16,
   .uzp2 25 13 17,
   .uzp2 26 14 18,
   .uzp2 27 15 19,
   .smull 12 0 4,
   .smull2 16 0 4,
   .ldn 1 0 0 5,
   .addx 5 5 4,
   .st 24 0 0,
   .addx 0 0 4,
   .ldn 1 0 4 6,
   .addx 6 6 4,
   .smull 13 1 5,
   .smull2 17 1 5,
   .ldn 1 0 1 5,
   .addx 5 5 4,
   .st 25 0 0,
   .addx 0 0 4,
   .ldn 1 0 5 6,
   .addx 6 6 4,
   .smull 14 2 6,
   .smull2 18 2 6,
   .ldn 1 0 2 5,
   .addx 5 5 4,
   .st 26 0 0,
   .addx 0 0 4,
   .ldn 1 0 6 6,
   .addx 6 6 4,
   .smull 15 3 7,
   .smull2 19 3 7,
   .ldn 1 0 3 5,
   .addx 5 5 4,
   .st 27 0 0,
   .addx 0 0 4,
   .ldn 1 0 7 6,
   .addx 6 6 4,
   .smlal 12 0 4,
   .smlal2 16 0 4,
   .ldn 1 0 0 7,
   .addx 7 7 4,
   .ldn 1 0 4 8,
   .addx 8 8 4,
   .smlal 13 1 5,
   .smlal2 17 1 5,
   .ldn 1 0 1 7,
   .addx 7 7 4,
   .ldn 1 0 5 8,
   .addx 8 8 4,
   .smlal 14 2 6,
   .smlal2 18 2 6,
   .ldn 1 0 2 7,
   .addx 7 7 4,
   .ldn 1 0 6 8,
   .addx 8 8 4,
   .smlal 15 3 7,
   .smlal2 19 3 7,
   .ldn 1 0 3 7,
   .addx 7 7 4,
   .ldn 1 0 7 8,
   .addx 8 8 4,
   .smlal 12 0 4,
   .smlal2 16 0 4,
   .ldn 1 0 0 9,
   .addx 9 9 4,
   .ldn 1 0 4 10,
   .addx 10 10 4,
   .smlal 13 1 5,
   .smlal2 17 1 5,
   .ldn 1 0 1 9,
   .addx 9 9 4,
   .ldn 1 0 5 10,
   .addx 10 10 4,
   .smlal 14 2 6,
   .smlal2 18 2 6,
   .ldn 1 0 2 9,
   .addx 9 9 4,
   .ldn 1 0 6 10,
   .addx 10 10 4,
   .smlal 15 3 7,
   .smlal2 19 3 7,
   .ldn 1 0 3 9,
   .addx 9 9 4,
   .ldn 1 0 7 10,
   .addx 10 10 4,
   .smlal 12 0 4,
   .smlal2 16 0 4,
   .ldn 1 0 0 11,
   .addx 11 11 4,
   .ldn 1 0 4 12,
   .addx 12 12 4,
   .smlal 13 1 5,
   .smlal2 17 1 5,
   .ldn 1 0 1 11,
   .addx 11 11 4,
   .ldn 1 0 5 12,
   .addx 12 12 4,
   .smlal 14 2 6,
   .smlal2 18 2 6,
   .ldn 1 0 2 11,
   .addx 11 11 4,
   .ldn 1 0 6 12,
   .addx 12 12 4,
   .smlal 15 3 7,
   .smlal2 19 3 7,
   .ldn 1 0 3 11,
   .addx 11 11 4,
   .ldn 1 0 7 12,
   .addx 12 12 4,
   .smlal 12 0 4,
   .smlal2 16 0 4,
   .ldn 1 0 0 13,
   .addx 13 13 4,
   .ldn 1 0 4 14,
   .addx 14 14 4,
   .smlal 13 1 5,
   .smlal2 17 1 5,
   .ldn 1 0 1 13,
   .addx 13 13 4,
   .ldn 1 0 5 14,
   .addx 14 14 4,
   .smlal 14 2 6,
   .smlal2 18 2 6,
   .ldn 1 0 2 13,
   .addx 13 13 4,
   .ldn 1 0 6 14,
   .addx 14 14 4,
   .smlal 15 3 7,
   .smlal2 19 3 7,
   .ldn 1 0 3 13,
   .addx 13 13 4,
   .ldn 1 0 7 14,
   .addx 14 14 4,
   .smlal 12 0 4,
   .smlal2 16 0 4,
   .ldn 1 0 0 15,
   .addx 15 15 4,
   .ldn 1 0 4 19,
   .addx 19 19 4,
   .smlal 13 1 5,
   .smlal2 17 1 5,
   .ldn 1 0 1 15,
   .addx 15 15 4,
   .ldn 1 0 5 19,
   .addx 19 19 4,
   .smlal 14 2 6,
   .smlal2 18 2 6,
   .ldn 1 0 2 15,
   .addx 15 15 4,
   .ldn 1 0 6 19,
   .addx 19 19 4,
   .smlal 15 3 7,
   .smlal2 19 3 7,
   .ldn 1 0 3 15,
   .addx 15 15 4,
   .ldn 1 0 7 19,
   .addx 19 19 4]

/-- What comes before the loop of `asm_polyvecl_pointwise_acc_montgomery` (__asm_poly.S:852-1197). -/
def pointwiseAccAsm7_pre : List Instr :=
  [.ldrw 20 3 0,
   .ldrw 21 3 1,
   .addx 5 1 256,
   .addx 6 2 256,
   .addx 7 1 512,
   .addx 8 2 512,
   .addx 9 1 768,
   .addx 10 2 768,
   .addx 11 1 1024,
   .addx 12 2 1024,
   .addx 13 11 256,
   .addx 14 12 256,
   .addx 15 11 512,
   .addx 19 12 512,
   .dup 30 20,
   .dup 31 21,
   .ldn 1 0 0 1,
   .addx 1 1 4,
   .ldn 1 0 1 1,
   .addx 1 1 4,
   .ldn 1 0 2 1,
   .addx 1 1 4,
   .ldn 1 0 3 1,
   .addx 1 1 4,
   .ldn 1 0 4 2,
   .addx 2 2 4,
   .ldn 1 0 5 2,
   .addx 2 2 4,
   .ldn 1 0 6 2,
   .addx 2 2 4,
   .ldn 1 0 7 2,
   .addx 2 2 4,
   .smull 12 0 4,
   .smull2 16 0 4,
   .ldn 1 0 0 5,
   .addx 5 5 4,
   .ldn 1 0 4 6,
   .addx 6 6 4,
   .smull 13 1 5,
   .smull2 17 1 5,
   .ldn 1 0 1 5,
   .addx 5 5 4,
   .ldn 1 0 5 6,
   .addx 6 6 4,
   .smull 14 2 6,
   .smull2 18 2 6,
   .ldn 1 0 2 5,
   .addx 5 5 4,
   .ldn 1 0 6 6,
   .addx 6 6 4,
   .smull 15 3 7,
   .smull2 19 3 7,
   .ldn 1 0 3 5,
   .addx 5 5 4,
   .ldn 1 0 7 6,
   .addx 6 6 4,
   .smlal 12 0 4,
   .smlal2 16 0 4,
   .ldn 1 0 0 7,
   .addx 7 7 4,
   .ldn 1 0 4 8,
   .addx 8 8 4,
   .smlal 13 1 5,
   .smlal2 17 1 5,
   .ldn 1 0 1 7,
   .addx 7 7 4,
   .ldn 1 0 5 8,
   .addx 8 8 4,
   .smlal 14 2 6,
   .smlal2 18 2 6,
   .ldn 1 0 2 7,
   .addx 7 7 4,
   .ldn 1 0 6 8,
   .addx 8 8 4,
   .smlal 15 3 7,
   .smlal2 19 3 7,
   .ldn 1 0 3 7,
   .addx 7 7 4,
   .ldn 1 0 7 8,
   .addx 8 8 4,
   .smlal 12 0 4,
   .smlal2 16 0 4,
   .ldn 1 0 0 9,
   .addx 9 9 4,
   .ldn 1 0 4 10,
   .addx 10 10 4,
   .smlal 13 1 5,
   .smlal2 17 1 5,
   .ldn 1 0 1 9,
   .addx 9 9 4,
   .ldn 1 0 5 10,
   .addx 10 10 4,
   .smlal 14 2 6,
   .smlal2 18 2 6,
   .ldn 1 0 2 9,
   .addx 9 9 4,
   .ldn 1 0 6 10,
   .addx 10 10 4,
   .smlal 15 3 7,
   .smlal2 19 3 7,
   .ldn 1 0 3 9,
   .addx 9 9 4,
   .ldn 1 0 7 10,
   .addx 10 10 4,
   .smlal 12 0 4,
   .smlal2 16 0 4,
   .ldn 1 0 0 11,
   .addx 11 11 4,
   .ldn 1 0 4 12,
   .addx 12 12 4,
   .smlal 13 1 5,
   .smlal2 17 1 5,
   .ldn 1 0 1 11,
   .addx 11 11 4,
   .ldn 1 0 5 12,
   .addx 12 12 4,
   .smlal 14 2 6,
   .smlal2 18 2 6,
   .ldn 1 0 2 11,
   .addx 11 11 4,
   .ldn 1 0 6 12,
   .addx 12 12 4,
   .smlal 15 3 7,
   .smlal2 19 3 7,
   .ldn 1 0 3 11,
   .addx 11 11 4,
   .ldn 1 0 7 12,
   .addx 12 12 4,
   .smlal 12 0 4,
   .smlal2 16 0 4,
   .ldn 1 0 0 13,
   .addx 13 13 4,
   .ldn 1 0 4 14,
   .addx 14 14 4,
   .smlal 13 1 5,
   .smlal2 17 1 5,
   .ldn 1 0 1 13,
   .addx 13 13 4,
   .ldn 1 0 5 14,
   .addx 14 14 4,
   .smlal 14 2 6,
   .smlal2 18 2 6,
   .ldn 1 0 2 13,
   .addx 13 13 4,
   .ldn 1 0 6 14,
   .addx 14 14 4,
   .smlal 15 3 7,
   .smlal2 19 3 7,
   .ldn 1 0 3 13,
   .addx 13 13 4,
   .ldn 1 0 7 14,
   .addx 14 14 4,
   .smlal 12 0 4,
   .smlal2 16 0 4,
   .ldn 1 0 0 15,
   .addx 15 15 4,
   .ldn 1 0 4 19,
   .addx 19 19 4,
   .smlal 13 1 5,
   .smlal2 17 1 5,
   .ldn 1 0 1 15,
   .addx 15 15 4,
   .ldn 1 0 5 19,
   .addx 19 19 4,
   .smlal 14 2 6,
   .smlal2 18 2 6,
   .ldn 1 0 2 15,
   .addx 15 15 4,
   .ldn 1 0 6 19,
   .addx 19 19 4,
   .smlal 15 3 7,
   .smlal2 19 3 7,
   .ldn 1 0 3 15,
   .addx 15 15 4,
   .ldn 1 0 7 19,
   .addx 19 19 4]

/-- What comes after the loop of `asm_polyvecl_pointwise_acc_montgomery` (__asm_poly.S:852-1197). -/
def pointwiseAccAsm7_post : List Instr :=
  [.smlal 12 0 4,
   .smlal2 16 0 4,
   .smlal 13 1 5,
   .smlal2 17 1 5,
   .smlal 14 2 6,
   .smlal2 18 2 6,
   .smlal 15 3 7,
   .smlal2 19 3 7,
   .uzp1 20 12 16,
   .uzp1 21 13 17,
   .uzp1 22 14 18,
   .uzp1 23 15 19,
   .mul 24 20 (.v 31),
   .mul 25 21 (.v 31),
   .mul 26 22 (.v 31),
   .mul 27 23 (.v 31),
   .smlsl 12 24 30,
   .smlsl2 16 24 30,
   .smlsl 13 25 30,
   .smlsl2 17 25 30,
   .smlsl 14 26 30,
   .smlsl2 18 26 30,
   .smlsl 15 27 30,
   .smlsl2 19 27 30,
   .uzp2 24 12 16,
   .uzp2 25 13 17,
   .uzp2 26 14 18,
   .uzp2 27 15 19,
   .st 24 0 0,
   .addx 0 0 4,
   .st 25 0 0,
   .addx 0 0 4,
   .st 26 0 0,
   .addx 0 0 4,
   .st 27 0 0,
   .addx 0 0 4]

/-- `asm_polyvecl_pointwise_acc_montgomery` (__asm_poly.S:852-1197). dilithium5: `L = 7`. -/
def pointwiseAccAsm7 : List Instr :=
  pointwiseAccAsm7_pre ++
  loop 15 pointwiseAccAsm7_body ++
  pointwiseAccAsm7_post

end Verif.Neon
