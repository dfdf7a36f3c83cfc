import Verif.Neon.F1600

/-! # The rounds of the two-way permutation (generated by tools/gen_f1600x2.py from feat.S and fips202x2.c of dilithium2/aarch64) -/

namespace Verif.Neon.F1600

/-- The macro `round` (feat.S:29-123). -/
def roundAsm : List Ins := [
  .eor3 25 0 5 10, .eor3 26 1 6 11, .eor3 27 2 7 12, .eor3 28 3 8 13, .eor3 29 4 9 14, .eor3 25 25 15 20, .eor3 26 26 16 21, .eor3 27 27 17 22,
  .eor3 28 28 18 23, .eor3 29 29 19 24, .rax1 30 29 26, .rax1 29 27 29, .rax1 27 25 27, .rax1 25 28 25, .rax1 28 26 28, .eor 0 0 30,
  .mov 31 1, .xar 1 6 27 20, .xar 6 9 25 44, .xar 9 22 28 3, .xar 22 14 25 25, .xar 14 20 30 46, .xar 20 2 28 2, .xar 2 12 28 21,
  .xar 12 13 29 39, .xar 13 19 25 56, .xar 19 23 29 8, .xar 23 15 30 23, .xar 15 4 25 37, .xar 4 24 25 50, .xar 24 21 27 62, .xar 21 8 29 9,
  .xar 8 16 27 19, .xar 16 5 30 28, .xar 5 3 29 36, .xar 3 18 29 43, .xar 18 17 28 49, .xar 17 11 27 54, .xar 11 7 28 58, .xar 7 10 30 61,
  .xar 10 31 27 63, .bcax 25 0 2 1, .bcax 26 1 3 2, .bcax 2 2 4 3, .bcax 3 3 0 4, .bcax 4 4 1 0, .mov 0 25, .mov 1 26,
  .bcax 25 5 7 6, .bcax 26 6 8 7, .bcax 7 7 9 8, .bcax 8 8 5 9, .bcax 9 9 6 5, .mov 5 25, .mov 6 26, .bcax 25 10 12 11,
  .bcax 26 11 13 12, .bcax 12 12 14 13, .bcax 13 13 10 14, .bcax 14 14 11 10, .mov 10 25, .mov 11 26, .bcax 25 15 17 16, .bcax 26 16 18 17,
  .bcax 17 17 19 18, .bcax 18 18 15 19, .bcax 19 19 16 15, .mov 15 25, .mov 16 26, .bcax 25 20 22 21, .bcax 26 21 23 22, .bcax 22 22 24 23,
  .bcax 23 23 20 24, .bcax 24 24 21 20, .mov 20 25, .mov 21 26, .rc 25 0, .eor 0 0 25]

/-- The first round of the loop body of `KeccakF1600_StatePermutex2` (fips202x2.c, from line 150): variables `A..` are registers 0 to 24, `E..` 25 to 49,
`BC.` 50 to 54, `D.` 55 to 59; the macros `vROL`, `vXOR4`, `vXNA` (fips202x2.c:47-63) are expanded. -/
def roundA : List Ins := [
  .eor 50 0 5, .eor 50 50 10, .eor 50 50 15, .eor 50 50 20, .eor 51 1 6, .eor 51 51 11, .eor 51 51 16, .eor 51 51 21,
  .eor 52 2 7, .eor 52 52 12, .eor 52 52 17, .eor 52 52 22, .eor 53 3 8, .eor 53 53 13, .eor 53 53 18, .eor 53 53 23,
  .eor 54 4 9, .eor 54 54 14, .eor 54 54 19, .eor 54 54 24, .shl 55 51 1, .sri 55 51 63, .eor 55 54 55, .shl 56 52 1,
  .sri 56 52 63, .eor 56 50 56, .shl 57 53 1, .sri 57 53 63, .eor 57 51 57, .shl 58 54 1, .sri 58 54 63, .eor 58 52 58,
  .shl 59 50 1, .sri 59 50 63, .eor 59 53 59, .eor 0 0 55, .eor 6 6 56, .shl 51 6 44, .sri 51 6 20, .eor 12 12 57,
  .shl 52 12 43, .sri 52 12 21, .eor 18 18 58, .shl 53 18 21, .sri 53 18 43, .eor 24 24 59, .shl 54 24 14, .sri 54 24 50,
  .bic 25 52 51, .eor 25 25 0, .rc 60 0, .eor 25 25 60, .bic 26 53 52, .eor 26 26 51, .bic 27 54 53, .eor 27 27 52,
  .bic 28 0 54, .eor 28 28 53, .bic 29 51 0, .eor 29 29 54, .eor 3 3 58, .shl 50 3 28, .sri 50 3 36, .eor 9 9 59,
  .shl 51 9 20, .sri 51 9 44, .eor 10 10 55, .shl 52 10 3, .sri 52 10 61, .eor 16 16 56, .shl 53 16 45, .sri 53 16 19,
  .eor 22 22 57, .shl 54 22 61, .sri 54 22 3, .bic 30 52 51, .eor 30 30 50, .bic 31 53 52, .eor 31 31 51, .bic 32 54 53,
  .eor 32 32 52, .bic 33 50 54, .eor 33 33 53, .bic 34 51 50, .eor 34 34 54, .eor 1 1 56, .shl 50 1 1, .sri 50 1 63,
  .eor 7 7 57, .shl 51 7 6, .sri 51 7 58, .eor 13 13 58, .shl 52 13 25, .sri 52 13 39, .eor 19 19 59, .shl 53 19 8,
  .sri 53 19 56, .eor 20 20 55, .shl 54 20 18, .sri 54 20 46, .bic 35 52 51, .eor 35 35 50, .bic 36 53 52, .eor 36 36 51,
  .bic 37 54 53, .eor 37 37 52, .bic 38 50 54, .eor 38 38 53, .bic 39 51 50, .eor 39 39 54, .eor 4 4 59, .shl 50 4 27,
  .sri 50 4 37, .eor 5 5 55, .shl 51 5 36, .sri 51 5 28, .eor 11 11 56, .shl 52 11 10, .sri 52 11 54, .eor 17 17 57,
  .shl 53 17 15, .sri 53 17 49, .eor 23 23 58, .shl 54 23 56, .sri 54 23 8, .bic 40 52 51, .eor 40 40 50, .bic 41 53 52,
  .eor 41 41 51, .bic 42 54 53, .eor 42 42 52, .bic 43 50 54, .eor 43 43 53, .bic 44 51 50, .eor 44 44 54, .eor 2 2 57,
  .shl 50 2 62, .sri 50 2 2, .eor 8 8 58, .shl 51 8 55, .sri 51 8 9, .eor 14 14 59, .shl 52 14 39, .sri 52 14 25,
  .eor 15 15 55, .shl 53 15 41, .sri 53 15 23, .eor 21 21 56, .shl 54 21 2, .sri 54 21 62, .bic 45 52 51, .eor 45 45 50,
  .bic 46 53 52, .eor 46 46 51, .bic 47 54 53, .eor 47 47 52, .bic 48 50 54, .eor 48 48 53, .bic 49 51 50, .eor 49 49 54]

/-- The second round of the loop body (up to fips202x2.c:350). -/
def roundE : List Ins := [
  .eor 50 25 30, .eor 50 50 35, .eor 50 50 40, .eor 50 50 45, .eor 51 26 31, .eor 51 51 36, .eor 51 51 41, .eor 51 51 46,
  .eor 52 27 32, .eor 52 52 37, .eor 52 52 42, .eor 52 52 47, .eor 53 28 33, .eor 53 53 38, .eor 53 53 43, .eor 53 53 48,
  .eor 54 29 34, .eor 54 54 39, .eor 54 54 44, .eor 54 54 49, .shl 55 51 1, .sri 55 51 63, .eor 55 54 55, .shl 56 52 1,
  .sri 56 52 63, .eor 56 50 56, .shl 57 53 1, .sri 57 53 63, .eor 57 51 57, .shl 58 54 1, .sri 58 54 63, .eor 58 52 58,
  .shl 59 50 1, .sri 59 50 63, .eor 59 53 59, .eor 25 25 55, .eor 31 31 56, .shl 51 31 44, .sri 51 31 20, .eor 37 37 57,
  .shl 52 37 43, .sri 52 37 21, .eor 43 43 58, .shl 53 43 21, .sri 53 43 43, .eor 49 49 59, .shl 54 49 14, .sri 54 49 50,
  .bic 0 52 51, .eor 0 0 25, .rc 60 1, .eor 0 0 60, .bic 1 53 52, .eor 1 1 51, .bic 2 54 53, .eor 2 2 52,
  .bic 3 25 54, .eor 3 3 53, .bic 4 51 25, .eor 4 4 54, .eor 28 28 58, .shl 50 28 28, .sri 50 28 36, .eor 34 34 59,
  .shl 51 34 20, .sri 51 34 44, .eor 35 35 55, .shl 52 35 3, .sri 52 35 61, .eor 41 41 56, .shl 53 41 45, .sri 53 41 19,
  .eor 47 47 57, .shl 54 47 61, .sri 54 47 3, .bic 5 52 51, .eor 5 5 50, .bic 6 53 52, .eor 6 6 51, .bic 7 54 53,
  .eor 7 7 52, .bic 8 50 54, .eor 8 8 53, .bic 9 51 50, .eor 9 9 54, .eor 26 26 56, .shl 50 26 1, .sri 50 26 63,
  .eor 32 32 57, .shl 51 32 6, .sri 51 32 58, .eor 38 38 58, .shl 52 38 25, .sri 52 38 39, .eor 44 44 59, .shl 53 44 8,
  .sri 53 44 56, .eor 45 45 55, .shl 54 45 18, .sri 54 45 46, .bic 10 52 51, .eor 10 10 50, .bic 11 53 52, .eor 11 11 51,
  .bic 12 54 53, .eor 12 12 52, .bic 13 50 54, .eor 13 13 53, .bic 14 51 50, .eor 14 14 54, .eor 29 29 59, .shl 50 29 27,
  .sri 50 29 37, .eor 30 30 55, .shl 51 30 36, .sri 51 30 28, .eor 36 36 56, .shl 52 36 10, .sri 52 36 54, .eor 42 42 57,
  .shl 53 42 15, .sri 53 42 49, .eor 48 48 58, .shl 54 48 56, .sri 54 48 8, .bic 15 52 51, .eor 15 15 50, .bic 16 53 52,
  .eor 16 16 51, .bic 17 54 53, .eor 17 17 52, .bic 18 50 54, .eor 18 18 53, .bic 19 51 50, .eor 19 19 54, .eor 27 27 57,
  .shl 50 27 62, .sri 50 27 2, .eor 33 33 58, .shl 51 33 55, .sri 51 33 9, .eor 39 39 59, .shl 52 39 39, .sri 52 39 25,
  .eor 40 40 55, .shl 53 40 41, .sri 53 40 23, .eor 46 46 56, .shl 54 46 2, .sri 54 46 62, .bic 20 52 51, .eor 20 20 50,
  .bic 21 53 52, .eor 21 21 51, .bic 22 54 53, .eor 22 22 52, .bic 23 50 54, .eor 23 23 53, .bic 24 51 50, .eor 24 24 54]

end Verif.Neon.F1600
