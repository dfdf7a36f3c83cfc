import Verif.Avx2.F1600

/-! # The instructions of f1600x4.S (generated by tools/gen_f1600x4.py) -/

namespace Verif.Avx2.F1600

/-- `rho8` (f1600x4.S:9-10). -/
def rho8Bytes : List (BitVec 8) := [7, 0, 1, 2, 3, 4, 5, 6, 15, 8, 9, 10, 11, 12, 13, 14, 7, 0, 1, 2, 3, 4, 5, 6, 15, 8, 9, 10, 11, 12, 13, 14]

/-- `rho56` (f1600x4.S:11-12). -/
def rho56Bytes : List (BitVec 8) := [1, 2, 3, 4, 5, 6, 7, 0, 9, 10, 11, 12, 13, 14, 15, 8, 1, 2, 3, 4, 5, 6, 7, 0, 9, 10, 11, 12, 13, 14, 15, 8]

/-- Round 0 of the loop body (from f1600x4.S:22). -/
def round0 : List Ins := [
  .load 0 8, .load 32 9, .load 64 10, .load 96 11, .load 128 12,
  .xorm 160 8 8, .xorm 192 9 9, .xorm 224 10 10, .xorm 256 11 11, .xorm 288 12 12,
  .xorm 320 8 8, .xorm 352 9 9, .xorm 384 10 10, .xorm 416 11 11, .xorm 448 12 12,
  .xorm 480 8 8, .xorm 512 9 9, .xorm 544 10 10, .xorm 576 11 11, .xorm 608 12 12,
  .xorm 640 8 8, .xorm 672 9 9, .xorm 704 10 10, .xorm 736 11 11, .xorm 768 12 12,
  .sll 1 9 13, .sll 1 10 14, .sll 1 11 15, .sll 1 12 7, .sll 1 8 6,
  .srl 63 9 5, .srl 63 10 4, .srl 63 11 3, .srl 63 12 2, .srl 63 8 1,
  .or 13 5 5, .or 14 4 4, .or 15 3 3, .or 7 2 2, .or 6 1 1,
  .xor 5 12 5, .xor 4 8 4, .xor 3 9 3, .xor 2 10 2, .xor 1 11 1,
  .xorm 0 5 8, .xorm 192 4 9, .xorm 384 3 10, .xorm 576 2 11, .xorm 768 1 12,
  .sll 44 9 14, .sll 43 10 15, .sll 21 11 7, .sll 14 12 6, .srl 20 9 9,
  .srl 21 10 10, .srl 43 11 11, .srl 50 12 12, .or 14 9 9, .or 15 10 10,
  .or 7 11 11, .or 6 12 12, .andn 10 9 13, .andn 11 10 14, .andn 12 11 15,
  .andn 8 12 7, .andn 9 8 6, .xor 8 13 13, .xor 9 14 14, .xor 10 15 15,
  .xor 11 7 7, .xor 12 6 6, .bcast 0 8, .xor 8 13 13, .store 13 0,
  .store 14 192, .store 15 384, .store 7 576, .store 6 768, .xorm 96 2 8,
  .xorm 288 1 9, .xorm 320 5 10, .xorm 512 4 11, .xorm 704 3 12, .sll 28 8 13,
  .sll 20 9 14, .sll 3 10 15, .sll 45 11 7, .sll 61 12 6, .srl 36 8 8,
  .srl 44 9 9, .srl 61 10 10, .srl 19 11 11, .srl 3 12 12, .or 13 8 8,
  .or 14 9 9, .or 15 10 10, .or 7 11 11, .or 6 12 12, .andn 10 9 13,
  .andn 11 10 14, .andn 12 11 15, .andn 8 12 7, .andn 9 8 6, .xor 8 13 13,
  .xor 9 14 14, .xor 10 15 15, .xor 11 7 7, .xor 12 6 6, .store 13 320,
  .store 14 512, .store 15 704, .store 7 96, .store 6 288, .xorm 32 4 8,
  .xorm 224 3 9, .xorm 416 2 10, .xorm 608 1 11, .xorm 640 5 12, .sll 1 8 13,
  .sll 6 9 14, .sll 25 10 15, .sll 18 12 6, .srl 63 8 8, .srl 58 9 9,
  .srl 39 10 10, .srl 46 12 12, .or 13 8 8, .or 14 9 9, .or 15 10 10,
  .shuf 0 11 11, .or 6 12 12, .andn 10 9 13, .andn 11 10 14, .andn 12 11 15,
  .andn 8 12 7, .andn 9 8 6, .xor 8 13 13, .xor 9 14 14, .xor 10 15 15,
  .xor 11 7 7, .xor 12 6 6, .store 13 640, .store 14 32, .store 15 224,
  .store 7 416, .store 6 608, .xorm 128 1 8, .xorm 160 5 9, .xorm 352 4 10,
  .xorm 544 3 11, .xorm 736 2 12, .sll 27 8 13, .sll 36 9 14, .sll 10 10 15,
  .sll 15 11 7, .srl 37 8 8, .srl 28 9 9, .srl 54 10 10, .srl 49 11 11,
  .or 13 8 8, .or 14 9 9, .or 15 10 10, .or 7 11 11, .shufm 12 12,
  .andn 10 9 13, .andn 11 10 14, .andn 12 11 15, .andn 8 12 7, .andn 9 8 6,
  .xor 8 13 13, .xor 9 14 14, .xor 10 15 15, .xor 11 7 7, .xor 12 6 6,
  .store 13 160, .store 14 352, .store 15 544, .store 7 736, .store 6 128,
  .xorm 64 3 8, .xorm 256 2 9, .xorm 448 1 10, .xorm 480 5 11, .xorm 672 4 12,
  .sll 62 8 13, .sll 55 9 14, .sll 39 10 15, .sll 41 11 7, .sll 2 12 6,
  .srl 2 8 8, .srl 9 9 9, .srl 25 10 10, .srl 23 11 11, .srl 62 12 12,
  .or 13 8 8, .or 14 9 9, .or 15 10 10, .or 7 11 11, .or 6 12 12,
  .andn 10 9 13, .andn 11 10 14, .andn 12 11 15, .andn 8 12 7, .andn 9 8 6,
  .xor 8 13 13, .xor 9 14 14, .xor 10 15 15, .xor 11 7 7, .xor 12 6 6,
  .store 13 480, .store 14 672, .store 15 64, .store 7 256, .store 6 448]

/-- Round 1 of the loop body (from f1600x4.S:243). -/
def round1 : List Ins := [
  .load 0 8, .load 32 9, .load 64 10, .load 96 11, .load 128 12,
  .xorm 160 8 8, .xorm 192 9 9, .xorm 224 10 10, .xorm 256 11 11, .xorm 288 12 12,
  .xorm 320 8 8, .xorm 352 9 9, .xorm 384 10 10, .xorm 416 11 11, .xorm 448 12 12,
  .xorm 480 8 8, .xorm 512 9 9, .xorm 544 10 10, .xorm 576 11 11, .xorm 608 12 12,
  .xorm 640 8 8, .xorm 672 9 9, .xorm 704 10 10, .xorm 736 11 11, .xorm 768 12 12,
  .sll 1 9 13, .sll 1 10 14, .sll 1 11 15, .sll 1 12 7, .sll 1 8 6,
  .srl 63 9 5, .srl 63 10 4, .srl 63 11 3, .srl 63 12 2, .srl 63 8 1,
  .or 13 5 5, .or 14 4 4, .or 15 3 3, .or 7 2 2, .or 6 1 1,
  .xor 5 12 5, .xor 4 8 4, .xor 3 9 3, .xor 2 10 2, .xor 1 11 1,
  .xorm 0 5 8, .xorm 512 4 9, .xorm 224 3 10, .xorm 736 2 11, .xorm 448 1 12,
  .sll 44 9 14, .sll 43 10 15, .sll 21 11 7, .sll 14 12 6, .srl 20 9 9,
  .srl 21 10 10, .srl 43 11 11, .srl 50 12 12, .or 14 9 9, .or 15 10 10,
  .or 7 11 11, .or 6 12 12, .andn 10 9 13, .andn 11 10 14, .andn 12 11 15,
  .andn 8 12 7, .andn 9 8 6, .xor 8 13 13, .xor 9 14 14, .xor 10 15 15,
  .xor 11 7 7, .xor 12 6 6, .bcast 8 8, .xor 8 13 13, .store 13 0,
  .store 14 512, .store 15 224, .store 7 736, .store 6 448, .xorm 576 2 8,
  .xorm 288 1 9, .xorm 640 5 10, .xorm 352 4 11, .xorm 64 3 12, .sll 28 8 13,
  .sll 20 9 14, .sll 3 10 15, .sll 45 11 7, .sll 61 12 6, .srl 36 8 8,
  .srl 44 9 9, .srl 61 10 10, .srl 19 11 11, .srl 3 12 12, .or 13 8 8,
  .or 14 9 9, .or 15 10 10, .or 7 11 11, .or 6 12 12, .andn 10 9 13,
  .andn 11 10 14, .andn 12 11 15, .andn 8 12 7, .andn 9 8 6, .xor 8 13 13,
  .xor 9 14 14, .xor 10 15 15, .xor 11 7 7, .xor 12 6 6, .store 13 640,
  .store 14 352, .store 15 64, .store 7 576, .store 6 288, .xorm 192 4 8,
  .xorm 704 3 9, .xorm 416 2 10, .xorm 128 1 11, .xorm 480 5 12, .sll 1 8 13,
  .sll 6 9 14, .sll 25 10 15, .sll 18 12 6, .srl 63 8 8, .srl 58 9 9,
  .srl 39 10 10, .srl 46 12 12, .or 13 8 8, .or 14 9 9, .or 15 10 10,
  .shuf 0 11 11, .or 6 12 12, .andn 10 9 13, .andn 11 10 14, .andn 12 11 15,
  .andn 8 12 7, .andn 9 8 6, .xor 8 13 13, .xor 9 14 14, .xor 10 15 15,
  .xor 11 7 7, .xor 12 6 6, .store 13 480, .store 14 192, .store 15 704,
  .store 7 416, .store 6 128, .xorm 768 1 8, .xorm 320 5 9, .xorm 32 4 10,
  .xorm 544 3 11, .xorm 256 2 12, .sll 27 8 13, .sll 36 9 14, .sll 10 10 15,
  .sll 15 11 7, .srl 37 8 8, .srl 28 9 9, .srl 54 10 10, .srl 49 11 11,
  .or 13 8 8, .or 14 9 9, .or 15 10 10, .or 7 11 11, .shufm 12 12,
  .andn 10 9 13, .andn 11 10 14, .andn 12 11 15, .andn 8 12 7, .andn 9 8 6,
  .xor 8 13 13, .xor 9 14 14, .xor 10 15 15, .xor 11 7 7, .xor 12 6 6,
  .store 13 320, .store 14 32, .store 15 544, .store 7 256, .store 6 768,
  .xorm 384 3 8, .xorm 96 2 9, .xorm 608 1 10, .xorm 160 5 11, .xorm 672 4 12,
  .sll 62 8 13, .sll 55 9 14, .sll 39 10 15, .sll 41 11 7, .sll 2 12 6,
  .srl 2 8 8, .srl 9 9 9, .srl 25 10 10, .srl 23 11 11, .srl 62 12 12,
  .or 13 8 8, .or 14 9 9, .or 15 10 10, .or 7 11 11, .or 6 12 12,
  .andn 10 9 13, .andn 11 10 14, .andn 12 11 15, .andn 8 12 7, .andn 9 8 6,
  .xor 8 13 13, .xor 9 14 14, .xor 10 15 15, .xor 11 7 7, .xor 12 6 6,
  .store 13 160, .store 14 672, .store 15 384, .store 7 96, .store 6 608]

/-- Round 2 of the loop body (from f1600x4.S:464). -/
def round2 : List Ins := [
  .load 0 8, .load 32 9, .load 64 10, .load 96 11, .load 128 12,
  .xorm 160 8 8, .xorm 192 9 9, .xorm 224 10 10, .xorm 256 11 11, .xorm 288 12 12,
  .xorm 320 8 8, .xorm 352 9 9, .xorm 384 10 10, .xorm 416 11 11, .xorm 448 12 12,
  .xorm 480 8 8, .xorm 512 9 9, .xorm 544 10 10, .xorm 576 11 11, .xorm 608 12 12,
  .xorm 640 8 8, .xorm 672 9 9, .xorm 704 10 10, .xorm 736 11 11, .xorm 768 12 12,
  .sll 1 9 13, .sll 1 10 14, .sll 1 11 15, .sll 1 12 7, .sll 1 8 6,
  .srl 63 9 5, .srl 63 10 4, .srl 63 11 3, .srl 63 12 2, .srl 63 8 1,
  .or 13 5 5, .or 14 4 4, .or 15 3 3, .or 7 2 2, .or 6 1 1,
  .xor 5 12 5, .xor 4 8 4, .xor 3 9 3, .xor 2 10 2, .xor 1 11 1,
  .xorm 0 5 8, .xorm 352 4 9, .xorm 704 3 10, .xorm 256 2 11, .xorm 608 1 12,
  .sll 44 9 14, .sll 43 10 15, .sll 21 11 7, .sll 14 12 6, .srl 20 9 9,
  .srl 21 10 10, .srl 43 11 11, .srl 50 12 12, .or 14 9 9, .or 15 10 10,
  .or 7 11 11, .or 6 12 12, .andn 10 9 13, .andn 11 10 14, .andn 12 11 15,
  .andn 8 12 7, .andn 9 8 6, .xor 8 13 13, .xor 9 14 14, .xor 10 15 15,
  .xor 11 7 7, .xor 12 6 6, .bcast 16 8, .xor 8 13 13, .store 13 0,
  .store 14 352, .store 15 704, .store 7 256, .store 6 608, .xorm 736 2 8,
  .xorm 288 1 9, .xorm 480 5 10, .xorm 32 4 11, .xorm 384 3 12, .sll 28 8 13,
  .sll 20 9 14, .sll 3 10 15, .sll 45 11 7, .sll 61 12 6, .srl 36 8 8,
  .srl 44 9 9, .srl 61 10 10, .srl 19 11 11, .srl 3 12 12, .or 13 8 8,
  .or 14 9 9, .or 15 10 10, .or 7 11 11, .or 6 12 12, .andn 10 9 13,
  .andn 11 10 14, .andn 12 11 15, .andn 8 12 7, .andn 9 8 6, .xor 8 13 13,
  .xor 9 14 14, .xor 10 15 15, .xor 11 7 7, .xor 12 6 6, .store 13 480,
  .store 14 32, .store 15 384, .store 7 736, .store 6 288, .xorm 512 4 8,
  .xorm 64 3 9, .xorm 416 2 10, .xorm 768 1 11, .xorm 160 5 12, .sll 1 8 13,
  .sll 6 9 14, .sll 25 10 15, .sll 18 12 6, .srl 63 8 8, .srl 58 9 9,
  .srl 39 10 10, .srl 46 12 12, .or 13 8 8, .or 14 9 9, .or 15 10 10,
  .shuf 0 11 11, .or 6 12 12, .andn 10 9 13, .andn 11 10 14, .andn 12 11 15,
  .andn 8 12 7, .andn 9 8 6, .xor 8 13 13, .xor 9 14 14, .xor 10 15 15,
  .xor 11 7 7, .xor 12 6 6, .store 13 160, .store 14 512, .store 15 64,
  .store 7 416, .store 6 768, .xorm 448 1 8, .xorm 640 5 9, .xorm 192 4 10,
  .xorm 544 3 11, .xorm 96 2 12, .sll 27 8 13, .sll 36 9 14, .sll 10 10 15,
  .sll 15 11 7, .srl 37 8 8, .srl 28 9 9, .srl 54 10 10, .srl 49 11 11,
  .or 13 8 8, .or 14 9 9, .or 15 10 10, .or 7 11 11, .shufm 12 12,
  .andn 10 9 13, .andn 11 10 14, .andn 12 11 15, .andn 8 12 7, .andn 9 8 6,
  .xor 8 13 13, .xor 9 14 14, .xor 10 15 15, .xor 11 7 7, .xor 12 6 6,
  .store 13 640, .store 14 192, .store 15 544, .store 7 96, .store 6 448,
  .xorm 224 3 8, .xorm 576 2 9, .xorm 128 1 10, .xorm 320 5 11, .xorm 672 4 12,
  .sll 62 8 13, .sll 55 9 14, .sll 39 10 15, .sll 41 11 7, .sll 2 12 6,
  .srl 2 8 8, .srl 9 9 9, .srl 25 10 10, .srl 23 11 11, .srl 62 12 12,
  .or 13 8 8, .or 14 9 9, .or 15 10 10, .or 7 11 11, .or 6 12 12,
  .andn 10 9 13, .andn 11 10 14, .andn 12 11 15, .andn 8 12 7, .andn 9 8 6,
  .xor 8 13 13, .xor 9 14 14, .xor 10 15 15, .xor 11 7 7, .xor 12 6 6,
  .store 13 320, .store 14 672, .store 15 224, .store 7 576, .store 6 128]

/-- Round 3 of the loop body (from f1600x4.S:685). -/
def round3 : List Ins := [
  .load 0 8, .load 32 9, .load 64 10, .load 96 11, .load 128 12,
  .xorm 160 8 8, .xorm 192 9 9, .xorm 224 10 10, .xorm 256 11 11, .xorm 288 12 12,
  .xorm 320 8 8, .xorm 352 9 9, .xorm 384 10 10, .xorm 416 11 11, .xorm 448 12 12,
  .xorm 480 8 8, .xorm 512 9 9, .xorm 544 10 10, .xorm 576 11 11, .xorm 608 12 12,
  .xorm 640 8 8, .xorm 672 9 9, .xorm 704 10 10, .xorm 736 11 11, .xorm 768 12 12,
  .sll 1 9 13, .sll 1 10 14, .sll 1 11 15, .sll 1 12 7, .sll 1 8 6,
  .srl 63 9 5, .srl 63 10 4, .srl 63 11 3, .srl 63 12 2, .srl 63 8 1,
  .or 13 5 5, .or 14 4 4, .or 15 3 3, .or 7 2 2, .or 6 1 1,
  .xor 5 12 5, .xor 4 8 4, .xor 3 9 3, .xor 2 10 2, .xor 1 11 1,
  .xorm 0 5 8, .xorm 32 4 9, .xorm 64 3 10, .xorm 96 2 11, .xorm 128 1 12,
  .sll 44 9 14, .sll 43 10 15, .sll 21 11 7, .sll 14 12 6, .srl 20 9 9,
  .srl 21 10 10, .srl 43 11 11, .srl 50 12 12, .or 14 9 9, .or 15 10 10,
  .or 7 11 11, .or 6 12 12, .andn 10 9 13, .andn 11 10 14, .andn 12 11 15,
  .andn 8 12 7, .andn 9 8 6, .xor 8 13 13, .xor 9 14 14, .xor 10 15 15,
  .xor 11 7 7, .xor 12 6 6, .bcast 24 8, .xor 8 13 13, .store 13 0,
  .store 14 32, .store 15 64, .store 7 96, .store 6 128, .xorm 256 2 8,
  .xorm 288 1 9, .xorm 160 5 10, .xorm 192 4 11, .xorm 224 3 12, .sll 28 8 13,
  .sll 20 9 14, .sll 3 10 15, .sll 45 11 7, .sll 61 12 6, .srl 36 8 8,
  .srl 44 9 9, .srl 61 10 10, .srl 19 11 11, .srl 3 12 12, .or 13 8 8,
  .or 14 9 9, .or 15 10 10, .or 7 11 11, .or 6 12 12, .andn 10 9 13,
  .andn 11 10 14, .andn 12 11 15, .andn 8 12 7, .andn 9 8 6, .xor 8 13 13,
  .xor 9 14 14, .xor 10 15 15, .xor 11 7 7, .xor 12 6 6, .store 13 160,
  .store 14 192, .store 15 224, .store 7 256, .store 6 288, .xorm 352 4 8,
  .xorm 384 3 9, .xorm 416 2 10, .xorm 448 1 11, .xorm 320 5 12, .sll 1 8 13,
  .sll 6 9 14, .sll 25 10 15, .sll 18 12 6, .srl 63 8 8, .srl 58 9 9,
  .srl 39 10 10, .srl 46 12 12, .or 13 8 8, .or 14 9 9, .or 15 10 10,
  .shuf 0 11 11, .or 6 12 12, .andn 10 9 13, .andn 11 10 14, .andn 12 11 15,
  .andn 8 12 7, .andn 9 8 6, .xor 8 13 13, .xor 9 14 14, .xor 10 15 15,
  .xor 11 7 7, .xor 12 6 6, .store 13 320, .store 14 352, .store 15 384,
  .store 7 416, .store 6 448, .xorm 608 1 8, .xorm 480 5 9, .xorm 512 4 10,
  .xorm 544 3 11, .xorm 576 2 12, .sll 27 8 13, .sll 36 9 14, .sll 10 10 15,
  .sll 15 11 7, .srl 37 8 8, .srl 28 9 9, .srl 54 10 10, .srl 49 11 11,
  .or 13 8 8, .or 14 9 9, .or 15 10 10, .or 7 11 11, .shufm 12 12,
  .andn 10 9 13, .andn 11 10 14, .andn 12 11 15, .andn 8 12 7, .andn 9 8 6,
  .xor 8 13 13, .xor 9 14 14, .xor 10 15 15, .xor 11 7 7, .xor 12 6 6,
  .store 13 480, .store 14 512, .store 15 544, .store 7 576, .store 6 608,
  .xorm 704 3 8, .xorm 736 2 9, .xorm 768 1 10, .xorm 640 5 11, .xorm 672 4 12,
  .sll 62 8 13, .sll 55 9 14, .sll 39 10 15, .sll 41 11 7, .sll 2 12 6,
  .srl 2 8 8, .srl 9 9 9, .srl 25 10 10, .srl 23 11 11, .srl 62 12 12,
  .or 13 8 8, .or 14 9 9, .or 15 10 10, .or 7 11 11, .or 6 12 12,
  .andn 10 9 13, .andn 11 10 14, .andn 12 11 15, .andn 8 12 7, .andn 9 8 6,
  .xor 8 13 13, .xor 9 14 14, .xor 10 15 15, .xor 11 7 7, .xor 12 6 6,
  .store 13 640, .store 14 672, .store 15 704, .store 7 736, .store 6 768]

end Verif.Avx2.F1600
