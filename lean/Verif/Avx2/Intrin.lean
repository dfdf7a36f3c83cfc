import Verif.Avx2.NttSym

/-!
# The AVX2 intrinsics used by the C files of dilithium2/avx2

A `__m256i` is its eight dwords (`Ymm`), a `__m128i` its four.  Semantics after the Intel Intrinsics Guide; `_mm256_` is dropped from the names.
-/

namespace Verif.Avx2

/-- A 128-bit register. -/
abbrev Xmm := Fin 4 → W32

/-! ## Dwords -/

/-- `set1_epi32`. -/
def set1 (x : Int) : Ymm := fun _ => BitVec.ofInt 32 x
/-- `setzero_si256`. -/
def setzero : Ymm := fun _ => 0
/-- `add_epi32`. -/
def addEpi32 (a b : Ymm) : Ymm := fun j => a j + b j
/-- `sub_epi32`. -/
def subEpi32 (a b : Ymm) : Ymm := fun j => a j - b j
/-- `mullo_epi32`. -/
def mulloEpi32 (a b : Ymm) : Ymm := fun j => a j * b j
/-- `and_si256`. -/
def andSi (a b : Ymm) : Ymm := fun j => a j &&& b j
/-- `or_si256`. -/
def orSi (a b : Ymm) : Ymm := fun j => a j ||| b j
/-- `srai_epi32`. -/
def sraiEpi32 (a : Ymm) (n : Nat) : Ymm := fun j => (a j).sshiftRight n
/-- `srli_epi32`. -/
def srliEpi32 (a : Ymm) (n : Nat) : Ymm := fun j => a j >>> n
/-- `slli_epi32`. -/
def slliEpi32 (a : Ymm) (n : Nat) : Ymm := fun j => a j <<< n
/-- `srlv_epi32`. -/
def srlvEpi32 (a n : Ymm) : Ymm := fun j => a j >>> (n j).toNat
/-- `cmpgt_epi32`: all ones where `a > b`, signed. -/
def cmpgtEpi32 (a b : Ymm) : Ymm := fun j => if (b j).toInt < (a j).toInt then BitVec.allOnes 32 else 0
/-- `cmpeq_epi32`. -/
def cmpeqEpi32 (a b : Ymm) : Ymm := fun j => if a j = b j then BitVec.allOnes 32 else 0
/-- `abs_epi32` (the most negative value stays). -/
def absEpi32 (a : Ymm) : Ymm := fun j => if (a j).toInt < 0 then -a j else a j
/-- `sign_epi32`: `a` with the sign of `b`. -/
def signEpi32 (a b : Ymm) : Ymm := fun j => if (b j).toInt < 0 then -a j else if b j = 0 then 0 else a j
/-- `blendv_ps` on dwords, the macro `_mm256_blendv_epi32` (poly.c:17-20, rounding.c:9-12): `b` where the top bit of the mask is set. -/
def blendv (a b m : Ymm) : Ymm := fun j => if (m j).msb then b j else a j
/-- `movemask_ps`: the top bits of the dwords. -/
def movemaskPs (a : Ymm) : Nat := ((List.finRange 8).map fun j => if (a j).msb then 2 ^ j.1 else 0).sum
/-- `testz_si256(a, a)`: 1 if `a` is zero. -/
def testzSelf (a : Ymm) : Int := if (List.finRange 8).all (fun j => a j = 0) then 1 else 0
/-- `permutevar8x32_epi32`: dword `j` is the dword of `a` selected by the low three bits of `idx`. -/
def permutevar (a idx : Ymm) : Ymm := fun j => a ⟨(idx j).toNat % 8, by omega⟩
/-- `_mm_popcnt_u32`. -/
def popcnt (x : Nat) : Nat := ((List.range 32).filter fun i => x.testBit i).length

/-! ## Words and bytes -/

/-- Word 0 or 1 of a dword. -/
def wordOf (x : W32) (i : Nat) : BitVec 16 := x.extractLsb' (16 * i) 16
/-- The dword of two words. -/
def ofWords (lo hi : BitVec 16) : W32 := hi ++ lo
/-- Byte 0 to 3 of a dword. -/
def byteOf (x : W32) (i : Nat) : BitVec 8 := x.extractLsb' (8 * i) 8
/-- The dword of four bytes. -/
def ofBytes (b0 b1 b2 b3 : BitVec 8) : W32 := b3 ++ b2 ++ b1 ++ b0

/-- An operation on words. -/
def onWords (f : BitVec 16 → BitVec 16 → BitVec 16) (a b : Ymm) : Ymm := fun j =>
  ofWords (f (wordOf (a j) 0) (wordOf (b j) 0)) (f (wordOf (a j) 1) (wordOf (b j) 1))
/-- An operation on bytes. -/
def onBytes (f : BitVec 8 → BitVec 8 → BitVec 8) (a b : Ymm) : Ymm := fun j =>
  ofBytes (f (byteOf (a j) 0) (byteOf (b j) 0)) (f (byteOf (a j) 1) (byteOf (b j) 1)) (f (byteOf (a j) 2) (byteOf (b j) 2)) (f (byteOf (a j) 3) (byteOf (b j) 3))

/-- `mulhi_epu16`: high half of the unsigned product. -/
def mulhiEpu16 : Ymm → Ymm → Ymm := onWords fun x y => BitVec.ofNat 16 (x.toNat * y.toNat / 65536)
/-- `mulhrs_epi16`: `((x·y >> 14) + 1) >> 1`, signed. -/
def mulhrsEpi16 : Ymm → Ymm → Ymm := onWords fun x y => BitVec.ofInt 16 ((x.toInt * y.toInt / 16384 + 1) / 2)
/-- `mullo_epi16`. -/
def mulloEpi16 : Ymm → Ymm → Ymm := onWords fun x y => x * y
/-- `slli_epi16`. -/
def slliEpi16 (a : Ymm) (n : Nat) : Ymm := fun j => ofWords (wordOf (a j) 0 <<< n) (wordOf (a j) 1 <<< n)
/-- `sub_epi8`. -/
def subEpi8 : Ymm → Ymm → Ymm := onBytes fun x y => x - y
/-- `set1_epi8`. -/
def set1b (x : Nat) : Ymm := fun _ => ofBytes (BitVec.ofNat 8 x) (BitVec.ofNat 8 x) (BitVec.ofNat 8 x) (BitVec.ofNat 8 x)

/-- Byte `k` of a register. -/
def byteY (v : Ymm) (k : Nat) : BitVec 8 := byteOf (v (Fin.ofNat 8 (k / 4))) (k % 4)
/-- The register of 32 bytes. -/
def ofByteY (f : Nat → BitVec 8) : Ymm := fun j => ofBytes (f (4 * j.1)) (f (4 * j.1 + 1)) (f (4 * j.1 + 2)) (f (4 * j.1 + 3))
/-- Word `k` of a register. -/
def wordY (v : Ymm) (k : Nat) : BitVec 16 := wordOf (v (Fin.ofNat 8 (k / 2))) (k % 2)
/-- The register of 16 words. -/
def ofWordY (f : Nat → BitVec 16) : Ymm := fun j => ofWords (f (2 * j.1)) (f (2 * j.1 + 1))

/-- `loadu_si256` from a byte buffer. -/
def loadu (b : Nat → BitVec 8) (pos : Nat) : Ymm := ofByteY fun k => b (pos + k)

/-- `set_epi8`, arguments as a list, the most significant byte first. -/
def setEpi8 (l : List Int) : Ymm := ofByteY fun k => BitVec.ofInt 8 (l.reverse.getD k 0)
/-- `set_epi32`, arguments as a list, the most significant dword first. -/
def setEpi32 (l : List Int) : Ymm := fun j => BitVec.ofInt 32 (l.reverse.getD j.1 0)

/-- `shuffle_epi8`: in each 128-bit half, byte `k` is 0 if the top bit of `idx` is set, else the byte selected by the low four bits. -/
def shuffleEpi8 (a idx : Ymm) : Ymm := ofByteY fun k =>
  if (byteY idx k).msb then 0 else byteY a (16 * (k / 16) + (byteY idx k).toNat % 16)

/-- Saturation of a signed number to `uint16_t`. -/
def satU16 (x : Int) : BitVec 16 := BitVec.ofInt 16 (if x < 0 then 0 else if 65535 < x then 65535 else x)
/-- Saturation of a signed number to `uint8_t`. -/
def satU8 (x : Int) : BitVec 8 := BitVec.ofInt 8 (if x < 0 then 0 else if 255 < x then 255 else x)
/-- Saturation of a signed number to `int16_t`. -/
def satS16 (x : Int) : BitVec 16 := BitVec.ofInt 16 (if x < -32768 then -32768 else if 32767 < x then 32767 else x)

/-- `packus_epi32`: in each half the four dwords of `a` then of `b`, saturated to words. -/
def packusEpi32 (a b : Ymm) : Ymm := ofWordY fun k =>
  satU16 (if k % 8 < 4 then a (Fin.ofNat 8 (4 * (k / 8) + k % 4)) else b (Fin.ofNat 8 (4 * (k / 8) + k % 4))).toInt
/-- `packus_epi16`: in each half the eight words of `a` then of `b`, saturated to bytes. -/
def packusEpi16 (a b : Ymm) : Ymm := ofByteY fun k =>
  satU8 (if k % 16 < 8 then wordY a (8 * (k / 16) + k % 8) else wordY b (8 * (k / 16) + k % 8)).toInt
/-- `maddubs_epi16`: sums of neighbouring products of unsigned bytes of `a` and signed bytes of `b`, saturated. -/
def maddubs (a b : Ymm) : Ymm := ofWordY fun k =>
  satS16 ((byteY a (2 * k)).toNat * (byteY b (2 * k)).toInt + (byteY a (2 * k + 1)).toNat * (byteY b (2 * k + 1)).toInt)
/-- `madd_epi16`: sums of neighbouring products of signed words. -/
def maddEpi16 (a b : Ymm) : Ymm := fun j =>
  BitVec.ofInt 32 ((wordOf (a j) 0).toInt * (wordOf (b j) 0).toInt + (wordOf (a j) 1).toInt * (wordOf (b j) 1).toInt)

/-- `movemask_epi8`: the top bits of the bytes. -/
def movemaskEpi8 (a : Ymm) : Nat := ((List.range 32).map fun k => if (byteY a k).msb then 2 ^ k else 0).sum

/-! ## Arrays of vectors -/

/-- `load_si256(&a->vec[i])`. -/
def ldv (a : VPoly) (i : Nat) : Ymm := fun j => a (Fin.ofNat 256 (8 * i + j.1))

/-- A loop `for (i = 0; i < N / 8; i++)` that loads vector `i`, computes, and stores vector `i`. -/
def vmap (g : Ymm → Ymm) (a : VPoly) : VPoly := fun i => g (ldv a (i.1 / 8)) ⟨i.1 % 8, by omega⟩
/-- The same with two inputs. -/
def vmap2 (g : Ymm → Ymm → Ymm) (a b : VPoly) : VPoly := fun i => g (ldv a (i.1 / 8)) (ldv b (i.1 / 8)) ⟨i.1 % 8, by omega⟩

theorem ldv_apply (a : VPoly) (i : Fin 256) : ldv a (i.1 / 8) ⟨i.1 % 8, by omega⟩ = a i := by
  unfold ldv
  congr 1
  apply Fin.ext
  show (8 * (i.1 / 8) + i.1 % 8) % 256 = i.1
  omega

end Verif.Avx2
