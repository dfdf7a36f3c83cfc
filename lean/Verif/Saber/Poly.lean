import Mathlib.Data.Fin.VecNotation
import Mathlib.Data.BitVec
import Mathlib.Data.List.FinRange
import Verif.Basic.Bytes

/-!
# saber-rust/src/poly.rs

`secret_integers` (external crate, pinned `=0.1.3` in saber-rust/Cargo.toml:19) supplies `U8`, `U16`, `U64`: fixed-width
integers with wrapping `+ - *`, bitwise operators, shifts, truncating/zero-extending `From` and `declassify`.  They are
`BitVec 8/16/64`; the classification layer has no run-time effect and is dropped.

A Rust loop over `chunks_exact(c)` zipped with `chunks_exact_mut(b)` fills output position `i` from the `i / b`-th input chunk; the
per-chunk formulas are the `…Chunk` functions below, transcribed line by line.  The `debug_assert_eq!` on buffer lengths are
expressed by the types (every caller passes exactly these lengths).
-/

namespace Verif.Saber

/-- `secret_integers::U8`. -/
abbrev U8 := BitVec 8
/-- `secret_integers::U16`. -/
abbrev U16 := BitVec 16
/-- `secret_integers::U64`. -/
abbrev U64 := BitVec 64

/-- `U16::from(U8)`: zero extension. -/
abbrev ext (x : U8) : U16 := x.setWidth 16
/-- `U8::from(U16)`: truncation. -/
abbrev trunc (x : U16) : U8 := x.setWidth 8

/-- A byte buffer of `n` bytes from its indexed bytes (`declassify_bytes`, generic.rs:639-644, included). -/
def bufOf {n : Nat} (f : Fin n → U8) : ByteArr n := ⟨List.ofFn fun i => UInt8.ofBitVec (f i), by simp⟩

/-- Indexing a buffer; `U8::from(bytes[i])`. -/
def byteAt {n : Nat} (b : ByteArr n) (i : Fin n) : U8 := (b.1[i.1]'(by rw [b.2]; exact i.2)).toBitVec

/-- `struct Poly { coeffs: [U16; N] }` with `N = 256` (poly.rs:9-11, params.rs:11). -/
abbrev Poly := Fin 256 → U16

namespace Poly

/-- `impl Default for Poly` (poly.rs:101-107). -/
def default : Poly := fun _ => 0

/-- `impl Add for Poly` (poly.rs:13-22). -/
def add (a b : Poly) : Poly := fun i => a i + b i

/-- `impl Add<U16> for Poly` (poly.rs:24-33). -/
def addU16 (a : Poly) (r : U16) : Poly := fun i => a i + r

/-- `impl Sub for Poly` (poly.rs:35-44). -/
def sub (a b : Poly) : Poly := fun i => a i - b i

/-- `c[k] += x`. -/
def addAt (c : Poly) (k : Nat) (x : U16) : Poly := fun m => if m.1 = k then c m + x else c m

/-- `c[k] -= x`. -/
def subAt (c : Poly) (k : Nat) (x : U16) : Poly := fun m => if m.1 = k then c m - x else c m

/-- Body of the outer loop of `impl Mul for Poly` (poly.rs:63-74): `for j in 0..N-i`, then `for j in N-i..N`. -/
def mulRow (a b : Poly) (c : Poly) (i : Fin 256) : Poly :=
  let c := ((List.finRange 256).filter (fun j => j.1 < 256 - i.1)).foldl
    (fun c j => addAt c (i.1 + j.1) (a i * b j)) c
  ((List.finRange 256).filter (fun j => 256 - i.1 ≤ j.1)).foldl
    (fun c j => subAt c (i.1 + j.1 - 256) (a i * b j)) c

/-- `impl Mul for Poly` (poly.rs:57-77). -/
def mul (a b : Poly) : Poly := (List.finRange 256).foldl (mulRow a b) default

/-- `impl Shl<u32> for Poly` (poly.rs:79-88). -/
def shl (a : Poly) (n : Nat) : Poly := fun i => a i <<< n

/-- `impl Shr<u32> for Poly` (poly.rs:90-99). -/
def shr (a : Poly) (n : Nat) : Poly := fun i => a i >>> n

/-- `reduce` (poly.rs:110-120), for `m` a power of two. -/
def reduce (a : Poly) (m : U16) : Poly := fun i => a i &&& (m - 1)

/-- One chunk of `from_bytes_13bit` (poly.rs:126-145). -/
def from13Chunk (b : Fin 13 → U8) : Fin 8 → U16 := ![
  ext (b 0) ||| (ext (b 1) <<< 8),
  (ext (b 1) >>> 5) ||| (ext (b 2) <<< 3) ||| (ext (b 3) <<< 11),
  (ext (b 3) >>> 2) ||| (ext (b 4) <<< 6),
  (ext (b 4) >>> 7) ||| (ext (b 5) <<< 1) ||| (ext (b 6) <<< 9),
  (ext (b 6) >>> 4) ||| (ext (b 7) <<< 4) ||| (ext (b 8) <<< 12),
  (ext (b 8) >>> 1) ||| (ext (b 9) <<< 7),
  (ext (b 9) >>> 6) ||| (ext (b 10) <<< 2) ||| (ext (b 11) <<< 10),
  (ext (b 11) >>> 3) ||| (ext (b 12) <<< 5)]

/-- `from_bytes_13bit` (poly.rs:122-150), including the final `& 0x1FFF` loop. -/
def fromBytes13 (b : ByteArr 416) : Poly := fun i =>
  from13Chunk (fun j => byteAt b ⟨13 * (i.1 / 8) + j.1, by omega⟩) ⟨i.1 % 8, by omega⟩ &&& 0x1FFF

/-- One chunk of `from_bytes_10bit` (poly.rs:156-165). -/
def from10Chunk (b : Fin 5 → U8) : Fin 4 → U16 := ![
  (ext (b 0) &&& 0xFF) ||| (ext (b 1 &&& 0x03) <<< 8),
  ((ext (b 1) >>> 2) &&& 0x3F) ||| (ext (b 2 &&& 0x0F) <<< 6),
  ((ext (b 2) >>> 4) &&& 0x0F) ||| (ext (b 3 &&& 0x3F) <<< 4),
  ((ext (b 3) >>> 6) &&& 0x03) ||| (ext (b 4) <<< 2)]

/-- `from_bytes_10bit` (poly.rs:152-167). -/
def fromBytes10 (b : ByteArr 320) : Poly := fun i =>
  from10Chunk (fun j => byteAt b ⟨5 * (i.1 / 4) + j.1, by omega⟩) ⟨i.1 % 4, by omega⟩

/-- One chunk of `from_bytes_6bit` (poly.rs:174-181). -/
def from6Chunk (b : Fin 3 → U8) : Fin 4 → U16 := ![
  ext (b 0 &&& 0x3F),
  ext ((b 0 >>> 6) &&& 0x03) ||| ext ((b 1 &&& 0x0F) <<< 2),
  ext ((b 1 >>> 4) &&& 0x0F) ||| ext ((b 2 &&& 0x03) <<< 4),
  ext (b 2 >>> 2)]

/-- `from_bytes_6bit` (poly.rs:169-183). -/
def fromBytes6 (b : ByteArr 192) : Poly := fun i =>
  from6Chunk (fun j => byteAt b ⟨3 * (i.1 / 4) + j.1, by omega⟩) ⟨i.1 % 4, by omega⟩

/-- One byte of `from_bytes_4bit` (poly.rs:189-192). -/
def from4Chunk (b : U8) : Fin 2 → U16 := ![ext b &&& 0x0F, ext b >>> 4]

/-- `from_bytes_4bit` (poly.rs:185-194). -/
def fromBytes4 (b : ByteArr 128) : Poly := fun i =>
  from4Chunk (byteAt b ⟨i.1 / 2, by omega⟩) ⟨i.1 % 2, by omega⟩

/-- One chunk of `from_bytes_3bit` (poly.rs:200-211). -/
def from3Chunk (b : Fin 3 → U8) : Fin 8 → U16 := ![
  ext (b 0 &&& 0x07),
  ext ((b 0 >>> 3) &&& 0x07),
  ext ((b 0 >>> 6) &&& 0x03) ||| ext ((b 1 &&& 0x01) <<< 2),
  ext ((b 1 >>> 1) &&& 0x07),
  ext ((b 1 >>> 4) &&& 0x07),
  ext ((b 1 >>> 7) &&& 0x01) ||| ext ((b 2 &&& 0x03) <<< 1),
  ext ((b 2 >>> 2) &&& 0x07),
  ext ((b 2 >>> 5) &&& 0x07)]

/-- `from_bytes_3bit` (poly.rs:196-213). -/
def fromBytes3 (b : ByteArr 96) : Poly := fun i =>
  from3Chunk (fun j => byteAt b ⟨3 * (i.1 / 8) + j.1, by omega⟩) ⟨i.1 % 8, by omega⟩

/-- `from_msg` (poly.rs:215-226), `MSG2POL_CONST = 9`. -/
def fromMsg (m : ByteArr 32) : Poly := fun i =>
  ext ((byteAt m ⟨i.1 / 8, by omega⟩ >>> (i.1 % 8)) &&& 0x01) <<< 9

/-- One chunk of `read_bytes_13bit` (poly.rs:232-246). -/
def read13Chunk (c : Fin 8 → U16) : Fin 13 → U8 := ![
  trunc (c 0 &&& 0xFF),
  trunc ((c 0 >>> 8) &&& 0x1F) ||| trunc ((c 1 &&& 0x07) <<< 5),
  trunc ((c 1 >>> 3) &&& 0xFF),
  trunc ((c 1 >>> 11) &&& 0x03) ||| trunc ((c 2 &&& 0x3F) <<< 2),
  trunc ((c 2 >>> 6) &&& 0x7F) ||| trunc ((c 3 &&& 0x01) <<< 7),
  trunc ((c 3 >>> 1) &&& 0xFF),
  trunc ((c 3 >>> 9) &&& 0x0F) ||| trunc ((c 4 &&& 0x0F) <<< 4),
  trunc ((c 4 >>> 4) &&& 0xFF),
  trunc ((c 4 >>> 12) &&& 0x01) ||| trunc ((c 5 &&& 0x7F) <<< 1),
  trunc ((c 5 >>> 7) &&& 0x3F) ||| trunc ((c 6 &&& 0x03) <<< 6),
  trunc ((c 6 >>> 2) &&& 0xFF),
  trunc ((c 6 >>> 10) &&& 0x07) ||| trunc ((c 7 &&& 0x1F) <<< 3),
  trunc ((c 7 >>> 5) &&& 0xFF)]

/-- `read_bytes_13bit` (poly.rs:228-248). -/
def readBytes13 (p : Poly) : ByteArr 416 := bufOf fun i =>
  read13Chunk (fun j => p ⟨8 * (i.1 / 13) + j.1, by omega⟩) ⟨i.1 % 13, by omega⟩

/-- One chunk of `read_bytes_10bit` (poly.rs:254-260). -/
def read10Chunk (c : Fin 4 → U16) : Fin 5 → U8 := ![
  trunc (c 0 &&& 0xFF),
  trunc ((c 0 >>> 8) &&& 0x03) ||| trunc ((c 1 &&& 0x3F) <<< 2),
  trunc ((c 1 >>> 6) &&& 0x0F) ||| trunc ((c 2 &&& 0x0F) <<< 4),
  trunc ((c 2 >>> 4) &&& 0x3F) ||| trunc ((c 3 &&& 0x03) <<< 6),
  trunc ((c 3 >>> 2) &&& 0xFF)]

/-- `read_bytes_10bit` (poly.rs:250-262). -/
def readBytes10 (p : Poly) : ByteArr 320 := bufOf fun i =>
  read10Chunk (fun j => p ⟨4 * (i.1 / 5) + j.1, by omega⟩) ⟨i.1 % 5, by omega⟩

/-- One chunk of `read_bytes_6bit` (poly.rs:268-272). -/
def read6Chunk (c : Fin 4 → U16) : Fin 3 → U8 := ![
  trunc (c 0 &&& 0x3F) ||| trunc ((c 1 &&& 0x03) <<< 6),
  trunc ((c 1 >>> 2) &&& 0x0F) ||| trunc ((c 2 &&& 0x0F) <<< 4),
  trunc ((c 2 >>> 4) &&& 0x03) ||| trunc ((c 3 &&& 0x3F) <<< 2)]

/-- `read_bytes_6bit` (poly.rs:264-274). -/
def readBytes6 (p : Poly) : ByteArr 192 := bufOf fun i =>
  read6Chunk (fun j => p ⟨4 * (i.1 / 3) + j.1, by omega⟩) ⟨i.1 % 3, by omega⟩

/-- One byte of `read_bytes_4bit` (poly.rs:280-282). -/
def read4Chunk (c : Fin 2 → U16) : U8 := trunc (c 0 &&& 0x0F) ||| trunc ((c 1 &&& 0x0F) <<< 4)

/-- `read_bytes_4bit` (poly.rs:276-284). -/
def readBytes4 (p : Poly) : ByteArr 128 := bufOf fun i =>
  read4Chunk (fun j => p ⟨2 * i.1 + j.1, by omega⟩)

/-- One chunk of `read_bytes_3bit` (poly.rs:290-301).  The last term of byte 1 is `(cs[5] >> 2) & 1`, as in the source. -/
def read3Chunk (c : Fin 8 → U16) : Fin 3 → U8 := ![
  trunc (c 0 &&& 0x07) ||| trunc ((c 1 &&& 0x07) <<< 3) ||| trunc ((c 2 &&& 0x03) <<< 6),
  trunc ((c 2 >>> 2) &&& 0x01) ||| trunc ((c 3 &&& 0x07) <<< 1) ||| trunc ((c 4 &&& 0x07) <<< 4)
    ||| trunc (((c 5 >>> 2) &&& 0x01) <<< 7),
  trunc ((c 5 >>> 1) &&& 0x03) ||| trunc ((c 6 &&& 0x07) <<< 2) ||| trunc ((c 7 &&& 0x07) <<< 5)]

/-- `read_bytes_3bit` (poly.rs:286-303). -/
def readBytes3 (p : Poly) : ByteArr 96 := bufOf fun i =>
  read3Chunk (fun j => p ⟨8 * (i.1 / 3) + j.1, by omega⟩) ⟨i.1 % 3, by omega⟩

/-- `read_bytes_msg` (poly.rs:305-317): `b |= U8::from(coeff) << idx` for the eight coefficients of the byte. -/
def readBytesMsg (p : Poly) : ByteArr 32 := bufOf fun i =>
  (List.finRange 8).foldl (fun b idx => b ||| (trunc (p ⟨8 * i.1 + idx.1, by omega⟩) <<< idx.1)) 0

end Poly

end Verif.Saber
