import Verif.Saber.Poly
import Mathlib.Tactic.FinCases
import Mathlib.Tactic.IntervalCases

/-! Helper lemmas about the packings of poly.rs. -/

namespace Verif.Saber.Poly

/-- Compare two bit vectors bit by bit. -/
macro "bits" : tactic => `(tactic| (apply BitVec.eq_of_getLsbD_eq; intro i hi; interval_cases i <;> simp))

set_option maxHeartbeats 1000000

theorem from13_read13 (c : Fin 8 → U16) (k : Fin 8) :
    from13Chunk (read13Chunk c) k &&& 0x1FFF = c k &&& 0x1FFF := by
  unfold from13Chunk read13Chunk
  match k with
  | 0 | 1 | 2 | 3 | 4 | 5 | 6 | 7 => dsimp only [Matrix.cons_val]; bits

theorem read13_from13 (b : Fin 13 → U8) (k : Fin 13) :
    read13Chunk (fun j => from13Chunk b j &&& 0x1FFF) k = b k := by
  unfold from13Chunk read13Chunk
  match k with
  | 0 | 1 | 2 | 3 | 4 | 5 | 6 | 7 | 8 | 9 | 10 | 11 | 12 => dsimp only [Matrix.cons_val]; bits

theorem from10_read10 (c : Fin 4 → U16) (k : Fin 4) : from10Chunk (read10Chunk c) k = c k &&& 0x3FF := by
  unfold from10Chunk read10Chunk
  match k with
  | 0 | 1 | 2 | 3 => dsimp only [Matrix.cons_val]; bits

theorem read10_from10 (b : Fin 5 → U8) (k : Fin 5) : read10Chunk (from10Chunk b) k = b k := by
  unfold from10Chunk read10Chunk
  match k with
  | 0 | 1 | 2 | 3 | 4 => dsimp only [Matrix.cons_val]; bits

theorem from6_read6 (c : Fin 4 → U16) (k : Fin 4) : from6Chunk (read6Chunk c) k = c k &&& 0x3F := by
  unfold from6Chunk read6Chunk
  match k with
  | 0 | 1 | 2 | 3 => dsimp only [Matrix.cons_val]; bits

theorem read6_from6 (b : Fin 3 → U8) (k : Fin 3) : read6Chunk (from6Chunk b) k = b k := by
  unfold from6Chunk read6Chunk
  match k with
  | 0 | 1 | 2 => dsimp only [Matrix.cons_val]; bits

theorem from4_read4 (c : Fin 2 → U16) (k : Fin 2) : from4Chunk (read4Chunk c) k = c k &&& 0x0F := by
  unfold from4Chunk read4Chunk
  match k with
  | 0 | 1 => dsimp only [Matrix.cons_val]; bits

theorem read4_from4 (b : U8) : read4Chunk (from4Chunk b) = b := by
  unfold from4Chunk read4Chunk
  dsimp only [Matrix.cons_val]; bits

theorem from3_read3 (c : Fin 8 → U16) (k : Fin 8) : from3Chunk (read3Chunk c) k =
    if k = 5 then (c k &&& 0x6) ||| ((c k >>> 2) &&& 0x1) else c k &&& 0x7 := by
  unfold from3Chunk read3Chunk
  match k with
  | 0 | 1 | 2 | 3 | 4 | 6 | 7 => rw [if_neg (by decide)]; dsimp only [Matrix.cons_val]; bits
  | 5 => rw [if_pos rfl]; dsimp only [Matrix.cons_val]; bits

theorem byteAt_bufOf {n : Nat} (f : Fin n → U8) (i : Fin n) : byteAt (bufOf f) i = f i := by
  simp [byteAt, bufOf]

theorem bufOf_byteAt {n : Nat} (b : ByteArr n) : bufOf (byteAt b) = b := by
  apply Subtype.ext
  apply List.ext_getElem
  · simp [bufOf, b.2]
  · intro i h1 h2; simp [bufOf, byteAt]

theorem buf_ext {n : Nat} {a b : ByteArr n} (h : ∀ i, byteAt a i = byteAt b i) : a = b := by
  rw [← bufOf_byteAt a, ← bufOf_byteAt b]; congr 1; funext i; exact h i

theorem fin_congr {n : Nat} {α : Type} (f : Fin n → α) {i j : Nat} (hi : i < n) (hj : j < n) (h : i = j) : f ⟨i, hi⟩ = f ⟨j, hj⟩ := by
  subst h; rfl

theorem chunk13_coeffs (p : Poly) (i : Fin 256) (j : Fin 13) :
    byteAt (readBytes13 p) ⟨13 * (i.1 / 8) + j.1, by omega⟩ = read13Chunk (fun m => p ⟨8 * (i.1 / 8) + m.1, by omega⟩) j := by
  unfold readBytes13
  rw [byteAt_bufOf]
  have h1 : (13 * (i.1 / 8) + j.1) / 13 = i.1 / 8 := by omega
  have h2 : (13 * (i.1 / 8) + j.1) % 13 = j.1 := by omega
  simp only [h1, h2]

theorem chunk13_bytes (b : ByteArr 416) (i : Fin 416) (j : Fin 8) :
    fromBytes13 b ⟨8 * (i.1 / 13) + j.1, by omega⟩ = from13Chunk (fun m => byteAt b ⟨13 * (i.1 / 13) + m.1, by omega⟩) j &&& 0x1FFF := by
  unfold fromBytes13
  have h1 : (8 * (i.1 / 13) + j.1) / 8 = i.1 / 13 := by omega
  have h2 : (8 * (i.1 / 13) + j.1) % 8 = j.1 := by omega
  simp only [h1, h2]

theorem chunk10_coeffs (p : Poly) (i : Fin 256) (j : Fin 5) :
    byteAt (readBytes10 p) ⟨5 * (i.1 / 4) + j.1, by omega⟩ = read10Chunk (fun m => p ⟨4 * (i.1 / 4) + m.1, by omega⟩) j := by
  unfold readBytes10
  rw [byteAt_bufOf]
  have h1 : (5 * (i.1 / 4) + j.1) / 5 = i.1 / 4 := by omega
  have h2 : (5 * (i.1 / 4) + j.1) % 5 = j.1 := by omega
  simp only [h1, h2]

theorem chunk10_bytes (b : ByteArr 320) (i : Fin 320) (j : Fin 4) :
    fromBytes10 b ⟨4 * (i.1 / 5) + j.1, by omega⟩ = from10Chunk (fun m => byteAt b ⟨5 * (i.1 / 5) + m.1, by omega⟩) j := by
  unfold fromBytes10
  have h1 : (4 * (i.1 / 5) + j.1) / 4 = i.1 / 5 := by omega
  have h2 : (4 * (i.1 / 5) + j.1) % 4 = j.1 := by omega
  simp only [h1, h2]

theorem chunk6_coeffs (p : Poly) (i : Fin 256) (j : Fin 3) :
    byteAt (readBytes6 p) ⟨3 * (i.1 / 4) + j.1, by omega⟩ = read6Chunk (fun m => p ⟨4 * (i.1 / 4) + m.1, by omega⟩) j := by
  unfold readBytes6
  rw [byteAt_bufOf]
  have h1 : (3 * (i.1 / 4) + j.1) / 3 = i.1 / 4 := by omega
  have h2 : (3 * (i.1 / 4) + j.1) % 3 = j.1 := by omega
  simp only [h1, h2]

theorem chunk6_bytes (b : ByteArr 192) (i : Fin 192) (j : Fin 4) :
    fromBytes6 b ⟨4 * (i.1 / 3) + j.1, by omega⟩ = from6Chunk (fun m => byteAt b ⟨3 * (i.1 / 3) + m.1, by omega⟩) j := by
  unfold fromBytes6
  have h1 : (4 * (i.1 / 3) + j.1) / 4 = i.1 / 3 := by omega
  have h2 : (4 * (i.1 / 3) + j.1) % 4 = j.1 := by omega
  simp only [h1, h2]

theorem chunk3_coeffs (p : Poly) (i : Fin 256) (j : Fin 3) :
    byteAt (readBytes3 p) ⟨3 * (i.1 / 8) + j.1, by omega⟩ = read3Chunk (fun m => p ⟨8 * (i.1 / 8) + m.1, by omega⟩) j := by
  unfold readBytes3
  rw [byteAt_bufOf]
  have h1 : (3 * (i.1 / 8) + j.1) / 3 = i.1 / 8 := by omega
  have h2 : (3 * (i.1 / 8) + j.1) % 3 = j.1 := by omega
  simp only [h1, h2]

theorem chunk3_bytes (b : ByteArr 96) (i : Fin 96) (j : Fin 8) :
    fromBytes3 b ⟨8 * (i.1 / 3) + j.1, by omega⟩ = from3Chunk (fun m => byteAt b ⟨3 * (i.1 / 3) + m.1, by omega⟩) j := by
  unfold fromBytes3
  have h1 : (8 * (i.1 / 3) + j.1) / 8 = i.1 / 3 := by omega
  have h2 : (8 * (i.1 / 3) + j.1) % 8 = j.1 := by omega
  simp only [h1, h2]

theorem fromBytes13_readBytes13 (p : Poly) (i : Fin 256) : fromBytes13 (readBytes13 p) i = p i &&& 0x1fff := by
  unfold fromBytes13
  simp only [chunk13_coeffs, from13_read13]
  rw [fin_congr p _ i.2 (by have := i.2; show 8 * (i.1 / 8) + i.1 % 8 = i.1; omega)]

theorem readBytes13_fromBytes13 (b : ByteArr 416) : readBytes13 (fromBytes13 b) = b := by
  apply buf_ext
  intro i
  unfold readBytes13
  rw [byteAt_bufOf]
  simp only [chunk13_bytes, read13_from13]
  exact fin_congr (byteAt b) _ i.2 (by show 13 * (i.1 / 13) + i.1 % 13 = i.1; omega)

theorem fromBytes10_readBytes10 (p : Poly) (i : Fin 256) : fromBytes10 (readBytes10 p) i = p i &&& 0x3ff := by
  unfold fromBytes10
  simp only [chunk10_coeffs, from10_read10]
  rw [fin_congr p _ i.2 (by have := i.2; show 4 * (i.1 / 4) + i.1 % 4 = i.1; omega)]

theorem readBytes10_fromBytes10 (b : ByteArr 320) : readBytes10 (fromBytes10 b) = b := by
  apply buf_ext
  intro i
  unfold readBytes10
  rw [byteAt_bufOf]
  simp only [chunk10_bytes, read10_from10]
  exact fin_congr (byteAt b) _ i.2 (by show 5 * (i.1 / 5) + i.1 % 5 = i.1; omega)

theorem fromBytes6_readBytes6 (p : Poly) (i : Fin 256) : fromBytes6 (readBytes6 p) i = p i &&& 0x3f := by
  unfold fromBytes6
  simp only [chunk6_coeffs, from6_read6]
  rw [fin_congr p _ i.2 (by have := i.2; show 4 * (i.1 / 4) + i.1 % 4 = i.1; omega)]

theorem readBytes6_fromBytes6 (b : ByteArr 192) : readBytes6 (fromBytes6 b) = b := by
  apply buf_ext
  intro i
  unfold readBytes6
  rw [byteAt_bufOf]
  simp only [chunk6_bytes, read6_from6]
  exact fin_congr (byteAt b) _ i.2 (by show 3 * (i.1 / 3) + i.1 % 3 = i.1; omega)

theorem fromBytes4_readBytes4 (p : Poly) (i : Fin 256) : fromBytes4 (readBytes4 p) i = p i &&& 0xF := by
  unfold fromBytes4 readBytes4
  rw [byteAt_bufOf, from4_read4]
  rw [fin_congr p _ i.2 (by show 2 * (i.1 / 2) + i.1 % 2 = i.1; omega)]

theorem readBytes4_fromBytes4 (b : ByteArr 128) : readBytes4 (fromBytes4 b) = b := by
  apply buf_ext
  intro i
  unfold readBytes4 fromBytes4
  rw [byteAt_bufOf]
  have h1 : ∀ j : Fin 2, (2 * i.1 + j.1) / 2 = i.1 := by intro j; omega
  have h2 : ∀ j : Fin 2, (2 * i.1 + j.1) % 2 = j.1 := by intro j; omega
  simp only [h1, h2, Fin.eta, read4_from4]

theorem fromBytes3_readBytes3 (p : Poly) (i : Fin 256) : fromBytes3 (readBytes3 p) i =
    if i.1 % 8 = 5 then (p i &&& 0x6) ||| ((p i >>> 2) &&& 0x1) else p i &&& 0x7 := by
  unfold fromBytes3
  simp only [chunk3_coeffs, from3_read3, Fin.ext_iff]
  rw [fin_congr p _ i.2 (by show 8 * (i.1 / 8) + i.1 % 8 = i.1; omega)]
  rfl

end Verif.Saber.Poly
