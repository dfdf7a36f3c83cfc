import Verif.Saber.Generic
import Verif.Saber.RingLemmas
import Verif.Saber.Spec
import Mathlib.Data.ZMod.Basic
import Mathlib.Tactic.LinearCombination

/-! Helper lemmas about generic.rs. -/

namespace Verif.Saber

open Finset Poly

/-! ### buffers -/

theorem chunkOf_joinChunks {K n : Nat} (c : Fin K → ByteArr n) (k : Fin K) : chunkOf (joinChunks c) k = c k := by
  apply buf_ext
  intro j
  unfold chunkOf joinChunks
  rw [byteAt_bufOf, byteAt_bufOf]
  have hn : 0 < n := by have := j.2; omega
  have h1 : (n * k.1 + j.1) / n = k.1 := by
    rw [Nat.mul_add_div hn, Nat.div_eq_of_lt j.2, Nat.add_zero]
  have h2 : (n * k.1 + j.1) % n = j.1 := by
    rw [Nat.mul_add_mod, Nat.mod_eq_of_lt j.2]
  simp only [h1, h2, Fin.eta]

theorem joinChunks_chunkOf {K n : Nat} (b : ByteArr (K * n)) : joinChunks (chunkOf b) = b := by
  apply buf_ext
  intro i
  unfold chunkOf joinChunks
  rw [byteAt_bufOf, byteAt_bufOf]
  exact fin_congr (byteAt b) _ i.2 (Nat.div_add_mod _ _)

theorem fstPart_cat {n m : Nat} (a : ByteArr n) (b : ByteArr m) : fstPart (cat a b) = a := by
  apply Subtype.ext
  obtain ⟨a, rfl⟩ := a
  exact List.take_left

theorem sndPart_cat {n m : Nat} (a : ByteArr n) (b : ByteArr m) : sndPart (cat a b) = b := by
  apply Subtype.ext
  obtain ⟨a, rfl⟩ := a
  exact List.drop_left

theorem cat_parts {n m : Nat} (b : ByteArr (n + m)) : cat (fstPart b) (sndPart b) = b := by
  apply Subtype.ext
  exact List.take_append_drop n b.1

theorem fromBytesModP_readModP {K : Nat} (v : Vec K) (k : Fin K) (i : Fin 256) :
    Vec.fromBytesModP v.readModP k i = v k i &&& 0x3FF := by
  unfold Vec.fromBytesModP Vec.readModP
  rw [chunkOf_joinChunks, fromBytes10_readBytes10]

theorem readModP_fromBytesModP {K : Nat} (b : ByteArr (K * 320)) : (Vec.fromBytesModP b).readModP = b := by
  unfold Vec.fromBytesModP Vec.readModP
  simp only [readBytes10_fromBytes10]
  exact joinChunks_chunkOf b

theorem fromBytesModQ_readModQ {K : Nat} (v : Vec K) (k : Fin K) (i : Fin 256) :
    Vec.fromBytesModQ v.readModQ k i = v k i &&& 0x1FFF := by
  unfold Vec.fromBytesModQ Vec.readModQ
  rw [chunkOf_joinChunks, fromBytes13_readBytes13]

theorem readModQ_fromBytesModQ {K : Nat} (b : ByteArr (K * 416)) : (Vec.fromBytesModQ b).readModQ = b := by
  unfold Vec.fromBytesModQ Vec.readModQ
  simp only [readBytes13_fromBytes13]
  exact joinChunks_chunkOf b

/-! ### ring -/

theorem foldl_add_mul {K : Nat} (l : List (Fin K)) (f g : Fin K → Poly) (acc : Poly) :
    l.foldl (fun acc k => acc.add ((f k).mul (g k))) acc = acc + (l.map fun k => negaMul (f k) (g k)).sum := by
  induction l generalizing acc with
  | nil => simp
  | cons k l ih =>
    rw [List.foldl_cons, ih, List.map_cons, List.sum_cons, ← add_assoc, mul_eq_negaMul]
    rfl

theorem vecMul_eq {K : Nat} (v w : Vec K) : v.mul w = inner v w := by
  unfold Vec.mul inner
  rw [foldl_add_mul, Fin.sum_univ_def]
  exact zero_add _

theorem matMul_eq {K : Nat} (A : Mat K) (v : Vec K) : A.mul v = matVec A v := by
  funext i
  exact vecMul_eq _ _

theorem matMulT_eq {K : Nat} (A : Mat K) (v : Vec K) : A.mulTranspose v = matVec (transpose A) v := by
  funext i
  unfold Mat.mulTranspose matVec transpose
  rw [foldl_add_mul _ (fun j => A j i), Fin.sum_univ_def]
  exact zero_add _

theorem inner_matVec {R : Type} [CommRing R] {K : Nat} (A : Fin K → Fin K → Fin 256 → R) (s t : Fin K → Fin 256 → R) :
    inner (matVec A s) t = inner (matVec (transpose A) t) s := by
  apply toQuot_injective (by omega)
  simp only [inner, matVec, transpose, toQuot_sum, toQuot_negaMul, Finset.sum_mul]
  rw [Finset.sum_comm]
  refine Finset.sum_congr rfl fun i _ => Finset.sum_congr rfl fun j _ => ?_
  ring

/-- Reduction modulo a divisor of `2^16`, as a ring homomorphism. -/
def red (p : Nat) (hp : p ∣ 65536) : U16 →+* ZMod p where
  toFun x := (x.toNat : ZMod p)
  map_zero' := by simp
  map_one' := by simp
  map_add' x y := by
    have h : ((x.toNat + y.toNat) % 65536) % p = (x.toNat + y.toNat) % p := Nat.mod_mod_of_dvd _ hp
    rw [← Nat.cast_add, ZMod.natCast_eq_natCast_iff', BitVec.toNat_add]
    exact h
  map_mul' x y := by
    have h : ((x.toNat * y.toNat) % 65536) % p = (x.toNat * y.toNat) % p := Nat.mod_mod_of_dvd _ hp
    rw [← Nat.cast_mul, ZMod.natCast_eq_natCast_iff', BitVec.toNat_mul]
    exact h

theorem red_apply {p : Nat} (hp : p ∣ 65536) (x : U16) : red p hp x = (x.toNat : ZMod p) := rfl

theorem red_eq_iff {p : Nat} (hp : p ∣ 65536) (x y : U16) : red p hp x = red p hp y ↔ x.toNat % p = y.toNat % p :=
  ZMod.natCast_eq_natCast_iff' _ _ _

theorem red_inner {p : Nat} (hp : p ∣ 65536) {K : Nat} (u v : Vec K) (i : Fin 256) :
    red p hp (inner u v i) = inner (fun k i => red p hp (u k i)) (fun k i => red p hp (v k i)) i := by
  unfold inner
  simp only [Finset.sum_apply, map_sum, map_negaMul]

theorem red_toInt {p : Nat} (hp : p ∣ 65536) (x : U16) : red p hp x = ((x.toInt : ℤ) : ZMod p) := by
  rw [red_apply, BitVec.toInt_eq_toNat_cond]
  split
  · simp
  · have : ((2 ^ 16 : Nat) : ZMod p) = 0 := by
      rw [ZMod.natCast_eq_zero_iff]; exact hp
    push_cast at this ⊢
    rw [this, sub_zero]

theorem cast_inner {p : Nat} {K : Nat} (u v : Fin K → Fin 256 → ℤ) (i : Fin 256) :
    ((inner u v i : ℤ) : ZMod p) = inner (fun k i => (u k i : ZMod p)) (fun k i => (v k i : ZMod p)) i := by
  unfold inner
  simp only [Finset.sum_apply]
  rw [Int.cast_sum]
  refine Finset.sum_congr rfl fun k _ => ?_
  exact map_negaMul (Int.castRingHom (ZMod p)) _ _ _

end Verif.Saber
