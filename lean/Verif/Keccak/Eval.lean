import Verif.Keccak.Hash

/-!
# Evaluating SHAKE with natural numbers

FIPS 202 on states packed into one natural number, with operations that the kernel reduces on literals.  Used to check digests (`Verif/Dilithium/Kat`); the
theorems say that the value computed is the one of the standard, so nothing here is trusted.
-/

namespace Verif.Keccak.Eval
open Verif.Fips202

/-! ## Bytes and numbers -/

/-- `k` bytes, least significant first. -/
def unb : Nat → Nat → Bytes
  | 0, _ => []
  | k + 1, n => UInt8.ofNat (Nat.mod n 256) :: unb k (Nat.div n 256)

theorem unb_len (k n : Nat) : (unb k n).length = k := by
  induction k generalizing n with
  | zero => rfl
  | succ k ih => rw [unb, List.length_cons, ih]

/-- The number whose bytes these are, least significant first. -/
def num : Bytes → Nat
  | [] => 0
  | b :: l => Nat.add b.toNat (Nat.mul 256 (num l))

theorem num_bit (l : Bytes) (i : Nat) : (num l).testBit i = (l.getD (i / 8) 0).toNat.testBit (i % 8) := by
  induction l generalizing i with
  | nil => simp [num]
  | cons b l ih =>
    show (b.toNat + 256 * num l).testBit i = _
    have hb : b.toNat < 2 ^ 8 := b.toNat_lt
    rw [show b.toNat + 256 * num l = 2 ^ 8 * num l + b.toNat by omega, Nat.testBit_two_pow_mul_add _ hb]
    split
    · rename_i h
      rw [show i / 8 = 0 by omega, show i % 8 = i by omega]
      rfl
    · rename_i h
      obtain ⟨j, rfl⟩ : ∃ j, i = j + 8 := ⟨i - 8, by omega⟩
      rw [ih, show j + 8 - 8 = j by omega, show (j + 8) / 8 = j / 8 + 1 by omega, show (j + 8) % 8 = j % 8 by omega]
      rfl

theorem bitsOf_num (l : Bytes) (i : Nat) : (bitsOf l).getD i false = (num l).testBit i := by rw [bitsOf_getD, num_bit]

theorem num_append (a b : Bytes) : num (a ++ b) = num a + 256 ^ a.length * num b := by
  induction a with
  | nil => simp [num]
  | cons x a ih =>
    show x.toNat + 256 * num (a ++ b) = x.toNat + 256 * num a + _
    rw [ih, List.length_cons, Nat.pow_succ, Nat.mul_add, Nat.mul_comm _ 256, Nat.mul_assoc, Nat.add_assoc]

theorem unb_bits (k n i : Nat) (h : i < 8 * k) : (bitsOf (unb k n)).getD i false = n.testBit i := by
  rw [bitsOf_getD]
  induction k generalizing n i with
  | zero => omega
  | succ k ih =>
    rw [unb]
    by_cases h8 : i < 8
    · rw [show i / 8 = 0 by omega, show i % 8 = i by omega]
      show (UInt8.ofNat (n % 256)).toNat.testBit i = _
      rw [UInt8.toNat_ofNat', Nat.mod_mod, show (256 : Nat) = 2 ^ 8 by rfl, Nat.testBit_mod_two_pow]
      simp [h8]
    · obtain ⟨j, rfl⟩ : ∃ j, i = j + 8 := ⟨i - 8, by omega⟩
      have := ih (n / 256) j (by omega)
      rw [show (j + 8) / 8 = j / 8 + 1 by omega, show (j + 8) % 8 = j % 8 by omega, List.getD_cons_succ]
      rw [show Nat.div n 256 = n / 2 ^ 8 from rfl] at *
      rw [show n / 256 = n / 2 ^ 8 from rfl, ← Nat.shiftRight_eq_div_pow, Nat.testBit_shiftRight] at this
      rw [← Nat.shiftRight_eq_div_pow, this, Nat.add_comm]

/-! ## The permutation -/

/-- χ and ι, packed. -/
def st4 (rc b0 b1 b2 b3 b4 b5 b6 b7 b8 b9 b10 b11 b12 b13 b14 b15 b16 b17 b18 b19 b20 b21 b22 b23 b24 : Nat) : Nat :=
  (Nat.add (Nat.xor (Nat.xor b0 (Nat.land (Nat.xor b1 18446744073709551615) b2)) rc) (Nat.mul 18446744073709551616 (Nat.add (Nat.xor b1 (Nat.land (Nat.xor b2 18446744073709551615) b3)) (Nat.mul 18446744073709551616 (Nat.add (Nat.xor b2 (Nat.land (Nat.xor b3 18446744073709551615) b4)) (Nat.mul 18446744073709551616 (Nat.add (Nat.xor b3 (Nat.land (Nat.xor b4 18446744073709551615) b0)) (Nat.mul 18446744073709551616 (Nat.add (Nat.xor b4 (Nat.land (Nat.xor b0 18446744073709551615) b1)) (Nat.mul 18446744073709551616 (Nat.add (Nat.xor b5 (Nat.land (Nat.xor b6 18446744073709551615) b7)) (Nat.mul 18446744073709551616 (Nat.add (Nat.xor b6 (Nat.land (Nat.xor b7 18446744073709551615) b8)) (Nat.mul 18446744073709551616 (Nat.add (Nat.xor b7 (Nat.land (Nat.xor b8 18446744073709551615) b9)) (Nat.mul 18446744073709551616 (Nat.add (Nat.xor b8 (Nat.land (Nat.xor b9 18446744073709551615) b5)) (Nat.mul 18446744073709551616 (Nat.add (Nat.xor b9 (Nat.land (Nat.xor b5 18446744073709551615) b6)) (Nat.mul 18446744073709551616 (Nat.add (Nat.xor b10 (Nat.land (Nat.xor b11 18446744073709551615) b12)) (Nat.mul 18446744073709551616 (Nat.add (Nat.xor b11 (Nat.land (Nat.xor b12 18446744073709551615) b13)) (Nat.mul 18446744073709551616 (Nat.add (Nat.xor b12 (Nat.land (Nat.xor b13 18446744073709551615) b14)) (Nat.mul 18446744073709551616 (Nat.add (Nat.xor b13 (Nat.land (Nat.xor b14 18446744073709551615) b10)) (Nat.mul 18446744073709551616 (Nat.add (Nat.xor b14 (Nat.land (Nat.xor b10 18446744073709551615) b11)) (Nat.mul 18446744073709551616 (Nat.add (Nat.xor b15 (Nat.land (Nat.xor b16 18446744073709551615) b17)) (Nat.mul 18446744073709551616 (Nat.add (Nat.xor b16 (Nat.land (Nat.xor b17 18446744073709551615) b18)) (Nat.mul 18446744073709551616 (Nat.add (Nat.xor b17 (Nat.land (Nat.xor b18 18446744073709551615) b19)) (Nat.mul 18446744073709551616 (Nat.add (Nat.xor b18 (Nat.land (Nat.xor b19 18446744073709551615) b15)) (Nat.mul 18446744073709551616 (Nat.add (Nat.xor b19 (Nat.land (Nat.xor b15 18446744073709551615) b16)) (Nat.mul 18446744073709551616 (Nat.add (Nat.xor b20 (Nat.land (Nat.xor b21 18446744073709551615) b22)) (Nat.mul 18446744073709551616 (Nat.add (Nat.xor b21 (Nat.land (Nat.xor b22 18446744073709551615) b23)) (Nat.mul 18446744073709551616 (Nat.add (Nat.xor b22 (Nat.land (Nat.xor b23 18446744073709551615) b24)) (Nat.mul 18446744073709551616 (Nat.add (Nat.xor b23 (Nat.land (Nat.xor b24 18446744073709551615) b20)) (Nat.mul 18446744073709551616 (Nat.add (Nat.xor b24 (Nat.land (Nat.xor b20 18446744073709551615) b21)) (Nat.mul 18446744073709551616 0))))))))))))))))))))))))))))))))))))))))))))))))))

/-- The second half of θ, ρ and π. -/
def st3 (rc a0 a1 a2 a3 a4 a5 a6 a7 a8 a9 a10 a11 a12 a13 a14 a15 a16 a17 a18 a19 a20 a21 a22 a23 a24 d0 d1 d2 d3 d4 : Nat) : Nat :=
  st4 rc (Nat.xor a0 d0)
    (Nat.lor (Nat.mod (Nat.shiftLeft (Nat.xor a6 d1) 44) 18446744073709551616) (Nat.shiftRight (Nat.xor a6 d1) 20))
    (Nat.lor (Nat.mod (Nat.shiftLeft (Nat.xor a12 d2) 43) 18446744073709551616) (Nat.shiftRight (Nat.xor a12 d2) 21))
    (Nat.lor (Nat.mod (Nat.shiftLeft (Nat.xor a18 d3) 21) 18446744073709551616) (Nat.shiftRight (Nat.xor a18 d3) 43))
    (Nat.lor (Nat.mod (Nat.shiftLeft (Nat.xor a24 d4) 14) 18446744073709551616) (Nat.shiftRight (Nat.xor a24 d4) 50))
    (Nat.lor (Nat.mod (Nat.shiftLeft (Nat.xor a3 d3) 28) 18446744073709551616) (Nat.shiftRight (Nat.xor a3 d3) 36))
    (Nat.lor (Nat.mod (Nat.shiftLeft (Nat.xor a9 d4) 20) 18446744073709551616) (Nat.shiftRight (Nat.xor a9 d4) 44))
    (Nat.lor (Nat.mod (Nat.shiftLeft (Nat.xor a10 d0) 3) 18446744073709551616) (Nat.shiftRight (Nat.xor a10 d0) 61))
    (Nat.lor (Nat.mod (Nat.shiftLeft (Nat.xor a16 d1) 45) 18446744073709551616) (Nat.shiftRight (Nat.xor a16 d1) 19))
    (Nat.lor (Nat.mod (Nat.shiftLeft (Nat.xor a22 d2) 61) 18446744073709551616) (Nat.shiftRight (Nat.xor a22 d2) 3))
    (Nat.lor (Nat.mod (Nat.shiftLeft (Nat.xor a1 d1) 1) 18446744073709551616) (Nat.shiftRight (Nat.xor a1 d1) 63))
    (Nat.lor (Nat.mod (Nat.shiftLeft (Nat.xor a7 d2) 6) 18446744073709551616) (Nat.shiftRight (Nat.xor a7 d2) 58))
    (Nat.lor (Nat.mod (Nat.shiftLeft (Nat.xor a13 d3) 25) 18446744073709551616) (Nat.shiftRight (Nat.xor a13 d3) 39))
    (Nat.lor (Nat.mod (Nat.shiftLeft (Nat.xor a19 d4) 8) 18446744073709551616) (Nat.shiftRight (Nat.xor a19 d4) 56))
    (Nat.lor (Nat.mod (Nat.shiftLeft (Nat.xor a20 d0) 18) 18446744073709551616) (Nat.shiftRight (Nat.xor a20 d0) 46))
    (Nat.lor (Nat.mod (Nat.shiftLeft (Nat.xor a4 d4) 27) 18446744073709551616) (Nat.shiftRight (Nat.xor a4 d4) 37))
    (Nat.lor (Nat.mod (Nat.shiftLeft (Nat.xor a5 d0) 36) 18446744073709551616) (Nat.shiftRight (Nat.xor a5 d0) 28))
    (Nat.lor (Nat.mod (Nat.shiftLeft (Nat.xor a11 d1) 10) 18446744073709551616) (Nat.shiftRight (Nat.xor a11 d1) 54))
    (Nat.lor (Nat.mod (Nat.shiftLeft (Nat.xor a17 d2) 15) 18446744073709551616) (Nat.shiftRight (Nat.xor a17 d2) 49))
    (Nat.lor (Nat.mod (Nat.shiftLeft (Nat.xor a23 d3) 56) 18446744073709551616) (Nat.shiftRight (Nat.xor a23 d3) 8))
    (Nat.lor (Nat.mod (Nat.shiftLeft (Nat.xor a2 d2) 62) 18446744073709551616) (Nat.shiftRight (Nat.xor a2 d2) 2))
    (Nat.lor (Nat.mod (Nat.shiftLeft (Nat.xor a8 d3) 55) 18446744073709551616) (Nat.shiftRight (Nat.xor a8 d3) 9))
    (Nat.lor (Nat.mod (Nat.shiftLeft (Nat.xor a14 d4) 39) 18446744073709551616) (Nat.shiftRight (Nat.xor a14 d4) 25))
    (Nat.lor (Nat.mod (Nat.shiftLeft (Nat.xor a15 d0) 41) 18446744073709551616) (Nat.shiftRight (Nat.xor a15 d0) 23))
    (Nat.lor (Nat.mod (Nat.shiftLeft (Nat.xor a21 d1) 2) 18446744073709551616) (Nat.shiftRight (Nat.xor a21 d1) 62))

/-- The column parities of θ, combined. -/
def st2 (rc a0 a1 a2 a3 a4 a5 a6 a7 a8 a9 a10 a11 a12 a13 a14 a15 a16 a17 a18 a19 a20 a21 a22 a23 a24 c0 c1 c2 c3 c4 : Nat) : Nat :=
  st3 rc a0 a1 a2 a3 a4 a5 a6 a7 a8 a9 a10 a11 a12 a13 a14 a15 a16 a17 a18 a19 a20 a21 a22 a23 a24
    (Nat.xor c4 (Nat.lor (Nat.mod (Nat.shiftLeft c1 1) 18446744073709551616) (Nat.shiftRight c1 63)))
    (Nat.xor c0 (Nat.lor (Nat.mod (Nat.shiftLeft c2 1) 18446744073709551616) (Nat.shiftRight c2 63)))
    (Nat.xor c1 (Nat.lor (Nat.mod (Nat.shiftLeft c3 1) 18446744073709551616) (Nat.shiftRight c3 63)))
    (Nat.xor c2 (Nat.lor (Nat.mod (Nat.shiftLeft c4 1) 18446744073709551616) (Nat.shiftRight c4 63)))
    (Nat.xor c3 (Nat.lor (Nat.mod (Nat.shiftLeft c0 1) 18446744073709551616) (Nat.shiftRight c0 63)))

/-- The column parities of θ. -/
def st1 (rc a0 a1 a2 a3 a4 a5 a6 a7 a8 a9 a10 a11 a12 a13 a14 a15 a16 a17 a18 a19 a20 a21 a22 a23 a24 : Nat) : Nat :=
  st2 rc a0 a1 a2 a3 a4 a5 a6 a7 a8 a9 a10 a11 a12 a13 a14 a15 a16 a17 a18 a19 a20 a21 a22 a23 a24
    (Nat.xor (Nat.xor (Nat.xor (Nat.xor a0 a5) a10) a15) a20)
    (Nat.xor (Nat.xor (Nat.xor (Nat.xor a1 a6) a11) a16) a21)
    (Nat.xor (Nat.xor (Nat.xor (Nat.xor a2 a7) a12) a17) a22)
    (Nat.xor (Nat.xor (Nat.xor (Nat.xor a3 a8) a13) a18) a23)
    (Nat.xor (Nat.xor (Nat.xor (Nat.xor a4 a9) a14) a19) a24)

/-- One round on a packed state: lane `i` in bits `64 i` to `64 i + 63`. -/
def rndN (rc S : Nat) : Nat :=
  st1 rc (Nat.mod (Nat.shiftRight S 0) 18446744073709551616)
    (Nat.mod (Nat.shiftRight S 64) 18446744073709551616)
    (Nat.mod (Nat.shiftRight S 128) 18446744073709551616)
    (Nat.mod (Nat.shiftRight S 192) 18446744073709551616)
    (Nat.mod (Nat.shiftRight S 256) 18446744073709551616)
    (Nat.mod (Nat.shiftRight S 320) 18446744073709551616)
    (Nat.mod (Nat.shiftRight S 384) 18446744073709551616)
    (Nat.mod (Nat.shiftRight S 448) 18446744073709551616)
    (Nat.mod (Nat.shiftRight S 512) 18446744073709551616)
    (Nat.mod (Nat.shiftRight S 576) 18446744073709551616)
    (Nat.mod (Nat.shiftRight S 640) 18446744073709551616)
    (Nat.mod (Nat.shiftRight S 704) 18446744073709551616)
    (Nat.mod (Nat.shiftRight S 768) 18446744073709551616)
    (Nat.mod (Nat.shiftRight S 832) 18446744073709551616)
    (Nat.mod (Nat.shiftRight S 896) 18446744073709551616)
    (Nat.mod (Nat.shiftRight S 960) 18446744073709551616)
    (Nat.mod (Nat.shiftRight S 1024) 18446744073709551616)
    (Nat.mod (Nat.shiftRight S 1088) 18446744073709551616)
    (Nat.mod (Nat.shiftRight S 1152) 18446744073709551616)
    (Nat.mod (Nat.shiftRight S 1216) 18446744073709551616)
    (Nat.mod (Nat.shiftRight S 1280) 18446744073709551616)
    (Nat.mod (Nat.shiftRight S 1344) 18446744073709551616)
    (Nat.mod (Nat.shiftRight S 1408) 18446744073709551616)
    (Nat.mod (Nat.shiftRight S 1472) 18446744073709551616)
    (Nat.mod (Nat.shiftRight S 1536) 18446744073709551616)

/-- Lane `i` of a packed state. -/
def ext (S i : Nat) : Nat := S >>> (64 * i) % 2 ^ 64

/-- Packed lanes. -/
def pack : List Nat → Nat
  | [] => 0
  | e :: l => e + 2 ^ 64 * pack l

theorem ext_pack (l : List Nat) (h : ∀ e ∈ l, e < 2 ^ 64) (i : Nat) : ext (pack l) i = l.getD i 0 := by
  induction l generalizing i with
  | nil => simp [ext, pack]
  | cons e l ih =>
    have he : e < 2 ^ 64 := h e (by simp)
    unfold ext pack
    match i with
    | 0 =>
      rw [Nat.mul_zero, Nat.shiftRight_zero, Nat.add_mul_mod_self_left, Nat.mod_eq_of_lt he]
      rfl
    | i + 1 =>
      have := ih (fun e he => h e (by simp [he])) i
      unfold ext at this
      rw [List.getD_cons_succ, ← this, Nat.mul_add, Nat.mul_one, Nat.add_comm (64 * i), Nat.shiftRight_add, Nat.shiftRight_eq_div_pow _ 64,
        Nat.add_mul_div_left _ _ (by decide), Nat.div_eq_of_lt he, Nat.zero_add]

/-- Rotation. -/
def rolN (a k : Nat) : Nat := (a <<< k) % 2 ^ 64 ||| a >>> (64 - k)

theorem rolN_eq (a : U64) (k : Nat) (h1 : 1 ≤ k) (h2 : k < 64) : rolN a.toNat k = (rol a k).toNat := by
  have e : rol a k = (a <<< k) ||| (a >>> (64 - k)) := by
    apply BitVec.eq_of_getLsbD_eq
    intro i hi
    unfold rol
    rw [BitVec.getLsbD_xor, BitVec.getLsbD_or, BitVec.getLsbD_shiftLeft, BitVec.getLsbD_ushiftRight]
    by_cases h : i < k
    · simp [h]
    · rw [BitVec.getLsbD_of_ge a (64 - k + i) (by omega)]; simp
  rw [e, BitVec.toNat_or, BitVec.toNat_shiftLeft, BitVec.toNat_ushiftRight]
  rfl

/-- The complement of a lane. -/
theorem not_toNat (b : U64) : (~~~b).toNat = b.toNat ^^^ (2 ^ 64 - 1) := by
  rw [BitVec.toNat_not]
  apply Nat.eq_of_testBit_eq
  intro i
  have hb : b.toNat < 2 ^ 64 := b.isLt
  rw [Nat.testBit_xor, Nat.testBit_two_pow_sub_one, show 2 ^ 64 - 1 - b.toNat = 2 ^ 64 - (b.toNat + 1) by omega, Nat.testBit_two_pow_sub_succ hb]
  by_cases h : i < 64
  · simp [h]
  · rw [Nat.testBit_lt_two_pow (lt_of_lt_of_le hb (Nat.pow_le_pow_right (by decide) (by omega)))]; simp [h]

/-- θ, then ρ. -/
def natTR (f : Fin 5 → Fin 5 → Nat) (x y : Fin 5) : Nat :=
  let C : Fin 5 → Nat := fun x => f x 0 ^^^ f x 1 ^^^ f x 2 ^^^ f x 3 ^^^ f x 4
  let t := f x y ^^^ (C (x - 1) ^^^ rolN (C (x + 1)) 1)
  match rhoOff x y with
  | 0 => t
  | k + 1 => rolN t (k + 1)

/-- One round. -/
def natRnd (rc : Nat) (f : Fin 5 → Fin 5 → Nat) (x y : Fin 5) : Nat :=
  let B : Fin 5 → Fin 5 → Nat := fun x y => natTR f (x + 3 * y) x
  let c := B x y ^^^ ((B (x + 1) y ^^^ (2 ^ 64 - 1)) &&& B (x + 2) y)
  match 5 * y.1 + x.1 with
  | 0 => c ^^^ rc
  | _ => c

theorem natTR_eq (s : Lanes) (x y : Fin 5) : natTR (fun x y => (lane s x y).toNat) x y = (laneTR s x y).toNat := by
  have hl := rhoOff_lt x y
  unfold natTR laneTR
  simp only [← BitVec.toNat_xor]
  rw [rolN_eq _ 1 (by omega) (by omega)]
  simp only [← BitVec.toNat_xor]
  generalize rhoOff x y = k at *
  match k with
  | 0 => rfl
  | k + 1 => exact rolN_eq _ _ (by omega) hl

theorem natRnd_eq (rc : U64) (s : Lanes) (x y : Fin 5) : natRnd rc.toNat (fun x y => (lane s x y).toNat) x y = (laneRnd rc s x y).toNat := by
  unfold natRnd laneRnd
  simp only [natTR_eq, ← not_toNat, ← BitVec.toNat_and, ← BitVec.toNat_xor]
  generalize 5 * y.1 + x.1 = k
  match k with
  | 0 => rfl
  | k + 1 => rfl

theorem rndN_eq (rc S : Nat) : rndN rc S = pack ([(0, 0), (1, 0), (2, 0), (3, 0), (4, 0), (0, 1), (1, 1), (2, 1), (3, 1), (4, 1), (0, 2), (1, 2), (2, 2), (3, 2), (4, 2),
    (0, 3), (1, 3), (2, 3), (3, 3), (4, 3), (0, 4), (1, 4), (2, 4), (3, 4), (4, 4)].map fun p : Fin 5 × Fin 5 => natRnd rc (fun x y => ext S (5 * y.1 + x.1)) p.1 p.2) := by
  rfl

/-- The packed state is this state array. -/
def Rep (S : Nat) (A : State) : Prop := ∀ x y z, S.testBit (ix x y z) = A x y z

/-- The lanes of a packed state. -/
def lanesOf (S : Nat) : Lanes := Vector.ofFn fun i : Fin 25 => BitVec.ofNat 64 (ext S i.1)

theorem lane_lanesOf (S : Nat) (x y : Fin 5) : (lane (lanesOf S) x y).toNat = ext S (5 * y.1 + x.1) := by
  unfold lane lanesOf
  rw [Vector.getElem_ofFn, BitVec.toNat_ofNat]
  exact Nat.mod_eq_of_lt (Nat.mod_lt _ (by decide))

theorem ext_bit (S i z : Nat) (h : z < 64) : (ext S i).testBit z = S.testBit (64 * i + z) := by
  unfold ext
  rw [Nat.testBit_mod_two_pow, Nat.testBit_shiftRight]
  simp [h]

theorem rep_lanes (S : Nat) (s : Lanes) (h : ∀ x y, ext S (5 * y.1 + x.1) = (lane s x y).toNat) : Rep S (abs s) := by
  intro x y z
  show _ = (lane s x y).getLsbD z.1
  rw [← BitVec.testBit_toNat, ← h, ext_bit _ _ _ z.2]
  rfl

theorem rep_unique {S : Nat} {A B : State} (h : Rep S A) (g : Rep S B) : A = B := by
  funext x y z
  rw [← h, g]

theorem getD_xy (g : Fin 5 → Fin 5 → Nat) (x y : Fin 5) :
    ([(0, 0), (1, 0), (2, 0), (3, 0), (4, 0), (0, 1), (1, 1), (2, 1), (3, 1), (4, 1), (0, 2), (1, 2), (2, 2), (3, 2), (4, 2),
    (0, 3), (1, 3), (2, 3), (3, 3), (4, 3), (0, 4), (1, 4), (2, 4), (3, 4), (4, 4)].map fun p : Fin 5 × Fin 5 => g p.1 p.2).getD (5 * y.1 + x.1) 0 = g x y := by
  fin_cases x <;> fin_cases y <;> rfl

theorem rnd_rep (ir : Nat) (hi : ir < 24) (S : Nat) (A : State) (h : Rep S A) : Rep (rndN (roundConstants.getD ir 0).toNat S) (rnd A ir) := by
  have h1 : Rep S (abs (lanesOf S)) := rep_lanes _ _ fun x y => (lane_lanesOf S x y).symm
  rw [rep_unique h h1]
  rw [← rnd_of_lane ir hi (lanesOf S) _ (halfA_lane (roundConstants.getD ir 0) (lanesOf S))]
  apply rep_lanes
  have hf : (fun x y : Fin 5 => ext S (5 * y.1 + x.1)) = fun x y => (lane (lanesOf S) x y).toNat :=
    funext fun x => funext fun y => (lane_lanesOf S x y).symm
  intro x y
  rw [rndN_eq, ext_pack, getD_xy, halfA_lane, hf, natRnd_eq]
  intro e he
  rw [List.mem_map] at he
  obtain ⟨p, -, rfl⟩ := he
  rw [hf, natRnd_eq]
  exact BitVec.isLt _

/-- `f x`, after `x` is evaluated. -/
def force (x : Nat) (f : Nat → Nat) : Nat := cond (Nat.ble 0 x) (f x) 0

theorem force_eq (x : Nat) (f : Nat → Nat) : force x f = f x := by
  unfold force
  rw [show Nat.ble 0 x = true from Nat.ble_eq.mpr (Nat.zero_le x)]
  rfl

/-- Rounds. -/
def rnds : List Nat → Nat → Nat
  | [], S => S
  | rc :: l, S => force (rndN rc S) (rnds l)

/-- The round constants. -/
def rcs : List Nat := [
  0x0000000000000001, 0x0000000000008082, 0x800000000000808a, 0x8000000080008000, 0x000000000000808b, 0x0000000080000001,
  0x8000000080008081, 0x8000000000008009, 0x000000000000008a, 0x0000000000000088, 0x0000000080008009, 0x000000008000000a,
  0x000000008000808b, 0x800000000000008b, 0x8000000000008089, 0x8000000000008003, 0x8000000000008002, 0x8000000000000080,
  0x000000000000800a, 0x800000008000000a, 0x8000000080008081, 0x8000000000008080, 0x0000000080000001, 0x8000000080008008]

/-- The permutation. -/
def permN (S : Nat) : Nat := rnds rcs S

theorem rnds_rep (n i : Nat) (h : i + n = 24) (S : Nat) (A : State) (hr : Rep S A) :
    Rep (rnds ((List.range' i n).map fun ir => (roundConstants.getD ir 0).toNat) S) ((List.range' i n).foldl rnd A) := by
  induction n generalizing i S A with
  | zero => exact hr
  | succ n ih =>
    rw [List.range'_succ, List.map_cons, List.foldl_cons, rnds, force_eq]
    exact ih (i + 1) (by omega) _ _ (rnd_rep i (by omega) S A hr)

theorem permN_rep (S : Nat) (A : State) (h : Rep S A) : Rep (permN S) (keccakF A) := by
  have := rnds_rep 24 0 rfl S A h
  rw [show ((List.range' 0 24).map fun ir => (roundConstants.getD ir 0).toNat) = rcs by decide] at this
  exact this

/-! ## The sponge -/

/-- Absorb `n` blocks with `w` values each. -/
def absN (w : Nat) : Nat → Nat → Nat → Nat
  | 0, _, S => S
  | n + 1, P, S => force (permN (Nat.xor S (Nat.mod P w))) fun S => absN w n (Nat.div P w) S

theorem num_take (l : Bytes) (r : Nat) : num (l.take r) = num l % 2 ^ (8 * r) := by
  apply Nat.eq_of_testBit_eq
  intro i
  rw [Nat.testBit_mod_two_pow, num_bit, num_bit]
  by_cases h : i < 8 * r
  · rw [List.getD_eq_getElem?_getD, List.getElem?_take, if_pos (by omega)]
    simp [h]
  · rw [List.getD_eq_getElem?_getD, List.getElem?_take, if_neg (by omega)]
    simp [h]

theorem num_drop (l : Bytes) (r : Nat) : num (l.drop r) = num l / 2 ^ (8 * r) := by
  apply Nat.eq_of_testBit_eq
  intro i
  rw [← Nat.shiftRight_eq_div_pow, Nat.testBit_shiftRight, num_bit, num_bit, List.getD_eq_getElem?_getD, List.getElem?_drop,
    show (8 * r + i) / 8 = r + i / 8 by omega, show (8 * r + i) % 8 = i % 8 by omega]
  simp

theorem xor_rep (S : Nat) (A : State) (h : Rep S A) (bs : Bytes) : Rep (S ^^^ num bs) (xorStr A 0 bs) := by
  intro x y z
  unfold xorStr
  rw [Nat.testBit_xor, h, if_pos (by omega), Nat.mul_zero, Nat.sub_zero, bitsOf_num]

theorem absN_rep (r : Nat) (hr : 0 < r) (n : Nat) (Q : Bytes) (hQ : Q.length = n * r) (S : Nat) (A : State) (h : Rep S A) :
    ∃ A', Q.foldl (feed r) (A, 0) = (A', 0) ∧ Rep (absN (2 ^ (8 * r)) n (num Q) S) A' := by
  induction n generalizing Q S A with
  | zero =>
    rw [Nat.zero_mul] at hQ
    rw [List.length_eq_zero_iff.mp hQ]
    exact ⟨A, rfl, h⟩
  | succ n ih =>
    rw [Nat.succ_mul] at hQ
    have hl : (Q.take r).length = r := by rw [List.length_take]; omega
    have hx : Rep (permN (Nat.xor S (Nat.mod (num Q) (2 ^ (8 * r))))) (keccakF (xorStr A 0 (Q.take r))) := by
      apply permN_rep
      have := xor_rep S A h (Q.take r)
      rw [num_take] at this
      exact this
    obtain ⟨A', h1, h2⟩ := ih (Q.drop r) (by rw [List.length_drop]; omega) _ _ hx
    refine ⟨A', ?_, ?_⟩
    · rw [← h1]
      conv_lhs => rw [← List.take_append_drop r Q]
      rw [List.foldl_append, feed_block r (Q.take r) A 0 (by intro h0; rw [h0] at hl; simp at hl; omega) (by omega)]
    · rw [absN, force_eq]
      rw [num_drop] at h2
      exact h2

/-- Squeeze `n` blocks from a state that has been permuted. -/
def sqN (w : Nat) : Nat → Nat → Nat
  | 0, _ => 0
  | 1, S => Nat.mod S w
  | n + 2, S => Nat.add (Nat.mod S w) (Nat.mul w (force (permN S) (sqN w (n + 1))))

theorem rep_bit (S : Nat) (A : State) (h : Rep S A) (i : Nat) (hi : i < 1600) : S.testBit i = bit A i := by
  unfold bit
  rw [← h]
  unfold ix
  congr 1
  simp only [Fin.ofNat]
  omega

theorem sqN_bit (r : Nat) (hr : 0 < r) (hr2 : r ≤ 200) (n : Nat) (S : Nat) (A : State) (h : Rep S A) (i : Nat) (hi : i < n * (8 * r)) :
    (sqN (2 ^ (8 * r)) n S).testBit i = bit (keccakF^[i / (8 * r)] A) (i % (8 * r)) := by
  induction n generalizing S A i with
  | zero => omega
  | succ n ih =>
    have e : sqN (2 ^ (8 * r)) (n + 1) S = 2 ^ (8 * r) * sqN (2 ^ (8 * r)) n (permN S) + S % 2 ^ (8 * r) := by
      match n with
      | 0 => rw [sqN, sqN, Nat.mul_zero, Nat.zero_add]; rfl
      | n + 1 => rw [sqN, force_eq]; exact Nat.add_comm _ _
    rw [e, Nat.testBit_two_pow_mul_add _ (Nat.mod_lt _ (Nat.two_pow_pos _))]
    split
    · rename_i hlt
      rw [Nat.div_eq_of_lt hlt, Nat.mod_eq_of_lt hlt, Nat.testBit_mod_two_pow, rep_bit S A h i (by omega)]
      simp [hlt]
    · rename_i hge
      rw [Nat.succ_mul] at hi
      obtain ⟨j, rfl⟩ : ∃ j, i = j + 8 * r := ⟨i - 8 * r, by omega⟩
      rw [Nat.add_sub_cancel, ih _ _ (permN_rep S A h) j (by omega), Nat.add_div_right _ (by omega), Nat.add_mod_right, Function.iterate_succ_apply]

/-- The sponge with domain byte `p` and rate `r` bytes: `n` bytes of output. -/
def spongeN (r : Nat) (p : UInt8) (n : Nat) (M : Bytes) : Nat :=
  force (num (M ++ padBytes p (r - M.length % r))) fun P => force (absN (2 ^ (8 * r)) (M.length / r + 1) P 0) (sqN (2 ^ (8 * r)) ((n + r - 1) / r))

theorem spongeN_eq {p : UInt8} {suf : List Bool} (hp : Domain p suf) (r : Nat) (hr : 0 < r) (hr2 : r ≤ 200) (M : Bytes) (n : Nat) :
    bitsOf (unb n (spongeN r p n M)) = sponge (8 * r) (bitsOf M ++ suf) (8 * n) := by
  have hm := Nat.mod_lt M.length hr
  have hd := Nat.div_add_mod M.length r
  have hQ : (M ++ padBytes p (r - M.length % r)).length = (M.length / r + 1) * r := by
    rw [List.length_append, padBytes_length _ _ (by omega), Nat.succ_mul, Nat.mul_comm]; omega
  obtain ⟨A', h1, h2⟩ := absN_rep r hr _ _ hQ 0 zero (fun x y z => by rw [Nat.zero_testBit]; rfl)
  rw [← absorbed_eq hp r hr M] at h1
  have h1' : absorbed (8 * r) (bitsOf M ++ suf) = A' := (Prod.ext_iff.mp h1).1
  rw [← h1'] at h2
  apply List.ext_getElem
  · rw [bitsOf_length, unb_len]; simp [sponge]
  · intro i g1 g2
    have hi : i < 8 * n := by rw [bitsOf_length, unb_len] at g1; exact g1
    have := unb_bits n (spongeN r p n M) i hi
    rw [List.getD_eq_getElem _ _ g1] at this
    rw [this]
    unfold spongeN
    rw [force_eq, force_eq, sqN_bit r hr hr2 _ _ _ h2 i ?_]
    · simp [sponge]
    · have := Nat.div_add_mod (n + r - 1) r
      have := Nat.mod_lt (n + r - 1) hr
      have e : (n + r - 1) / r * (8 * r) = 8 * (r * ((n + r - 1) / r)) := by rw [Nat.mul_comm r, Nat.mul_left_comm]
      omega

end Verif.Keccak.Eval
