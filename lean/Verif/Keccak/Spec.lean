import Verif.Basic.Bytes
import Mathlib.Logic.Function.Iterate

/-!
# FIPS 202 (SHA-3 standard), written from the standard, bit by bit

Section numbers are those of FIPS 202.  Nothing here refers to the code.
-/

namespace Verif.Fips202

/-- A state array `A[x, y, z]` (3.1), `b = 1600`, `w = 64`; additions and subtractions of indices are modulo 5 and 64. -/
abbrev State := Fin 5 → Fin 5 → Fin 64 → Bool

/-- θ (3.2.1). -/
def theta (A : State) : State :=
  let C : Fin 5 → Fin 64 → Bool := fun x z => A x 0 z ^^ A x 1 z ^^ A x 2 z ^^ A x 3 z ^^ A x 4 z
  let D : Fin 5 → Fin 64 → Bool := fun x z => C (x - 1) z ^^ C (x + 1) (z - 1)
  fun x y z => A x y z ^^ D x z

/-- The positions `(x, y)` visited by ρ: `(1, 0)` at `t = 0`, then `(y, 2x + 3y)`. -/
def rhoPos : Nat → Fin 5 × Fin 5
  | 0 => (1, 0)
  | t + 1 => ((rhoPos t).2, 2 * (rhoPos t).1 + 3 * (rhoPos t).2)

/-- ρ (3.2.2): for `t` from 0 to 23, the lane at the current position is read at `z - (t+1)(t+2)/2`. -/
def rho (A : State) : State :=
  (List.range 24).foldl (fun (A' : State) t => fun x y z =>
    if (x, y) = rhoPos t then A x y (z - Fin.ofNat 64 ((t + 1) * (t + 2) / 2)) else A' x y z) A

/-- π (3.2.3). -/
def pi (A : State) : State := fun x y z => A (x + 3 * y) x z

/-- χ (3.2.4). -/
def chi (A : State) : State := fun x y z => A x y z ^^ ((A (x + 1) y z ^^ true) && A (x + 2) y z)

/-- One step of the shift register of Algorithm 5: `R = 0 ‖ R`, then `R[0], R[4], R[5], R[6]` are flipped by `R[8]`, then truncation to 8 bits. -/
def lfsr (R : Fin 8 → Bool) : Fin 8 → Bool
  | 0 => R 7
  | 1 => R 0
  | 2 => R 1
  | 3 => R 2
  | 4 => R 3 ^^ R 7
  | 5 => R 4 ^^ R 7
  | 6 => R 5 ^^ R 7
  | 7 => R 6

/-- `rc(t)` (Algorithm 5). -/
def rc (t : Nat) : Bool := lfsr^[t % 255] (fun i => decide (i = 0)) 0

/-- ι (3.2.5): bit `2^j - 1` of lane `(0, 0)` is flipped by `rc(j + 7 i_r)`, for `j` from 0 to 6. -/
def iota (ir : Nat) (A : State) : State := fun x y z =>
  if x = 0 ∧ y = 0 then A x y z ^^ (List.range 7).any (fun j => decide (z.1 = 2 ^ j - 1) && rc (j + 7 * ir)) else A x y z

/-- `Rnd(A, i_r)` (3.3). -/
def rnd (A : State) (ir : Nat) : State := iota ir (chi (pi (rho (theta A))))

/-- `KECCAK-p[1600, 24]` = `KECCAK-f[1600]` (3.3, 3.4). -/
def keccakF (A : State) : State := (List.range 24).foldl rnd A

/-- Bit `i` of the string of a state: `S[64 (5y + x) + z] = A[x, y, z]` (3.1.2). -/
def bit (A : State) (i : Nat) : Bool := A (Fin.ofNat 5 (i / 64)) (Fin.ofNat 5 (i / 64 / 5)) (Fin.ofNat 64 i)

/-- `S ⊕ (P ‖ 0…0)`. -/
def xorString (A : State) (P : List Bool) : State := fun x y z => A x y z ^^ P.getD (64 * (5 * y.1 + x.1) + z.1) false

/-- `pad10*1(x, m)` (5.1): `1 ‖ 0^j ‖ 1` with `j = (-m - 2) mod x`. -/
def pad (x m : Nat) : List Bool := true :: List.replicate (((-(m : Int) - 2) % x).toNat) false ++ [true]

/-- The state of `SPONGE[f, pad, r]` (Algorithm 8) after the absorbing phase: `P = N ‖ pad(r, len N)`, cut into blocks of `r` bits. -/
def absorbed (r : Nat) (N : List Bool) : State :=
  let P := N ++ pad r N.length
  (List.range (P.length / r)).foldl (fun S i => keccakF (xorString S ((P.drop (i * r)).take r))) fun _ _ _ => false

/-- `SPONGE[KECCAK-f[1600], pad10*1, r](N, d)` (Algorithm 8): bit `k` of the output is bit `k mod r` of the state after `k / r` further permutations. -/
def sponge (r : Nat) (N : List Bool) (d : Nat) : List Bool :=
  (List.range d).map fun k => bit (keccakF^[k / r] (absorbed r N)) (k % r)

/-- `KECCAK[c](N, d)` (5.2). -/
def keccak (c : Nat) (N : List Bool) (d : Nat) : List Bool := sponge (1600 - c) N d

/-- `SHAKE128(M, d)` (6.2). -/
def SHAKE128 (M : List Bool) (d : Nat) : List Bool := keccak 256 (M ++ [true, true, true, true]) d
/-- `SHAKE256(M, d)` (6.2). -/
def SHAKE256 (M : List Bool) (d : Nat) : List Bool := keccak 512 (M ++ [true, true, true, true]) d
/-- `SHA3-256(M)` (6.1). -/
def SHA3_256 (M : List Bool) : List Bool := keccak 512 (M ++ [false, true]) 256
/-- `SHA3-384(M)` (6.1). -/
def SHA3_384 (M : List Bool) : List Bool := keccak 768 (M ++ [false, true]) 384
/-- `SHA3-512(M)` (6.1). -/
def SHA3_512 (M : List Bool) : List Bool := keccak 1024 (M ++ [false, true]) 512

/-- The bit string of a byte string: least significant bit first (B.1). -/
def bitsOf (b : Bytes) : List Bool := b.flatMap fun x => (List.range 8).map fun j => x.toNat.testBit j

end Verif.Fips202
