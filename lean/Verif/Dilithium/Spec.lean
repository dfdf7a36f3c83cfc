import Verif.Dilithium.Sign
import Verif.Basic.Negacyclic
import Mathlib.Data.ZMod.Basic

/-!
# Specification vocabulary for Dilithium2

Polynomial arithmetic in `R_q = Z_q[X]/(X^256+1)` by coefficients, and the rounding functions of the Dilithium specification
(version 3.1, Figure 3 and section 2.4), written down independently of the C code.
-/

namespace Verif.Dilithium.Spec

/-- Elements of `R_q`, by coefficients. -/
abbrev Rq := Fin 256 → ZMod 8380417

/-- The class of an integer polynomial. -/
def toRq (a : Fin 256 → Int) : Rq := fun i => (a i : ZMod 8380417)

/-- The coefficients in `[0, q)`. -/
def std (x : Rq) : Fin 256 → Int := fun i => (x i).val

/-- Bit reversal of 8 bits. -/
def brv (n : Nat) : Nat := ((List.range 8).map fun b => if n.testBit b then 2 ^ (7 - b) else 0).sum

/-- The evaluation point of NTT slot `n`: an odd power of the 512-th root of unity 1753. -/
def root (n : Fin 256) : ZMod 8380417 := 1753 ^ (2 * brv n.1 + 1)

/-- `a` lists the values of the polynomial `A` at the 256 evaluation points (in bit-reversed order), modulo `q`. -/
def IsNtt (A : Rq) (a : Fin 256 → Int) : Prop := ∀ n, evalAt (root n) A = (a n : ZMod 8380417)

/-- Matrix-vector product over `R_q`. -/
def matMul (A : Fin 4 → Fin 4 → Rq) (v : Fin 4 → Rq) : Fin 4 → Rq := fun i => ∑ j, negaMul (A i j) (v j)

/-- `r mod± m`. -/
def modpm (r m : Int) : Int := if r % m > m / 2 then r % m - m else r % m

/-- `Power2Round`. -/
def power2Round (r : Int) : Int × Int := ((r - modpm r 8192) / 8192, modpm r 8192)

/-- `Decompose` with `α = 2γ2 = 190464`. -/
def decompose (r : Int) : Int × Int :=
  if r - modpm r 190464 = 8380416 then (0, modpm r 190464 - 1) else ((r - modpm r 190464) / 190464, modpm r 190464)

/-- `HighBits`. -/
def highBits (r : Int) : Int := (decompose r).1
/-- `LowBits`. -/
def lowBits (r : Int) : Int := (decompose r).2

/-- `MakeHint(z, r)`: does adding `z` to `r` modulo `q` change the high bits? -/
def makeHint (z r : Int) : Int := if highBits r ≠ highBits ((r + z) % 8380417) then 1 else 0

/-- `UseHint`, with `m = (q-1)/α = 44`. -/
def useHint (h r : Int) : Int :=
  if h = 1 then (if lowBits r > 0 then (highBits r + 1) % 44 else (highBits r - 1) % 44) else highBits r

/-- `‖v‖∞ < B`. -/
def NormLt (v : Fin 4 → Fin 256 → Int) (B : Int) : Prop := ∀ k i, |v k i| < B

/-- The number of ones in a hint vector. -/
def ones (h : Fin 4 → Fin 256 → Int) : Nat := ∑ k, (Finset.univ.filter fun i => h k i = 1).card

/-! ## The three algorithms (specification 3.1, Figure 4), without sampling and encoding -/

/-- `t = A·s1 + s2`, coefficients in `[0, q)`. -/
def tOf (A : Fin 4 → Fin 4 → Rq) (s1 s2 : Vec) : Vec := fun k => std (matMul A (fun j => toRq (s1 j)) k + toRq (s2 k))

/-- `w = A·y`, coefficients in `[0, q)`. -/
def wOf (A : Fin 4 → Fin 4 → Rq) (y : Vec) : Vec := fun k => std (matMul A (fun j => toRq (y j)) k)

/-- `c·v` over the integers. -/
def cMul (c : Poly) (v : Vec) : Vec := fun k => negaMul c (v k)

/-- `z = y + c·s1`. -/
def zOf (y : Vec) (c : Poly) (s1 : Vec) : Vec := fun k i => y k i + cMul c s1 k i

/-- `w - c·s2`, coefficients in `[0, q)`. -/
def rOf (w : Vec) (c : Poly) (s2 : Vec) : Vec := fun k i => (w k i - cMul c s2 k i) % 8380417

/-- `h = MakeHint(-c·t0, w - c·s2 + c·t0)`. -/
def hOf (r : Vec) (c : Poly) (t0 : Vec) : Vec := fun k i => makeHint (-cMul c t0 k i) ((r k i + cMul c t0 k i) % 8380417)

/-- The conditions under which an attempt is output: `‖z‖ < γ1-β`, `‖LowBits(w - c·s2)‖ < γ2-β`, `‖c·t0‖ < γ2`, at most `ω` hints. -/
def Accept (w y : Vec) (c : Poly) (s1 s2 t0 : Vec) : Prop :=
  NormLt (zOf y c s1) (131072 - 78) ∧ NormLt (fun k i => lowBits (rOf w c s2 k i)) (95232 - 78) ∧ NormLt (cMul c t0) 95232 ∧
  ones (hOf (rOf w c s2) c t0) ≤ 80

/-- `w1' = UseHint(h, A·z - c·t1·2^13)`. -/
def w1Of (A : Fin 4 → Fin 4 → Rq) (z h : Vec) (c : Poly) (t1 : Vec) : Vec := fun k i =>
  useHint (h k i) (std (matMul A (fun j => toRq (z j)) k - negaMul (toRq c) (toRq fun n => t1 k n * 8192)) i)

end Verif.Dilithium.Spec
