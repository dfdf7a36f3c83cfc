import Verif.Dilithium35.Model
import Verif.Dilithium.Spec

/-!
# Specification vocabulary for dilithium3 and dilithium5

The rounding functions and the three algorithms of the specification (version 3.1, Figures 3 and 4) for the parameter sets 3 and 5 (Table 2 there),
written down independently of the C code: `γ2 = (q-1)/32`, so `α = 523776` and `m = 16`; `γ1 = 2^19`.  `R_q`, `mod±` and `Power2Round` are those of
`Verif.Dilithium.Spec`.
-/

namespace Verif.Dilithium35.Spec

open Verif.Dilithium.Spec (Rq toRq std IsNtt modpm power2Round)
open Verif.Dilithium (Poly)

/-- Dimensions of the matrix, `η`, `τ`, `β = τ·η`, `ω` (specification 3.1, Table 2). -/
structure Params where
  k : Nat
  l : Nat
  eta : Int
  tau : Nat
  beta : Int
  omega : Nat
deriving DecidableEq

/-- The recommended parameters for NIST levels 3 and 5. -/
def params : Mode → Params
  | .three => ⟨6, 5, 4, 49, 196, 55⟩
  | .five => ⟨8, 7, 2, 60, 120, 75⟩

/-- Sizes in bytes of public keys, secret keys and signatures (api.h), and of the challenge seed. -/
def pkBytes : Mode → Nat | .three => 1952 | .five => 2592
def skBytes : Mode → Nat | .three => 4032 | .five => 4896
def sigBytes : Mode → Nat | .three => 3309 | .five => 4627
def seedBytes : Mode → Nat | .three => 48 | .five => 64

/-- Matrix-vector product over `R_q`. -/
def matMul {k l : Nat} (A : Fin k → Fin l → Rq) (v : Fin l → Rq) : Fin k → Rq := fun i => ∑ j, negaMul (A i j) (v j)

/-- `Decompose` with `α = 2γ2 = 523776`. -/
def decompose (r : Int) : Int × Int :=
  if r - modpm r 523776 = 8380416 then (0, modpm r 523776 - 1) else ((r - modpm r 523776) / 523776, modpm r 523776)

/-- `HighBits`. -/
def highBits (r : Int) : Int := (decompose r).1
/-- `LowBits`. -/
def lowBits (r : Int) : Int := (decompose r).2

/-- `MakeHint(z, r)`: does adding `z` to `r` modulo `q` change the high bits? -/
def makeHint (z r : Int) : Int := if highBits r ≠ highBits ((r + z) % 8380417) then 1 else 0

/-- `UseHint`, with `m = (q-1)/α = 16`. -/
def useHint (h r : Int) : Int :=
  if h = 1 then (if lowBits r > 0 then (highBits r + 1) % 16 else (highBits r - 1) % 16) else highBits r

variable {n k l : Nat}

/-- `‖v‖∞ < B`. -/
def NormLt (v : Fin n → Fin 256 → Int) (B : Int) : Prop := ∀ k i, |v k i| < B

/-- The number of ones in a hint vector. -/
def ones (h : Fin n → Fin 256 → Int) : Nat := ∑ k, (Finset.univ.filter fun i => h k i = 1).card

/-- `t = A·s1 + s2`, coefficients in `[0, q)`. -/
def tOf (A : Fin k → Fin l → Rq) (s1 : Vec l) (s2 : Vec k) : Vec k := fun k => std (matMul A (fun j => toRq (s1 j)) k + toRq (s2 k))

/-- `w = A·y`, coefficients in `[0, q)`. -/
def wOf (A : Fin k → Fin l → Rq) (y : Vec l) : Vec k := fun k => std (matMul A (fun j => toRq (y j)) k)

/-- `c·v` over the integers. -/
def cMul (c : Poly) (v : Vec n) : Vec n := fun k => negaMul c (v k)

/-- `z = y + c·s1`. -/
def zOf (y : Vec l) (c : Poly) (s1 : Vec l) : Vec l := fun k i => y k i + cMul c s1 k i

/-- `w - c·s2`, coefficients in `[0, q)`. -/
def rOf (w : Vec k) (c : Poly) (s2 : Vec k) : Vec k := fun k i => (w k i - cMul c s2 k i) % 8380417

/-- `h = MakeHint(-c·t0, w - c·s2 + c·t0)`. -/
def hOf (r : Vec k) (c : Poly) (t0 : Vec k) : Vec k := fun k i => makeHint (-cMul c t0 k i) ((r k i + cMul c t0 k i) % 8380417)

/-- The conditions under which an attempt is output: `‖z‖ < γ1-β`, `‖LowBits(w - c·s2)‖ < γ2-β`, `‖c·t0‖ < γ2`, at most `ω` hints. -/
def Accept (p : Params) (w : Vec k) (y : Vec l) (c : Poly) (s1 : Vec l) (s2 t0 : Vec k) : Prop :=
  NormLt (zOf y c s1) (524288 - p.beta) ∧ NormLt (fun k i => lowBits (rOf w c s2 k i)) (261888 - p.beta) ∧ NormLt (cMul c t0) 261888 ∧
  ones (hOf (rOf w c s2) c t0) ≤ p.omega

/-- `w1' = UseHint(h, A·z - c·t1·2^13)`. -/
def w1Of (A : Fin k → Fin l → Rq) (z : Vec l) (h : Vec k) (c : Poly) (t1 : Vec k) : Vec k := fun k i =>
  useHint (h k i) (std (matMul A (fun j => toRq (z j)) k - negaMul (toRq c) (toRq fun n => t1 k n * 8192)) i)

end Verif.Dilithium35.Spec
