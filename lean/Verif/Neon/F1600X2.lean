import Verif.Neon.F1600Code

/-! # The two versions of the two-way permutation (feat.S; fips202x2.c:100-377 of dilithium2/aarch64) -/

namespace Verif.Neon.F1600

open Verif.Keccak (U64)

/-- The loop of feat.S (feat.S:144-148), `n` iterations; `x1` points to round constant `k`. -/
def loopAsm (rc : Nat → U64) : Nat → Nat → (Nat → V2) → Nat → V2
  | 0, _, s => s
  | n + 1, k, s => loopAsm rc n (k + 1) (run (fun j => rc (k + j)) roundAsm s)

/-- The loop of fips202x2.c (fips202x2.c:149-349), `n` iterations; `round` is `k`. -/
def loopC (rc : Nat → U64) : Nat → Nat → (Nat → V2) → Nat → V2
  | 0, _, s => s
  | n + 1, k, s => loopC rc n (k + 2) (run (fun j => rc (k + j)) roundE (run (fun j => rc (k + j)) roundA s))

/-- The registers (or variables) after the state has been loaded (feat.S:134-140, fips202x2.c:122-147); the others are arbitrary. -/
def loadState (R s : Nat → V2) : Nat → V2 := fun r => if r < 25 then s r else R r

/-- The state after the registers have been stored (feat.S:150-157, fips202x2.c:351-375). -/
def storeState (s r : Nat → V2) : Nat → V2 := fun i => if i < 25 then r i else s i

/-- `KeccakF1600_StatePermutex2` (fips202x2.c:105-377): `sha3` says whether it was compiled for a machine with the SHA3 instructions; `s i` is `state[i]`. -/
def f1600x2 (sha3 : Bool) (rc : Nat → U64) (R s : Nat → V2) : Nat → V2 :=
  storeState s (if sha3 then loopAsm rc 24 0 (loadState R s) else loopC rc 12 0 (loadState R s))

end Verif.Neon.F1600
