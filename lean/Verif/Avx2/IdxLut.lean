/-!
Generated by tools/gen_idxlut.py from pqclean/crypto_sign/dilithium2/avx2/rejsample.c:7-264.
-/

namespace Verif.Avx2

/-- The table `idxlut` (rejsample.c:7-264). -/
def idxlut : List (List Nat) := [
  [0, 0, 0, 0, 0, 0, 0, 0],
  [0, 0, 0, 0, 0, 0, 0, 0],
  [1, 0, 0, 0, 0, 0, 0, 0],
  [0, 1, 0, 0, 0, 0, 0, 0],
  [2, 0, 0, 0, 0, 0, 0, 0],
  [0, 2, 0, 0, 0, 0, 0, 0],
  [1, 2, 0, 0, 0, 0, 0, 0],
  [0, 1, 2, 0, 0, 0, 0, 0],
  [3, 0, 0, 0, 0, 0, 0, 0],
  [0, 3, 0, 0, 0, 0, 0, 0],
  [1, 3, 0, 0, 0, 0, 0, 0],
  [0, 1, 3, 0, 0, 0, 0, 0],
  [2, 3, 0, 0, 0, 0, 0, 0],
  [0, 2, 3, 0, 0, 0, 0, 0],
  [1, 2, 3, 0, 0, 0, 0, 0],
  [0, 1, 2, 3, 0, 0, 0, 0],
  [4, 0, 0, 0, 0, 0, 0, 0],
  [0, 4, 0, 0, 0, 0, 0, 0],
  [1, 4, 0, 0, 0, 0, 0, 0],
  [0, 1, 4, 0, 0, 0, 0, 0],
  [2, 4, 0, 0, 0, 0, 0, 0],
  [0, 2, 4, 0, 0, 0, 0, 0],
  [1, 2, 4, 0, 0, 0, 0, 0],
  [0, 1, 2, 4, 0, 0, 0, 0],
  [3, 4, 0, 0, 0, 0, 0, 0],
  [0, 3, 4, 0, 0, 0, 0, 0],
  [1, 3, 4, 0, 0, 0, 0, 0],
  [0, 1, 3, 4, 0, 0, 0, 0],
  [2, 3, 4, 0, 0, 0, 0, 0],
  [0, 2, 3, 4, 0, 0, 0, 0],
  [1, 2, 3, 4, 0, 0, 0, 0],
  [0, 1, 2, 3, 4, 0, 0, 0],
  [5, 0, 0, 0, 0, 0, 0, 0],
  [0, 5, 0, 0, 0, 0, 0, 0],
  [1, 5, 0, 0, 0, 0, 0, 0],
  [0, 1, 5, 0, 0, 0, 0, 0],
  [2, 5, 0, 0, 0, 0, 0, 0],
  [0, 2, 5, 0, 0, 0, 0, 0],
  [1, 2, 5, 0, 0, 0, 0, 0],
  [0, 1, 2, 5, 0, 0, 0, 0],
  [3, 5, 0, 0, 0, 0, 0, 0],
  [0, 3, 5, 0, 0, 0, 0, 0],
  [1, 3, 5, 0, 0, 0, 0, 0],
  [0, 1, 3, 5, 0, 0, 0, 0],
  [2, 3, 5, 0, 0, 0, 0, 0],
  [0, 2, 3, 5, 0, 0, 0, 0],
  [1, 2, 3, 5, 0, 0, 0, 0],
  [0, 1, 2, 3, 5, 0, 0, 0],
  [4, 5, 0, 0, 0, 0, 0, 0],
  [0, 4, 5, 0, 0, 0, 0, 0],
  [1, 4, 5, 0, 0, 0, 0, 0],
  [0, 1, 4, 5, 0, 0, 0, 0],
  [2, 4, 5, 0, 0, 0, 0, 0],
  [0, 2, 4, 5, 0, 0, 0, 0],
  [1, 2, 4, 5, 0, 0, 0, 0],
  [0, 1, 2, 4, 5, 0, 0, 0],
  [3, 4, 5, 0, 0, 0, 0, 0],
  [0, 3, 4, 5, 0, 0, 0, 0],
  [1, 3, 4, 5, 0, 0, 0, 0],
  [0, 1, 3, 4, 5, 0, 0, 0],
  [2, 3, 4, 5, 0, 0, 0, 0],
  [0, 2, 3, 4, 5, 0, 0, 0],
  [1, 2, 3, 4, 5, 0, 0, 0],
  [0, 1, 2, 3, 4, 5, 0, 0],
  [6, 0, 0, 0, 0, 0, 0, 0],
  [0, 6, 0, 0, 0, 0, 0, 0],
  [1, 6, 0, 0, 0, 0, 0, 0],
  [0, 1, 6, 0, 0, 0, 0, 0],
  [2, 6, 0, 0, 0, 0, 0, 0],
  [0, 2, 6, 0, 0, 0, 0, 0],
  [1, 2, 6, 0, 0, 0, 0, 0],
  [0, 1, 2, 6, 0, 0, 0, 0],
  [3, 6, 0, 0, 0, 0, 0, 0],
  [0, 3, 6, 0, 0, 0, 0, 0],
  [1, 3, 6, 0, 0, 0, 0, 0],
  [0, 1, 3, 6, 0, 0, 0, 0],
  [2, 3, 6, 0, 0, 0, 0, 0],
  [0, 2, 3, 6, 0, 0, 0, 0],
  [1, 2, 3, 6, 0, 0, 0, 0],
  [0, 1, 2, 3, 6, 0, 0, 0],
  [4, 6, 0, 0, 0, 0, 0, 0],
  [0, 4, 6, 0, 0, 0, 0, 0],
  [1, 4, 6, 0, 0, 0, 0, 0],
  [0, 1, 4, 6, 0, 0, 0, 0],
  [2, 4, 6, 0, 0, 0, 0, 0],
  [0, 2, 4, 6, 0, 0, 0, 0],
  [1, 2, 4, 6, 0, 0, 0, 0],
  [0, 1, 2, 4, 6, 0, 0, 0],
  [3, 4, 6, 0, 0, 0, 0, 0],
  [0, 3, 4, 6, 0, 0, 0, 0],
  [1, 3, 4, 6, 0, 0, 0, 0],
  [0, 1, 3, 4, 6, 0, 0, 0],
  [2, 3, 4, 6, 0, 0, 0, 0],
  [0, 2, 3, 4, 6, 0, 0, 0],
  [1, 2, 3, 4, 6, 0, 0, 0],
  [0, 1, 2, 3, 4, 6, 0, 0],
  [5, 6, 0, 0, 0, 0, 0, 0],
  [0, 5, 6, 0, 0, 0, 0, 0],
  [1, 5, 6, 0, 0, 0, 0, 0],
  [0, 1, 5, 6, 0, 0, 0, 0],
  [2, 5, 6, 0, 0, 0, 0, 0],
  [0, 2, 5, 6, 0, 0, 0, 0],
  [1, 2, 5, 6, 0, 0, 0, 0],
  [0, 1, 2, 5, 6, 0, 0, 0],
  [3, 5, 6, 0, 0, 0, 0, 0],
  [0, 3, 5, 6, 0, 0, 0, 0],
  [1, 3, 5, 6, 0, 0, 0, 0],
  [0, 1, 3, 5, 6, 0, 0, 0],
  [2, 3, 5, 6, 0, 0, 0, 0],
  [0, 2, 3, 5, 6, 0, 0, 0],
  [1, 2, 3, 5, 6, 0, 0, 0],
  [0, 1, 2, 3, 5, 6, 0, 0],
  [4, 5, 6, 0, 0, 0, 0, 0],
  [0, 4, 5, 6, 0, 0, 0, 0],
  [1, 4, 5, 6, 0, 0, 0, 0],
  [0, 1, 4, 5, 6, 0, 0, 0],
  [2, 4, 5, 6, 0, 0, 0, 0],
  [0, 2, 4, 5, 6, 0, 0, 0],
  [1, 2, 4, 5, 6, 0, 0, 0],
  [0, 1, 2, 4, 5, 6, 0, 0],
  [3, 4, 5, 6, 0, 0, 0, 0],
  [0, 3, 4, 5, 6, 0, 0, 0],
  [1, 3, 4, 5, 6, 0, 0, 0],
  [0, 1, 3, 4, 5, 6, 0, 0],
  [2, 3, 4, 5, 6, 0, 0, 0],
  [0, 2, 3, 4, 5, 6, 0, 0],
  [1, 2, 3, 4, 5, 6, 0, 0],
  [0, 1, 2, 3, 4, 5, 6, 0],
  [7, 0, 0, 0, 0, 0, 0, 0],
  [0, 7, 0, 0, 0, 0, 0, 0],
  [1, 7, 0, 0, 0, 0, 0, 0],
  [0, 1, 7, 0, 0, 0, 0, 0],
  [2, 7, 0, 0, 0, 0, 0, 0],
  [0, 2, 7, 0, 0, 0, 0, 0],
  [1, 2, 7, 0, 0, 0, 0, 0],
  [0, 1, 2, 7, 0, 0, 0, 0],
  [3, 7, 0, 0, 0, 0, 0, 0],
  [0, 3, 7, 0, 0, 0, 0, 0],
  [1, 3, 7, 0, 0, 0, 0, 0],
  [0, 1, 3, 7, 0, 0, 0, 0],
  [2, 3, 7, 0, 0, 0, 0, 0],
  [0, 2, 3, 7, 0, 0, 0, 0],
  [1, 2, 3, 7, 0, 0, 0, 0],
  [0, 1, 2, 3, 7, 0, 0, 0],
  [4, 7, 0, 0, 0, 0, 0, 0],
  [0, 4, 7, 0, 0, 0, 0, 0],
  [1, 4, 7, 0, 0, 0, 0, 0],
  [0, 1, 4, 7, 0, 0, 0, 0],
  [2, 4, 7, 0, 0, 0, 0, 0],
  [0, 2, 4, 7, 0, 0, 0, 0],
  [1, 2, 4, 7, 0, 0, 0, 0],
  [0, 1, 2, 4, 7, 0, 0, 0],
  [3, 4, 7, 0, 0, 0, 0, 0],
  [0, 3, 4, 7, 0, 0, 0, 0],
  [1, 3, 4, 7, 0, 0, 0, 0],
  [0, 1, 3, 4, 7, 0, 0, 0],
  [2, 3, 4, 7, 0, 0, 0, 0],
  [0, 2, 3, 4, 7, 0, 0, 0],
  [1, 2, 3, 4, 7, 0, 0, 0],
  [0, 1, 2, 3, 4, 7, 0, 0],
  [5, 7, 0, 0, 0, 0, 0, 0],
  [0, 5, 7, 0, 0, 0, 0, 0],
  [1, 5, 7, 0, 0, 0, 0, 0],
  [0, 1, 5, 7, 0, 0, 0, 0],
  [2, 5, 7, 0, 0, 0, 0, 0],
  [0, 2, 5, 7, 0, 0, 0, 0],
  [1, 2, 5, 7, 0, 0, 0, 0],
  [0, 1, 2, 5, 7, 0, 0, 0],
  [3, 5, 7, 0, 0, 0, 0, 0],
  [0, 3, 5, 7, 0, 0, 0, 0],
  [1, 3, 5, 7, 0, 0, 0, 0],
  [0, 1, 3, 5, 7, 0, 0, 0],
  [2, 3, 5, 7, 0, 0, 0, 0],
  [0, 2, 3, 5, 7, 0, 0, 0],
  [1, 2, 3, 5, 7, 0, 0, 0],
  [0, 1, 2, 3, 5, 7, 0, 0],
  [4, 5, 7, 0, 0, 0, 0, 0],
  [0, 4, 5, 7, 0, 0, 0, 0],
  [1, 4, 5, 7, 0, 0, 0, 0],
  [0, 1, 4, 5, 7, 0, 0, 0],
  [2, 4, 5, 7, 0, 0, 0, 0],
  [0, 2, 4, 5, 7, 0, 0, 0],
  [1, 2, 4, 5, 7, 0, 0, 0],
  [0, 1, 2, 4, 5, 7, 0, 0],
  [3, 4, 5, 7, 0, 0, 0, 0],
  [0, 3, 4, 5, 7, 0, 0, 0],
  [1, 3, 4, 5, 7, 0, 0, 0],
  [0, 1, 3, 4, 5, 7, 0, 0],
  [2, 3, 4, 5, 7, 0, 0, 0],
  [0, 2, 3, 4, 5, 7, 0, 0],
  [1, 2, 3, 4, 5, 7, 0, 0],
  [0, 1, 2, 3, 4, 5, 7, 0],
  [6, 7, 0, 0, 0, 0, 0, 0],
  [0, 6, 7, 0, 0, 0, 0, 0],
  [1, 6, 7, 0, 0, 0, 0, 0],
  [0, 1, 6, 7, 0, 0, 0, 0],
  [2, 6, 7, 0, 0, 0, 0, 0],
  [0, 2, 6, 7, 0, 0, 0, 0],
  [1, 2, 6, 7, 0, 0, 0, 0],
  [0, 1, 2, 6, 7, 0, 0, 0],
  [3, 6, 7, 0, 0, 0, 0, 0],
  [0, 3, 6, 7, 0, 0, 0, 0],
  [1, 3, 6, 7, 0, 0, 0, 0],
  [0, 1, 3, 6, 7, 0, 0, 0],
  [2, 3, 6, 7, 0, 0, 0, 0],
  [0, 2, 3, 6, 7, 0, 0, 0],
  [1, 2, 3, 6, 7, 0, 0, 0],
  [0, 1, 2, 3, 6, 7, 0, 0],
  [4, 6, 7, 0, 0, 0, 0, 0],
  [0, 4, 6, 7, 0, 0, 0, 0],
  [1, 4, 6, 7, 0, 0, 0, 0],
  [0, 1, 4, 6, 7, 0, 0, 0],
  [2, 4, 6, 7, 0, 0, 0, 0],
  [0, 2, 4, 6, 7, 0, 0, 0],
  [1, 2, 4, 6, 7, 0, 0, 0],
  [0, 1, 2, 4, 6, 7, 0, 0],
  [3, 4, 6, 7, 0, 0, 0, 0],
  [0, 3, 4, 6, 7, 0, 0, 0],
  [1, 3, 4, 6, 7, 0, 0, 0],
  [0, 1, 3, 4, 6, 7, 0, 0],
  [2, 3, 4, 6, 7, 0, 0, 0],
  [0, 2, 3, 4, 6, 7, 0, 0],
  [1, 2, 3, 4, 6, 7, 0, 0],
  [0, 1, 2, 3, 4, 6, 7, 0],
  [5, 6, 7, 0, 0, 0, 0, 0],
  [0, 5, 6, 7, 0, 0, 0, 0],
  [1, 5, 6, 7, 0, 0, 0, 0],
  [0, 1, 5, 6, 7, 0, 0, 0],
  [2, 5, 6, 7, 0, 0, 0, 0],
  [0, 2, 5, 6, 7, 0, 0, 0],
  [1, 2, 5, 6, 7, 0, 0, 0],
  [0, 1, 2, 5, 6, 7, 0, 0],
  [3, 5, 6, 7, 0, 0, 0, 0],
  [0, 3, 5, 6, 7, 0, 0, 0],
  [1, 3, 5, 6, 7, 0, 0, 0],
  [0, 1, 3, 5, 6, 7, 0, 0],
  [2, 3, 5, 6, 7, 0, 0, 0],
  [0, 2, 3, 5, 6, 7, 0, 0],
  [1, 2, 3, 5, 6, 7, 0, 0],
  [0, 1, 2, 3, 5, 6, 7, 0],
  [4, 5, 6, 7, 0, 0, 0, 0],
  [0, 4, 5, 6, 7, 0, 0, 0],
  [1, 4, 5, 6, 7, 0, 0, 0],
  [0, 1, 4, 5, 6, 7, 0, 0],
  [2, 4, 5, 6, 7, 0, 0, 0],
  [0, 2, 4, 5, 6, 7, 0, 0],
  [1, 2, 4, 5, 6, 7, 0, 0],
  [0, 1, 2, 4, 5, 6, 7, 0],
  [3, 4, 5, 6, 7, 0, 0, 0],
  [0, 3, 4, 5, 6, 7, 0, 0],
  [1, 3, 4, 5, 6, 7, 0, 0],
  [0, 1, 3, 4, 5, 6, 7, 0],
  [2, 3, 4, 5, 6, 7, 0, 0],
  [0, 2, 3, 4, 5, 6, 7, 0],
  [1, 2, 3, 4, 5, 6, 7, 0],
  [0, 1, 2, 3, 4, 5, 6, 7]]

end Verif.Avx2
