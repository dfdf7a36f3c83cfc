import Verif.Avx2.Sym
import Verif.Avx2.NttAsm
import Verif.Avx2.Mont
import Verif.Dilithium.NttAlg

/-!
# The assembly routines of dilithium2/avx2, as functions, and what they compute

The routines are run on a machine `M` that is arbitrary except for the arrays passed to them, which are placed at fixed disjoint addresses
(`vmovdqa` addresses are multiples of 32 bytes; the code does not otherwise depend on addresses).
-/

namespace Verif.Avx2
open Verif.Dilithium

/-- `poly` of the AVX2 code (poly.h:8, align.h): 256 dwords. -/
abbrev VPoly := Fin 256 → W32

/-- An array of `n` dwords placed in memory. -/
def Mach.arr (s : Mach) (base n : Nat) (f : Nat → W32) : Mach := { s with mem := fun x => if base ≤ x ∧ x < base + n then f (x - base) else s.mem x }

/-- The table `qdata` (consts.c:10-101). -/
def tab (n : Nat) : W32 := BitVec.ofInt 32 (qdata.getD n 0)

/-- `poly_ntt` (poly.c:155-161) calling `ntt_avx(a->vec, qdata.vec)`. -/
def nttC (M : Mach) (a : VPoly) : VPoly := fun i => (run ((M.arr 0 256 (rd 0 a)).arr 256 624 tab) (nttAvx 0 256)).mem i.1

/-- `poly_invntt_tomont` (poly.c:172-178) calling `invntt_avx(a->vec, qdata.vec)`. -/
def invnttC (M : Mach) (a : VPoly) : VPoly := fun i => (run ((M.arr 0 256 (rd 0 a)).arr 256 624 tab) (invnttAvx 0 256)).mem i.1

/-- `poly_nttunpack` (poly.c:180-186) calling `nttunpack_avx(a->vec)`. -/
def nttunpackC (M : Mach) (a : VPoly) : VPoly := fun i => (run (M.arr 0 256 (rd 0 a)) (nttunpackAvx 0)).mem i.1

/-- `poly_pointwise_montgomery` (poly.c:199-205) calling `pointwise_avx(c->vec, a->vec, b->vec, qdata.vec)`, output apart from the inputs. -/
def pointwiseC (M : Mach) (a b : VPoly) : VPoly := fun i =>
  (run (((M.arr 256 256 (rd 0 a)).arr 512 256 (rd 0 b)).arr 768 624 tab) (pointwiseAvx 0 256 512 768)).mem i.1

/-- The same with the output written over the second input, as `crypto_sign_verify` calls it (sign.c:306). -/
def pointwiseC' (M : Mach) (a b : VPoly) : VPoly := fun i =>
  (run (((M.arr 256 256 (rd 0 a)).arr 0 256 (rd 0 b)).arr 512 624 tab) (pointwiseAvx 0 256 0 512)).mem i.1

/-- `polyvecl_pointwise_acc_montgomery` (polyvec.c:161-163) calling `pointwise_acc_avx(w->vec, u->vec->vec, v->vec->vec, qdata.vec)`. -/
def pointwiseAccC (M : Mach) (u v : Fin 4 → VPoly) : VPoly := fun i =>
  (run (((M.arr 256 1024 (fun n => rd 0 (u (Fin.ofNat 4 (n / 256))) (n % 256))).arr 1280 1024 (fun n => rd 0 (v (Fin.ofNat 4 (n / 256))) (n % 256))).arr 2304 624 tab)
    (pointwiseAccAvx 0 256 1280 2304)).mem i.1

/-! ## Codes of the symbolic variables -/

/-- The place of a table entry in `zetas` of the clean implementation. -/
def kap (i : Nat) : Nat :=
  if i < 8 then i else if i < 40 then 8 + (i - 8) / 4 else if i < 72 then 16 + (i - 40) / 2 else if i < 104 then 32 + (i - 72)
  else if i < 136 then 64 + 2 * (i - 104) else if i < 168 then 64 + 2 * (i - 136) + 1 else 128 + 4 * ((i - 168) % 32) + (i - 168) / 32

/-- The variable of a table entry. -/
def tabCode (i : Nat) : Nat := if i < 32 then 5000 + i / 8 else if i < 328 then 4000 + kap (i - 32) else 3000 + kap (i - 328)

/-- The order in which `ntt_avx` leaves its results: a transposition of each block of 8 by 8. -/
def perm (i : Nat) : Nat := 64 * (i / 64) + (8 * (i % 8) + i % 64 / 8)

/-- A row of variables. -/
def rowX (f : Nat → Nat) (r : Nat) : Row :=
  ⟨.x (f (8 * r)), .x (f (8 * r + 1)), .x (f (8 * r + 2)), .x (f (8 * r + 3)), .x (f (8 * r + 4)), .x (f (8 * r + 5)), .x (f (8 * r + 6)), .x (f (8 * r + 7))⟩
/-- Rows of variables. -/
def rowsX (n : Nat) (f : Nat → Nat) : List Row := (List.range n).map (rowX f)

/-- Forward butterflies. -/
def fwdNorm (v : V) : V :=
  match v with
  | .sub (.add (.x c') (.hi (.mul (.x kz) (.x c)))) (.hi (.mul (.x qq) (.lo (.mul (.x kq) (.x c2))))) =>
    let len := 128 / 2 ^ (c' / 256)
    let k := 2 ^ (c' / 256) + c' % 256 / (2 * len)
    if c' < 2048 && c' % 256 % (2 * len) < len && c == c' + len && c2 == c && qq == 5000 && kz == 3000 + k && kq == 4000 + k then .x (c' + 256) else v
  | .add (.sub (.x c') (.hi (.mul (.x kz) (.x c)))) (.hi (.mul (.x qq) (.lo (.mul (.x kq) (.x c2))))) =>
    let len := 128 / 2 ^ (c' / 256)
    let k := 2 ^ (c' / 256) + c' % 256 / (2 * len)
    if c' < 2048 && c' % 256 % (2 * len) < len && c == c' + len && c2 == c && qq == 5000 && kz == 3000 + k && kq == 4000 + k then .x (c + 256) else v
  | v => v

/-- Inverse butterflies and the final scaling. -/
def invNorm (v : V) : V :=
  match v with
  | .add (.x c') (.x c) =>
    let len := 2 ^ (c' / 256)
    if c' < 2048 && c' % 256 % (2 * len) < len && c == c' + len then .x (c' + 256) else v
  | .sub (.hi (.mul (.x kz) (.sub (.x c) (.x c')))) (.hi (.mul (.x qq) (.lo (.mul (.x kq) (.sub (.x d) (.x d')))))) =>
    let len := 2 ^ (c' / 256)
    let k := if c' < 1792 then 256 / len - 1 - c' % 256 / (2 * len) else 0
    if c' < 2048 && c' % 256 % (2 * len) < len && c == c' + len && c == d && c' == d' && qq == 5000 && kz == 3000 + k && kq == 4000 + k then .x (c + 256) else v
  | .sub (.hi (.mul (.x kz) (.x c))) (.hi (.mul (.x qq) (.lo (.mul (.x kq) (.x d))))) =>
    if 2048 ≤ c && c < 2176 && c == d && qq == 5000 && kq == 5002 && kz == 5003 then .x (c + 256) else v
  | v => v

/-- The first 256 dwords of memory are the given terms. -/
def outIs (f : Nat → V) (_ mem : List Row) : Bool := (List.range 256).all fun i => (lane mem (i / 8) (i % 8)).beq (f i)

/-- Pointwise product. -/
def pwTerm (A : V) : V := .hi (.qsub A (.mul (.x 5000) (.lo (.mul (.x 5001) (.lo A)))))

set_option maxRecDepth 100000

theorem ntt_sym : symRun fwdNorm 110 (nttAvx 0 256) (rowsX 16 (7000 + ·)) (rowsX 32 (·) ++ rowsX 78 tabCode) (outIs fun i => .x (2048 + perm i)) = some true := by
  decide +kernel

theorem invntt_sym : symRun invNorm 110 (invnttAvx 0 256) (rowsX 16 (7000 + ·)) (rowsX 32 perm ++ rowsX 78 tabCode)
    (outIs fun i => .x (if i < 128 then 2304 + i else 2048 + i)) = some true := by
  decide +kernel

theorem nttunpack_sym : symRun (·) 32 (nttunpackAvx 0) (rowsX 16 (7000 + ·)) (rowsX 32 (·)) (outIs fun i => .x (perm i)) = some true := by
  decide +kernel

theorem pointwise_sym : symRun (·) 174 (pointwiseAvx 0 256 512 768) (rowsX 16 (7000 + ·)) (rowsX 32 (·) ++ rowsX 32 (1000 + ·) ++ rowsX 32 (2000 + ·) ++ rowsX 78 tabCode)
    (outIs fun i => pwTerm (.mul (.x (1000 + i)) (.x (2000 + i)))) = some true := by
  decide +kernel

theorem pointwise'_sym : symRun (·) 142 (pointwiseAvx 0 256 0 512) (rowsX 16 (7000 + ·)) (rowsX 32 (2000 + ·) ++ rowsX 32 (1000 + ·) ++ rowsX 78 tabCode)
    (outIs fun i => pwTerm (.mul (.x (1000 + i)) (.x (2000 + i)))) = some true := by
  decide +kernel

theorem pointwiseAcc_sym : symRun (·) 366 (pointwiseAccAvx 0 256 1280 2304) (rowsX 16 (7000 + ·))
    (rowsX 32 (·) ++ rowsX 128 (10000 + ·) ++ rowsX 128 (20000 + ·) ++ rowsX 78 tabCode)
    (outIs fun i => pwTerm (.qadd (.qadd (.qadd (.mul (.x (10000 + i)) (.x (20000 + i))) (.mul (.x (10256 + i)) (.x (20256 + i))))
      (.mul (.x (10512 + i)) (.x (20512 + i)))) (.mul (.x (10768 + i)) (.x (20768 + i))))) = some true := by
  decide +kernel

end Verif.Avx2
