import Verif.Avx2.SampleLemmas
import Verif.Avx2.HintLemmas
import Verif.Dilithium.Refine

/-! # Products in the AVX2 signing code, as residues -/

namespace Verif.Avx2

open Verif.Dilithium
open Verif.Dilithium.Spec (Rq toRq std IsNtt matMul)

variable {C : CSem} {H : Shake}

theorem res_permP (a : Poly) : res (permP a) = permP (res a) := rfl
theorem bnd_permP {B : Int} {a : Poly} (h : Bnd B a) : Bnd B (permP a) := fun _ => h _

/-- The transform, as a residue in the portable order. -/
theorem nttC_res (M : Mach) {B : Int} {a : VPoly} (ha : Bnd B (ti a)) (h : B + 8 * Q ≤ 2147483647) :
    res (ti (nttC M a)) = permP (fNtt (res (ti a))) ∧ Bnd (B + 8 * Q) (ti (nttC M a)) := by
  have e := nttC_clean (C := wrapSem) (oob := wrapSem.oob) M a B h ha
  have r := polyNtt_res (C := wrapSem) ha h
  rw [e]
  exact ⟨by rw [res_permP]; exact congrArg permP r.1, bnd_permP r.2⟩

/-- The inverse transform of a Montgomery product in the AVX2 order. -/
theorem invnttC_res' (M : Mach) {P : VPoly} {X : Fin 256 → F} (hP : Bnd Q (ti P)) (h : res (ti P) = permP (Rinv • X)) :
    fNtt (res (ti (invnttC M P))) = X ∧ Bnd 6176131 (ti (invnttC M P)) := by
  have hb : Bnd Q (ti (permP P)) := bnd_permP hP
  have hr : res (ti (permP P)) = Rinv • X := by rw [ti_permP, res_permP, h, permP_permP]
  have q := invnttC_res (oob := wrapSem.oob) wrapSem M (permP P) hb
  rw [permP_permP] at q
  obtain ⟨a, -⟩ := polyInvntt_res (C := wrapSem) hb hr
  refine ⟨?_, q.2⟩
  rw [← a]
  exact congrArg fNtt q.1

theorem ti_ofP_bnd {B : Int} {p : Poly} (h : Bnd B p) (hB : B ≤ 2147483647) : ti (ofP p) = p :=
  ti_ofP p fun i => by have := h i; omega

/-- A row of the matrix times a transformed vector, before the inverse transform. -/
theorem rowAcc_res (M : Mach) (M' : Fin 4 → Mach) {row : Vec} {v : Fin 4 → VPoly} {B : Int} (hm : ∀ j, Bnd Q (row j)) (hv : ∀ j, Bnd B (ti (v j)))
    (hB : B ≤ Q) :
    res (ti (pointwiseAccC M (fun j => permP (ofP (row j))) (fun j => nttC (M' j) (v j)))) = permP (Rinv • ∑ j, res (row j) * fNtt (res (ti (v j)))) ∧
    Bnd Q (ti (pointwiseAccC M (fun j => permP (ofP (row j))) (fun j => nttC (M' j) (v j)))) := by
  have e1 : ∀ j, ti (permP (ofP (row j))) = permP (row j) := fun j => by rw [ti_permP, ti_ofP_bnd (hm j) (by decide)]
  have n := fun j => nttC_res (M' j) (B := Q) (a := v j) (fun i => by have := hv j i; omega) (by decide)
  have q := pointwiseAccC_res wrapSem M (fun j => permP (ofP (row j))) (fun j => nttC (M' j) (v j)) Q (Q + 8 * Q) (fun j => by rw [e1]; exact bnd_permP (hm j))
    (fun j => (n j).2) (by decide)
  refine ⟨?_, q.2⟩
  rw [q.1]
  funext i
  simp only [e1, (n _).1]
  show (Rinv • ∑ j, res (permP (row j)) * permP (fNtt (res (ti (v j))))) i = (Rinv • ∑ j, res (row j) * fNtt (res (ti (v j)))) _
  simp only [Pi.smul_apply, Finset.sum_apply, Pi.mul_apply]
  rfl

/-- `A·v`, row by row: no reduction is needed before the inverse transform. -/
theorem rowMul_res (M M1 : Mach) (M' : Fin 4 → Mach) {row : Vec} {v : Fin 4 → VPoly} {B : Int} (hm : ∀ j, Bnd Q (row j)) (hv : ∀ j, Bnd B (ti (v j)))
    (hB : B ≤ Q) :
    fNtt (res (ti (invnttC M1 (pointwiseAccC M (fun j => permP (ofP (row j))) (fun j => nttC (M' j) (v j)))))) = ∑ j, res (row j) * fNtt (res (ti (v j))) ∧
    Bnd 6176131 (ti (invnttC M1 (pointwiseAccC M (fun j => permP (ofP (row j))) (fun j => nttC (M' j) (v j))))) :=
  invnttC_res' M1 (rowAcc_res M M' hm hv hB).2 (rowAcc_res M M' hm hv hB).1

/-- A pointwise product with the transformed challenge. -/
theorem chalAcc_res (M1 M2 M3 : Mach) {cp : Poly} {v : VPoly} (hc : Bnd 1 cp) (hv : Bnd Q (ti v)) :
    res (ti (pointwiseC M1 (nttC M2 (ofP cp)) (nttC M3 v))) = permP (Rinv • (fNtt (res cp) * fNtt (res (ti v)))) ∧
    Bnd Q (ti (pointwiseC M1 (nttC M2 (ofP cp)) (nttC M3 v))) := by
  have ec : ti (ofP cp) = cp := ti_ofP_bnd hc (by decide)
  have n1 := nttC_res M2 (B := 1) (a := ofP cp) (by rw [ec]; exact hc) (by decide)
  have n2 := nttC_res M3 hv (by decide)
  rw [ec] at n1
  rw [pointwiseC_clean (C := wrapSem)]
  have p := polyPointwise_res (C := wrapSem) n1.2 n2.2 (by decide)
  refine ⟨?_, p.2⟩
  rw [p.1, n1.1, n2.1]
  rfl

/-- The product of the challenge and a secret polynomial, as a residue. -/
theorem mulPoly_res (J : Fin 2 → Junk) (M2 M3 : Mach) {cp : Poly} {s : Poly} (hc : Bnd 1 cp) (hs : Bnd Q s) :
    res (ti (mulPoly J (nttC M2 (ofP cp)) (nttC M3 (ofP s)))) = res (negaMul cp s) ∧
    Bnd 6176131 (ti (mulPoly J (nttC M2 (ofP cp)) (nttC M3 (ofP s)))) := by
  have es : ti (ofP s) = s := ti_ofP_bnd hs (by decide)
  have a := chalAcc_res (J 0).mach M2 M3 hc (v := ofP s) (by rw [es]; exact hs)
  rw [es] at a
  have b := invnttC_res' (J 1).mach a.2 a.1
  refine ⟨?_, b.2⟩
  apply fNtt_inj
  refine Eq.trans b.1 ?_
  rw [res_negaMul, fNtt_mul]
  rfl

/-! ## Matrix expansion -/

theorem rowNonce_eq : ∀ i j : Fin 4, rowNonce i j = UInt16.ofNat (i.1 * 256 + j.1) := by decide

theorem expandRow_eq (J : Fin 5 → Junk) (rho : Bytes) (hr : rho.length = 32) (i : Fin 4) :
    expandRow H J rho i = (forVec fun j => polyUniform C H rho (UInt16.ofNat (i.1 * 256 + j.1))).map fun v j => permP (ofP (v j)) := by
  unfold expandRow
  rw [polyUniform4x_eq (C := C) H (J 0) rho hr]
  have : (fun k => polyUniform C H rho (rowNonce i k)) = fun j => polyUniform C H rho (UInt16.ofNat (i.1 * 256 + j.1)) := by
    funext j; rw [rowNonce_eq]
  rw [this]
  cases forVec fun j => polyUniform C H rho (UInt16.ofNat (i.1 * 256 + j.1)) with
  | none => rfl
  | some v =>
    simp only [Option.map_some, Option.bind_eq_bind, Option.bind_some, Option.pure_def, Option.some.injEq]
    funext j i
    rw [nttunpackC_eq]
    rfl

theorem expandRow_some (J : Fin 5 → Junk) {rho : Bytes} (hr : rho.length = 32) {mat : Mat} (h : matrixExpand C H rho = some mat) (i : Fin 4) :
    expandRow H J rho i = some fun j => permP (ofP (mat i j)) := by
  rw [expandRow_eq (C := C) J rho hr i, Dilithium.forVec_some _ _ h i]
  rfl

theorem forVec_none {α : Type} {f : Fin 4 → Option α} (h : forVec f = none) : ∃ i, f i = none := by
  by_contra hn
  push Not at hn
  have : ∀ i, ∃ a, f i = some a := fun i => Option.ne_none_iff_exists'.1 (hn i)
  choose v hv using this
  rw [forVec_intro f v hv] at h
  cases h

theorem expandRow_none (J : Fin 4 → Fin 5 → Junk) {rho : Bytes} (hr : rho.length = 32) (h : matrixExpand C H rho = none) : ∃ i, expandRow H (J i) rho i = none := by
  obtain ⟨i, hi⟩ := forVec_none h
  exact ⟨i, by rw [expandRow_eq (C := C) (J i) rho hr i, hi]; rfl⟩

theorem forVec_of_none {α : Type} {f : Fin 4 → Option α} (i : Fin 4) (h : f i = none) : forVec f = none := by
  cases hf : forVec f with
  | none => rfl
  | some v =>
    have := Dilithium.forVec_some _ _ hf i
    rw [h] at this; cases this

theorem matrixA_eq (J : Fin 4 → Fin 5 → Junk) {rho : Bytes} (hr : rho.length = 32) :
    forVec (fun i => expandRow H (J i) rho i) = (matrixExpand C H rho).map fun mat i j => permP (ofP (mat i j)) := by
  cases h : matrixExpand C H rho with
  | none =>
    obtain ⟨i, hi⟩ := expandRow_none (C := C) J hr h
    exact forVec_of_none i hi
  | some mat => exact forVec_intro _ _ fun i => expandRow_some (C := C) (J i) hr h i

/-! ## Buffers -/

theorem readB_length (m : Nat → UInt8) (off n : Nat) : (readB m off n).length = n := by unfold readB; rw [List.length_map, List.length_range]

theorem readB_get (m : Nat → UInt8) (off n k : Nat) (h : k < (readB m off n).length) : (readB m off n)[k] = m (off + k) := by
  simp only [readB, List.getElem_map, List.getElem_range]

theorem readB_add (m : Nat → UInt8) (off a b : Nat) : readB m off (a + b) = readB m off a ++ readB m (off + a) b := by
  unfold readB
  rw [List.range_add, List.map_append, List.map_map]
  congr 1
  apply List.map_congr_left
  intro k _
  show m (off + (a + k)) = m (off + a + k)
  rw [Nat.add_assoc]

theorem readB_congr (m m' : Nat → UInt8) (off n : Nat) (h : ∀ k, k < n → m (off + k) = m' (off + k)) : readB m off n = readB m' off n := by
  unfold readB
  apply List.map_congr_left
  intro k hk
  exact h k (List.mem_range.1 hk)

theorem readB_disj (m : Nat → UInt8) (c : Nat) (l : Bytes) (off n : Nat) (h : off + n ≤ c ∨ c + l.length ≤ off) : readB (writeAt m c l) off n = readB m off n :=
  readB_congr _ _ _ _ fun k hk => writeAt_out _ _ _ _ (by omega)

theorem readB_same (m : Nat → UInt8) (c : Nat) (l : Bytes) (n : Nat) (h : l.length = n) : readB (writeAt m c l) c n = l := by
  apply List.ext_getElem
  · rw [readB_length, h]
  · intro k h1 h2
    rw [readB_get, writeAt_get _ _ _ _ h2]

end Verif.Avx2
