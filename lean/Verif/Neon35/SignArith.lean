import Verif.Neon35.Sign
import Verif.Neon.SignArith
import Verif.Neon.SampleX2
import Verif.Dilithium35.NoUb

/-! # The aarch64 kernels and samplers of dilithium3 and dilithium5, as residues -/

namespace Verif.Neon35

open Verif.Neon (Mach nttP invnttP reduceP caddqP pointwiseP pointwiseP' power2roundP t1UnpackP polyUniformX2 nttP_res invnttP_res reduceP_eq caddqP_eq pointwiseP_eq chalAcc_res t1UnpackN_int
  SixBlocks polyUniform_six polyUniformX2_eq)
open Verif.Avx2 (VPoly ti ofP ti_ofP ti_ofP_bnd)
open Verif.Dilithium (CSem Shake wrapSem Poly Q F res fNtt fNtt_mul fNtt_inj Rinv Bnd polyReduce_res res_negaMul stream128 stream256 squeeze polyUniform polyt1Unpack)
open Verif.Dilithium35

variable {md : Mode} {C : CSem} {H : Shake} {M : Mach}

/-- A row of the matrix times a transformed vector. -/
theorem rowAcc_res {row v : Vec md.L} {B : Int} (hm : ∀ j, Bnd Q (row j)) (hv : ∀ j, Bnd B (v j)) (hB : B ≤ Q) :
    res (pointwiseAccP md M row (vecNttP M v)) = Rinv • ∑ j, res (row j) * fNtt (res (v j)) ∧ Bnd Q (pointwiseAccP md M row (vecNttP M v)) := by
  have n := fun j => nttP_res (M := M) (B := Q) (a := v j) ((hv j).mono hB) (by decide)
  have e1 : ∀ j, ti (ofP (row j)) = row j := fun j => ti_ofP_bnd (hm j) (by decide)
  have e2 : ∀ j, ti (ofP (vecNttP M v j)) = nttP M (v j) := fun j => ti_ofP_bnd (n j).2 (by decide)
  have q := pointwiseAccN_res wrapSem md M (fun j => ofP (row j)) (fun j => ofP (vecNttP M v j)) Q (Q + 8 * Q) (fun j => by rw [e1]; exact hm j)
    (fun j => by rw [e2]; exact (n j).2) (by decide)
  refine ⟨?_, q.2⟩
  refine Eq.trans q.1 ?_
  simp only [e1, e2, (n _).1]

/-- `A·v`, row by row. -/
theorem matVec_resP {mat : Mat md} {v : Vec md.L} {B : Int} (hm : ∀ i j, Bnd Q (mat i j)) (hv : ∀ j, Bnd B (v j)) (hB : B ≤ Q) (k : Fin md.K) :
    fNtt (res (vecInvnttP M (vecReduceP M (matrixPointwiseP md M mat (vecNttP M v))) k)) = ∑ j, res (mat k j) * fNtt (res (v j)) ∧
    Bnd 4190209 (vecInvnttP M (vecReduceP M (matrixPointwiseP md M mat (vecNttP M v))) k) := by
  have a := rowAcc_res (M := M) (hm k) hv hB
  have b := polyReduce_res (C := wrapSem) a.2 (by decide)
  have e := reduceP_eq (C := wrapSem) (M := M) a.2 (by decide)
  exact invnttP_res (M := M) (P := reduceP M (pointwiseAccP md M (mat k) (vecNttP M v))) (by rw [e]; exact b.2.mono (by decide)) (by rw [e]; exact b.1.trans a.1)

/-- The product of the challenge and a secret polynomial. -/
theorem chalMul_res {n : Nat} {cp : Poly} {s : Vec n} (hc : Bnd 1 cp) (hs : ∀ k, Bnd Q (s k)) (k : Fin n) :
    res (vecInvnttP M (vecPointwisePolyP M (nttP M cp) (vecNttP M s)) k) = res (negaMul cp (s k)) ∧
    Bnd 4190209 (vecInvnttP M (vecPointwisePolyP M (nttP M cp) (vecNttP M s)) k) := by
  have a := chalAcc_res (M := M) hc (hs k)
  have b := invnttP_res (M := M) a.2 a.1
  refine ⟨?_, b.2⟩
  apply fNtt_inj
  refine Eq.trans b.1 ?_
  rw [res_negaMul, fNtt_mul]
  rfl

theorem unpackPkP_eq (pk : Bytes) (h : md.PKLEN ≤ pk.length) : unpackPkP md C M pk = unpackPk md C pk := by
  have e : (fun i : Fin md.K => t1UnpackP C M (pk.drop (32 + i.1 * 320))) = fun i => polyt1Unpack C (pk.drop (32 + i.1 * 320)) := by
    funext i
    have := i.2
    unfold t1UnpackP
    rw [t1UnpackN_int M _ (by rw [List.length_drop]; unfold Mode.PKLEN at h; omega)]
  unfold unpackPkP unpackPk
  rw [e]

theorem L_odd (md : Mode) : md.L % 2 = 1 ∧ md.L ≤ 7 := by cases md <;> decide
theorem K_even (md : Mode) : md.K % 2 = 0 ∧ md.K ≤ 8 := by cases md <;> decide

theorem vecUniformGamma1N_eq (seed : Bytes) (nonce : UInt16) : vecUniformGamma1N md C H seed nonce = vecUniformGamma1 md C H seed nonce := by
  have hL := L_odd md
  funext k
  have hk := k.2
  unfold vecUniformGamma1N vecUniformGamma1
  split
  · unfold polyUniformGamma1X2 polyUniformGamma1
    dsimp only
    split
    · rw [UInt16.add_zero, show 2 * (k.1 / 2) = k.1 by omega]
    · rw [UInt16.add_assoc, show UInt16.ofNat (2 * (k.1 / 2)) + 1 = UInt16.ofNat k.1 by
        rw [show (1 : UInt16) = UInt16.ofNat 1 from rfl, ← UInt16.ofNat_add, show 2 * (k.1 / 2) + 1 = k.1 by omega]]
  · have e : k.1 = md.L - 1 := by omega
    rw [e, UInt16.ofNat_sub (by omega : 1 ≤ md.L)]
    congr 1
    rw [UInt16.sub_eq_add_neg, UInt16.sub_eq_add_neg, UInt16.add_assoc]
    rfl

theorem forVec_pure {α : Type} (n : Nat) (f : Fin n → α) : forVec n (fun i => some (f i)) = some f := by
  induction n with
  | zero => exact congrArg some (funext fun i => i.elim0)
  | succ n ih =>
    unfold forVec
    rw [ih, Option.bind_eq_bind, Option.bind_some]
    show some _ = _
    refine congrArg some (funext fun i => ?_)
    by_cases h : i.1 < n
    · rw [dif_pos h]; rfl
    · rw [dif_neg h]
      exact congrArg f (Fin.ext (by have := i.2; show n = i.1; omega))

/-- Six blocks are enough for each entry of the matrix. -/
def SixBlocksMat (md : Mode) (H : Shake) (rho : Bytes) : Prop := ∀ (i : Fin md.K) (j : Fin md.L), SixBlocks (stream128 H rho (UInt16.ofNat (i.1 * 256 + j.1)))

theorem matrixExpandN_eq {rho : Bytes} (h : SixBlocksMat md H rho) : matrixExpandN md C H rho = matrixExpand md C H rho := by
  have hK := K_even md
  obtain ⟨f, hf⟩ : ∃ f : Fin md.K → Fin md.L → Poly, ∀ i j, polyUniform C H rho (UInt16.ofNat (i.1 * 256 + j.1)) = some (f i j) :=
    ⟨_, fun i j => polyUniform_six (h i j)⟩
  have x2 : ∀ (i i' : Fin md.K) (j : Fin md.L), polyUniformX2 C H rho (UInt16.ofNat (i.1 * 256 + j.1)) (UInt16.ofNat (i'.1 * 256 + j.1)) = some (f i j, f i' j) := by
    intro i i' j
    obtain ⟨p, q, e, e0, e1⟩ := polyUniformX2_eq (C := C) (h i j) (h i' j)
    rw [hf, Option.some.injEq] at e0 e1
    rw [e, e0, e1]
  have em : matrixExpand md C H rho = some f := by
    unfold matrixExpand
    simp only [hf, forVec_pure]
  have ec : (fun j : Fin md.L => forVec (md.K / 2) fun i =>
      polyUniformX2 C H rho (UInt16.ofNat (2 * i.1 * 256 + j.1)) (UInt16.ofNat ((2 * i.1 + 1) * 256 + j.1))) =
      fun j => some fun i : Fin (md.K / 2) => (f ⟨2 * i.1, by have := i.2; omega⟩ j, f ⟨2 * i.1 + 1, by have := i.2; omega⟩ j) := by
    funext j
    rw [← forVec_pure]
    refine congrArg _ (funext fun i => ?_)
    have hi := i.2
    exact x2 ⟨2 * i.1, by omega⟩ ⟨2 * i.1 + 1, by omega⟩ j
  rw [em]
  unfold matrixExpandN
  rw [ec, forVec_pure, Option.bind_eq_bind, Option.bind_some]
  refine congrArg some ?_
  funext i j
  dsimp only
  split
  · exact congrArg (fun i => f i j) (Fin.ext (by show 2 * (i.1 / 2) = i.1; omega))
  · exact congrArg (fun i => f i j) (Fin.ext (by show 2 * (i.1 / 2) + 1 = i.1; omega))

end Verif.Neon35
