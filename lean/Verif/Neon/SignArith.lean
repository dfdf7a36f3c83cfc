import Verif.Neon.Sign
import Verif.Avx2.SignArith
import Verif.Dilithium.Refine
import Verif.Dilithium.SampleTotal

/-! # The aarch64 kernels and samplers, as residues -/

namespace Verif.Neon

open Verif.Avx2 (VPoly ti ofP ti_ofP ti_ofP_bnd)
open Verif.Dilithium hiding W32 toI32_id
open Verif.Dilithium.Spec (Rq toRq std IsNtt matMul)

variable {C : CSem} {H : Shake} {M : Mach}

theorem nttP_res {B : Int} {a : Poly} (ha : Bnd B a) (h : B + 8 * Q ≤ 2147483647) : res (nttP M a) = fNtt (res a) ∧ Bnd (B + 8 * Q) (nttP M a) := by
  have e : ti (ofP a) = a := ti_ofP_bnd ha (by simp only [Q] at h; omega)
  have := nttN_res M (ofP a) B h (by rw [e]; exact ha)
  rw [e] at this
  exact this

theorem invnttP_res {P : Poly} {X : Fin 256 → F} (hP : Bnd Q P) (h : res P = Rinv • X) : fNtt (res (invnttP M P)) = X ∧ Bnd 4190209 (invnttP M P) := by
  have e : ti (ofP P) = P := ti_ofP_bnd hP (by decide)
  have c := invnttN_clean wrapSem wrapSem.oob M (ofP P) (by rw [e]; exact hP)
  have b := (invnttN_res M (ofP P) (by rw [e]; exact hP)).2
  rw [e] at c
  obtain ⟨a, -⟩ := polyInvntt_res (C := wrapSem) hP h
  exact ⟨by rw [← a]; exact congrArg fNtt c, b⟩

theorem reduceP_eq {B : Int} {a : Poly} (ha : Bnd B a) (h : B ≤ 2143289343) : reduceP M a = polyReduce C a := by
  have e : ti (ofP a) = a := ti_ofP_bnd ha (by omega)
  have := reduceN_int (C := C) M (ofP a) (fun i => by rw [e]; have := ha i; omega)
  rw [e] at this
  exact this

theorem caddqP_eq {B : Int} {a : Poly} (ha : Bnd B a) (h : B ≤ 2147483647) : caddqP M a = polyCaddq C a := by
  have e : ti (ofP a) = a := ti_ofP_bnd ha h
  have := caddqN_int (C := C) M (ofP a)
  rw [e] at this
  exact this

theorem pointwiseP_eq {A B : Int} {a b : Poly} (ha : Bnd A a) (hb : Bnd B b) (h1 : A ≤ 2147483647) (h2 : B ≤ 2147483647) : pointwiseP M a b = polyPointwise C a b := by
  unfold pointwiseP
  rw [pointwiseN_clean (C := C), ti_ofP_bnd ha h1, ti_ofP_bnd hb h2]

theorem pointwiseP'_eq {A B : Int} {a b : Poly} (ha : Bnd A a) (hb : Bnd B b) (h1 : A ≤ 2147483647) (h2 : B ≤ 2147483647) : pointwiseP' M a b = polyPointwise C a b := by
  unfold pointwiseP'
  rw [pointwiseN'_eq', pointwiseN_clean (C := C), ti_ofP_bnd ha h1, ti_ofP_bnd hb h2]

theorem power2roundP_eq {a : Poly} (ha : ∀ i, 0 ≤ a i ∧ a i < Q) : power2roundP M a = polyPower2round C a := by
  have e : ti (ofP a) = a := ti_ofP a fun i => by have := ha i; simp only [Q] at this; omega
  have := power2roundN_int (C := C) M (ofP a) (by rw [e]; exact ha)
  rw [e] at this
  unfold power2roundP
  rw [this.1, this.2]

/-- A row of the matrix times a transformed vector. -/
theorem rowAcc_res {row v : Vec} {B : Int} (hm : ∀ j, Bnd Q (row j)) (hv : ∀ j, Bnd B (v j)) (hB : B ≤ Q) :
    res (pointwiseAccP M row (vecNttP M v)) = Rinv • ∑ j, res (row j) * fNtt (res (v j)) ∧ Bnd Q (pointwiseAccP M row (vecNttP M v)) := by
  have n := fun j => nttP_res (M := M) (B := Q) (a := v j) ((hv j).mono hB) (by decide)
  have e1 : ∀ j, ti (ofP (row j)) = row j := fun j => ti_ofP_bnd (hm j) (by decide)
  have e2 : ∀ j, ti (ofP (vecNttP M v j)) = nttP M (v j) := fun j => ti_ofP_bnd (n j).2 (by decide)
  have q := Avx2.pointwiseAccC_res wrapSem ⟨fun _ _ => 0, fun _ => 0⟩ (fun j => ofP (row j)) (fun j => ofP (vecNttP M v j)) Q (Q + 8 * Q) (fun j => by rw [e1]; exact hm j)
    (fun j => by rw [e2]; exact (n j).2) (by decide)
  rw [← pointwiseAccN_avx M] at q
  refine ⟨?_, q.2⟩
  refine Eq.trans q.1 ?_
  simp only [e1, e2, (n _).1]

/-- `A·v`, row by row. -/
theorem matVec_res {mat : Mat} {v : Vec} {B : Int} (hm : ∀ i j, Bnd Q (mat i j)) (hv : ∀ j, Bnd B (v j)) (hB : B ≤ Q) (k : Fin 4) :
    fNtt (res (vecInvnttP M (vecReduceP M (matrixPointwiseP M mat (vecNttP M v))) k)) = ∑ j, res (mat k j) * fNtt (res (v j)) ∧
    Bnd 4190209 (vecInvnttP M (vecReduceP M (matrixPointwiseP M mat (vecNttP M v))) k) := by
  have a := rowAcc_res (M := M) (hm k) hv hB
  have b := polyReduce_res (C := wrapSem) a.2 (by decide)
  have e := reduceP_eq (C := wrapSem) (M := M) a.2 (by decide)
  exact invnttP_res (M := M) (P := reduceP M (pointwiseAccP M (mat k) (vecNttP M v))) (by rw [e]; exact b.2.mono (by decide)) (by rw [e]; exact b.1.trans a.1)

/-- A pointwise product with the transformed challenge. -/
theorem chalAcc_res {cp v : Poly} (hc : Bnd 1 cp) (hv : Bnd Q v) :
    res (pointwiseP M (nttP M cp) (nttP M v)) = Rinv • (fNtt (res cp) * fNtt (res v)) ∧ Bnd Q (pointwiseP M (nttP M cp) (nttP M v)) := by
  have n1 := nttP_res (M := M) hc (by decide)
  have n2 := nttP_res (M := M) hv (by decide)
  rw [pointwiseP_eq (C := wrapSem) n1.2 n2.2 (by decide) (by decide)]
  have p := polyPointwise_res (C := wrapSem) n1.2 n2.2 (by decide)
  exact ⟨by rw [p.1, n1.1, n2.1], p.2⟩

/-- The product of the challenge and a secret polynomial. -/
theorem chalMul_res {cp : Poly} {s : Vec} (hc : Bnd 1 cp) (hs : ∀ k, Bnd Q (s k)) (k : Fin 4) :
    res (vecInvnttP M (vecPointwisePolyP M (nttP M cp) (vecNttP M s)) k) = res (negaMul cp (s k)) ∧
    Bnd 4190209 (vecInvnttP M (vecPointwisePolyP M (nttP M cp) (vecNttP M s)) k) := by
  have a := chalAcc_res (M := M) hc (hs k)
  have b := invnttP_res (M := M) a.2 a.1
  refine ⟨?_, b.2⟩
  apply fNtt_inj
  refine Eq.trans b.1 ?_
  rw [res_negaMul, fNtt_mul]
  rfl

theorem useHintN_eq (a h : Int) : useHintN C a h = useHint C a h := by
  unfold useHintN useHint
  generalize decompose C a = d
  obtain ⟨a1, a0⟩ := d
  rfl

theorem vecUseHintN_eq (u h : Vec) : vecUseHintN C u h = vecUseHint C u h := by
  funext k i
  exact useHintN_eq _ _

theorem unpackPkP_eq (pk : Bytes) (h : PKLEN ≤ pk.length) : unpackPkP C M pk = unpackPk C pk := by
  have hp : PKLEN = 1312 := rfl
  have e : (fun i : Fin 4 => t1UnpackP C M (pk.drop (32 + i.1 * 320))) = fun i => polyt1Unpack C (pk.drop (32 + i.1 * 320)) := by
    funext i
    have := i.2
    unfold t1UnpackP
    rw [t1UnpackN_int M _ (by rw [List.length_drop]; omega)]
  unfold unpackPkP unpackPk
  rw [e]

theorem vecUniformGamma1N_eq (seed : Bytes) (nonce : UInt16) : vecUniformGamma1N C H seed nonce = vecUniformGamma1 C H seed nonce := by
  funext k
  unfold vecUniformGamma1N vecUniformGamma1 polyUniformGamma1X2 polyUniformGamma1
  match k with
  | 0 => rfl
  | 1 => show polyzUnpack C (squeeze (stream256 H seed (4 * nonce + 0 + 1)) 0 680) = polyzUnpack C (squeeze (stream256 H seed (4 * nonce + 1)) 0 680); rw [UInt16.add_zero]
  | 2 => rfl
  | 3 =>
    show polyzUnpack C (squeeze (stream256 H seed (4 * nonce + 2 + 1)) 0 680) = polyzUnpack C (squeeze (stream256 H seed (4 * nonce + 3)) 0 680)
    rw [UInt16.add_assoc]; rfl

end Verif.Neon
