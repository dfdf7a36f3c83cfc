import Verif.Neon.Sign
import Verif.Dilithium.SampleTotal

/-! # The two-way uniform sampler of the aarch64 code -/

namespace Verif.Neon

open Verif.Dilithium hiding W32 toI32_id

variable {C : CSem} {H : Shake}

/-- Six blocks of the stream (1008 bytes, 336 candidates) contain 256 acceptable ones. -/
def SixBlocks (s : Nat → UInt8) : Prop := 256 ≤ (accUniform s 0 336).length

theorem rejUniform_zero (a : Bytes) : rejUniform 0 a = [] := by unfold rejUniform; rfl

theorem rejUniform_pos {n : Nat} {b0 b1 b2 : UInt8} {r : Bytes} (h : (((b0.toNat + 256 * b1.toNat + 65536 * b2.toNat) % 8388608 : Nat) : Int) < Q) :
    rejUniform (n + 1) (b0 :: b1 :: b2 :: r) = (((b0.toNat + 256 * b1.toNat + 65536 * b2.toNat) % 8388608 : Nat) : Int) :: rejUniform n r := by
  conv_lhs => unfold rejUniform
  exact if_pos h

theorem rejUniform_neg {n : Nat} {b0 b1 b2 : UInt8} {r : Bytes} (h : ¬ (((b0.toNat + 256 * b1.toNat + 65536 * b2.toNat) % 8388608 : Nat) : Int) < Q) :
    rejUniform (n + 1) (b0 :: b1 :: b2 :: r) = rejUniform (n + 1) r := by
  conv_lhs => unfold rejUniform
  exact if_neg h

theorem rejUniform_full (m : Nat) (a b : Bytes) (h : (rejUniform m a).length = m) : rejUniform m (a ++ b) = rejUniform m a := by
  induction m, a using rejUniform.induct with
  | case1 a => rw [rejUniform_zero, rejUniform_zero]
  | case2 len b0 b1 b2 rest t ht ih =>
    rw [rejUniform_pos ht, List.length_cons] at h
    rw [List.cons_append, List.cons_append, List.cons_append, rejUniform_pos ht, rejUniform_pos ht, ih (by omega)]
  | case3 len b0 b1 b2 rest t ht ih =>
    rw [rejUniform_neg ht] at h
    rw [List.cons_append, List.cons_append, List.cons_append, rejUniform_neg ht, rejUniform_neg ht, ih h]
  | case4 a n hx =>
    exfalso
    have e : rejUniform (n + 1) a = [] := by
      unfold rejUniform
      split
      · rfl
      · exact absurd rfl (hx _ _ _ _)
      · rfl
    rw [e] at h
    simp at h

/-- The first 256 accepted candidates. -/
def first256 (s : Nat → UInt8) : List Int := (accUniform s 0 336).take 256

theorem first256_len {s : Nat → UInt8} (h : SixBlocks s) : (first256 s).length = 256 := by
  unfold first256
  rw [List.length_take]
  exact Nat.min_eq_left h

theorem five_full {s : Nat → UInt8} (h : SixBlocks s) (h5 : ¬ (rejUniform 256 (squeeze s 0 840)).length < 256) : rejUniform 256 (squeeze s 0 840) = first256 s := by
  rw [show rejUniform 256 (squeeze s 0 840) = (accUniform s 0 280).take 256 from rejUniform_squeeze s 280 256 0] at *
  have := accUniform_prefix s 280 336 (by omega)
  have l := first256_len h
  exact this.eq_of_length (by unfold first256 at l; rw [l]; rw [List.length_take] at *; omega)

theorem six_full {s : Nat → UInt8} (h : SixBlocks s) (b : Bytes) :
    rejUniform 256 (squeeze s 0 840) ++ rejUniform (256 - (rejUniform 256 (squeeze s 0 840)).length) (squeeze s 840 168 ++ b) = first256 s := by
  have e5 : rejUniform 256 (squeeze s 0 840) = (accUniform s 0 280).take 256 := rejUniform_squeeze s 280 256 0
  have e6 : ∀ n, rejUniform n (squeeze s 840 168) = (accUniform s 280 56).take n := fun n => rejUniform_squeeze s 56 n 280
  have e : (accUniform s 0 280).take 256 ++ (accUniform s 280 56).take (256 - ((accUniform s 0 280).take 256).length) = first256 s := by
    rw [← take_extend, ← accUniform_append]; rfl
  have l := first256_len h
  rw [← e, List.length_append] at l
  rw [e5, rejUniform_full, e6, e]
  rw [e6]
  omega

theorem polyUniform_six {seed : Bytes} {n : UInt16} (h : SixBlocks (stream128 H seed n)) :
    polyUniform C H seed n = some (polyOfList C (first256 (stream128 H seed n))) := by
  rw [polyUniform_iff]
  refine ⟨336, ?_⟩
  have l := first256_len h
  change first256 (stream128 H seed n) = _
  apply List.ext_getElem
  · rw [l, List.length_ofFn]
  · intro i h1 h2
    rw [List.getElem_ofFn]
    unfold polyOfList
    rw [List.getD_eq_getElem?_getD, List.getElem?_eq_getElem h1, Option.getD_some]

theorem uniformLoop2_done {s : Fin 2 → Nat → UInt8} {acc : Fin 2 → List Int} {buf : Fin 2 → Bytes} {pos : Nat} (h : ∀ k, 256 ≤ (acc k).length) :
    uniformLoop2 s acc buf pos = some acc := by
  rw [uniformLoop2]
  exact if_neg (by have := h 0; have := h 1; omega)

theorem uniformLoop2_six (s : Fin 2 → Nat → UInt8) (h : ∀ k, SixBlocks (s k)) :
    uniformLoop2 s (fun k => rejUniform 256 (squeeze (s k) 0 840)) (fun k => squeeze (s k) 0 840) 840 = some fun k => first256 (s k) := by
  rw [uniformLoop2]
  dsimp only
  split
  · have e : (fun k => rejUniform 256 (squeeze (s k) 0 840) ++
        rejUniform (256 - (rejUniform 256 (squeeze (s k) 0 840)).length) (squeeze (s k) 840 168 ++ (squeeze (s k) 0 840).drop 168)) = fun k => first256 (s k) :=
      funext fun k => six_full (h k) _
    rw [e]
    exact uniformLoop2_done fun k => (first256_len (h k)).ge
  · rename_i hn
    rw [not_or] at hn
    refine congrArg some (funext fun k => five_full (h k) ?_)
    match k with
    | 0 => exact hn.1
    | 1 => exact hn.2

/-- With six blocks enough in both lanes, the two results are those of the portable sampler. -/
theorem polyUniformX2_eq {seed : Bytes} {n0 n1 : UInt16} (h0 : SixBlocks (stream128 H seed n0)) (h1 : SixBlocks (stream128 H seed n1)) :
    ∃ p q, polyUniformX2 C H seed n0 n1 = some (p, q) ∧ polyUniform C H seed n0 = some p ∧ polyUniform C H seed n1 = some q := by
  refine ⟨_, _, ?_, polyUniform_six h0, polyUniform_six h1⟩
  unfold polyUniformX2
  dsimp only
  rw [uniformLoop2_six]
  · rfl
  · intro k
    match k with
    | 0 => exact h0
    | 1 => exact h1

theorem forVec_some' {α : Type} (f : Fin 4 → α) : forVec (fun i => some (f i)) = some f := by
  unfold forVec
  refine congrArg some (funext fun i => ?_)
  match i with
  | 0 => rfl
  | 1 => rfl
  | 2 => rfl
  | 3 => rfl

/-- Six blocks are enough for each of the sixteen entries of the matrix. -/
def SixBlocksMat (H : Shake) (rho : Bytes) : Prop := ∀ i j : Fin 4, SixBlocks (stream128 H rho (UInt16.ofNat (i.1 * 256 + j.1)))

theorem matrixExpandN_eq {rho : Bytes} (h : SixBlocksMat H rho) : matrixExpandN C H rho = matrixExpand C H rho := by
  obtain ⟨f, hf⟩ : ∃ f : Fin 4 → Fin 4 → Poly, ∀ i j, polyUniform C H rho (UInt16.ofNat (i.1 * 256 + j.1)) = some (f i j) :=
    ⟨_, fun i j => polyUniform_six (h i j)⟩
  have x2 : ∀ (i i' j : Fin 4), polyUniformX2 C H rho (UInt16.ofNat (i.1 * 256 + j.1)) (UInt16.ofNat (i'.1 * 256 + j.1)) = some (f i j, f i' j) := by
    intro i i' j
    obtain ⟨p, q, e, e0, e1⟩ := polyUniformX2_eq (C := C) (h i j) (h i' j)
    rw [hf, Option.some.injEq] at e0 e1
    rw [e, e0, e1]
  have c := fun j => x2 0 1 j
  have d := fun j => x2 2 3 j
  have em : matrixExpand C H rho = some f := by
    unfold matrixExpand
    simp only [hf, forVec_some']
  have ec : (fun j : Fin 4 => (do
      let (a, b) ← polyUniformX2 C H rho (UInt16.ofNat (0 * 256 + j.1)) (UInt16.ofNat (1 * 256 + j.1))
      let (c, d) ← polyUniformX2 C H rho (UInt16.ofNat (2 * 256 + j.1)) (UInt16.ofNat (3 * 256 + j.1))
      return (![a, b, c, d] : Vec))) = fun j => some ![f 0 j, f 1 j, f 2 j, f 3 j] := by
    funext j
    have cj := c j
    have dj := d j
    rw [show (0 : Fin 4).1 = 0 from rfl, show (1 : Fin 4).1 = 1 from rfl] at cj
    rw [show (2 : Fin 4).1 = 2 from rfl, show (3 : Fin 4).1 = 3 from rfl] at dj
    rw [cj, dj, Option.bind_eq_bind, Option.bind_some]
    dsimp only
    rw [Option.bind_some]
    rfl
  rw [em]
  unfold matrixExpandN
  rw [ec, forVec_some', Option.bind_eq_bind, Option.bind_some]
  refine congrArg some ?_
  funext i j
  match i with
  | 0 => rfl
  | 1 => rfl
  | 2 => rfl
  | 3 => rfl

/-! ## Where the two samplers differ -/

/-- 200 candidates 0, 136 unacceptable candidates, then candidates 1. -/
def oddStream (k : Nat) : UInt8 := if k < 600 then 0 else if k < 1008 then 255 else if k % 3 = 0 then 1 else 0

theorem odd_x2 : uniformLoop2 (fun _ => oddStream) (fun _ => rejUniform 256 (squeeze oddStream 0 840)) (fun _ => squeeze oddStream 0 840) 840 =
    some fun _ => List.replicate 256 0 := by
  have e5 : rejUniform 256 (squeeze oddStream 0 840) = List.replicate 200 0 := by decide +kernel
  have e6 : rejUniform 56 (squeeze oddStream 840 168 ++ (squeeze oddStream 0 840).drop 168) = List.replicate 56 0 := by decide +kernel
  rw [uniformLoop2]
  dsimp only
  rw [e5, List.length_replicate, if_pos (by omega), e6]
  rw [uniformLoop2_done (fun _ => by rw [List.length_append, List.length_replicate, List.length_replicate])]
  rw [List.replicate_append_replicate]

theorem odd_clean : (accUniform oddStream 0 392).take 256 = List.replicate 200 0 ++ List.replicate 56 1 := by decide +kernel

end Verif.Neon
