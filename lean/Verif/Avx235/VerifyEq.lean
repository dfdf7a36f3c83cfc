import Verif.Avx235.Verify
import Verif.Dilithium35.Refine
import Verif.Avx2.SignLoop

/-! # What the AVX2 verification of dilithium3 and dilithium5 computes -/

namespace Verif.Avx235

open Verif.Dilithium (Shake Poly CSem Q F Rinv Bnd res fNtt fNtt_inj fNtt_mul fNtt_sub std_range caddq_std polyt1Unpack polyt1Unpack_range at8 unpackHintPoly shake256 shake256_len polyReduce_res wrapSem
  chal_bnd)
open Verif.Dilithium.Spec (Rq toRq std IsNtt)
open Verif.Dilithium35 (Mode Vec Mat unpackPk unpackSig polyzUnpack matrixExpand matrixExpand_bnd polyChallenge vecPackW1 fNtt_matMul polyw1Pack spec_highBits_range unpackHintStep unpackHint
  packSig_unpackSig polyChallenge_spec)
open Verif.Dilithium35.Spec (matMul)
open Verif.Avx2 (VPoly Junk Mach ti nttC invnttC pointwiseC pointwiseC' polyShiftlV polySubV polyReduceV polyCaddqV ofP readB writeAt permP nttC_res invnttC_res' chalAcc_res ti_ofP ti_ofP_bnd ti_permP
  bnd_permP res_permP polyShiftlV_int pointwiseC'_eq' polySubV_int polyReduceV_int polyCaddqV_int readB_length readB_get readB_congr readB_add readB_same)

variable {C : CSem} {H : Shake} {md : Mode}

/-- `w1' = UseHint(h, A·z - c·t1·2^13)` with the AVX2 `UseHint`. -/
def w1OfA (A : Fin md.K → Fin md.L → Rq) (z : Vec md.L) (h : Vec md.K) (c : Poly) (t1 : Vec md.K) : Vec md.K := fun k i =>
  useHintA (h k i) (std (matMul A (fun j => toRq (z j)) k - negaMul (toRq c) (toRq fun n => t1 k n * 8192)) i)

theorem useHintA_range (h r : Int) (h1 : 0 ≤ r) (h2 : r < Q) : 0 ≤ useHintA h r ∧ useHintA h r < 16 := by
  unfold useHintA
  have hb := spec_highBits_range r h1 h2
  split
  · split <;> omega
  · omega

theorem w1OfA_range (A : Fin md.K → Fin md.L → Rq) (z : Vec md.L) (h : Vec md.K) (c : Poly) (t1 : Vec md.K) (k : Fin md.K) (i : Fin 256) :
    0 ≤ w1OfA A z h c t1 k i ∧ w1OfA A z h c t1 k i < 16 :=
  useHintA_range _ _ (std_range _ _).1 (std_range _ _).2

/-- A row of the matrix times a transformed vector, before the inverse transform. -/
theorem rowAcc_res (M : Mach) (M' : Fin md.L → Mach) {row : Vec md.L} {v : Fin md.L → VPoly} {B : Int} (hm : ∀ j, Bnd Q (row j)) (hv : ∀ j, Bnd B (ti (v j)))
    (hB : B ≤ Q) :
    res (ti (pointwiseAccL M (fun j => permP (ofP (row j))) (fun j => nttC (M' j) (v j)))) = permP (Rinv • ∑ j, res (row j) * fNtt (res (ti (v j)))) ∧
    Bnd Q (ti (pointwiseAccL M (fun j => permP (ofP (row j))) (fun j => nttC (M' j) (v j)))) := by
  have e1 : ∀ j, ti (permP (ofP (row j))) = permP (row j) := fun j => by rw [ti_permP, ti_ofP_bnd (hm j) (by decide)]
  have n := fun j => nttC_res (M' j) (B := Q) (a := v j) (fun i => by have := hv j i; omega) (by decide)
  have q := pointwiseAccL_res wrapSem md M (fun j => permP (ofP (row j))) (fun j => nttC (M' j) (v j)) Q (Q + 8 * Q) (fun j => by rw [e1]; exact bnd_permP (hm j))
    (fun j => (n j).2) (by decide)
  refine ⟨?_, q.2⟩
  rw [q.1]
  funext i
  simp only [e1, (n _).1]
  show (Rinv • ∑ j, res (permP (row j)) * permP (fNtt (res (ti (v j))))) i = (Rinv • ∑ j, res (row j) * fNtt (res (ti (v j)))) _
  simp only [Pi.smul_apply, Finset.sum_apply, Pi.mul_apply]
  rfl

theorem verifyMul_caddq (J : Fin 4 → Junk) (M : Mach) (M' : Fin md.L → Mach) {pk : Bytes} {cp : Poly} {mat : Mat md} {A : Fin md.K → Fin md.L → Rq} {z : Fin md.L → VPoly} {zv : Vec md.L}
    (hc : Bnd 1 cp) (hm : ∀ i j, Bnd Q (mat i j)) (hA : ∀ i j, IsNtt (A i j) (mat i j)) (hz : ∀ j, ti (z j) = zv j) (hb : ∀ j, Bnd 524288 (zv j)) (i : Fin md.K) :
    ti (polyCaddqV (verifyMul md C J pk (nttC M (ofP cp)) (fun j => nttC (M' j) (z j)) i fun j => permP (ofP (mat i j)))) =
      std (matMul A (fun j => toRq (zv j)) i - negaMul (toRq cp) (toRq fun n => (unpackPk md C pk).2 i n * 8192)) := by
  have ht : ∀ n, 0 ≤ (unpackPk md C pk).2 i n ∧ (unpackPk md C pk).2 i n ≤ 1023 := fun n => polyt1Unpack_range (C := C) (pk.drop (32 + i.1 * 320)) n
  unfold verifyMul
  dsimp only
  have e0 : polyt1Unpack C (pk.drop (32 + i.1 * 320)) = (unpackPk md C pk).2 i := rfl
  rw [e0]
  generalize (unpackPk md C pk).2 i = t at ht ⊢
  have et : ti (ofP t) = t := ti_ofP t fun n => by have := ht n; omega
  have es : ti (polyShiftlV (ofP t)) = fun n => t n * 8192 := by
    rw [polyShiftlV_int _ fun n => by rw [et]; have := ht n; omega, et]
  rw [pointwiseC'_eq']
  have a := rowAcc_res (J 0).mach M' (row := mat i) (v := z) (B := 524288) (hm i) (fun j => by rw [hz]; exact hb j) (by decide)
  have b := chalAcc_res (J 2).mach M (J 1).mach (v := polyShiftlV (ofP t)) hc (fun n => by rw [es]; have := ht n; simp only [Q]; omega)
  rw [es] at b
  simp only [hz] at a
  generalize pointwiseAccL (J 0).mach (fun j => permP (ofP (mat i j))) (fun j => nttC (M' j) (z j)) = P at a ⊢
  generalize pointwiseC (J 2).mach (nttC M (ofP cp)) (nttC (J 1).mach (polyShiftlV (ofP t))) = R at b ⊢
  have hs := polySubV_int P R fun n => by have := a.2 n; have := b.2 n; simp only [Q] at *; omega
  have hr := polyReduceV_int (C := C) (polySubV P R) fun n => by rw [hs]; have := a.2 n; have := b.2 n; simp only [Q] at *; omega
  have r := polyReduce_res (C := C) (A := 2 * Q) (a := ti (polySubV P R)) (fun n => by rw [hs]; have := a.2 n; have := b.2 n; dsimp only; omega) (by decide)
  rw [← hr] at r
  have e : res (ti (polyReduceV (polySubV P R))) = permP (Rinv • (fNtt (matMul A (fun j => toRq (zv j)) i) - fNtt (negaMul (toRq cp) (toRq fun n => t n * 8192)))) := by
    have em : fNtt (res cp) * fNtt (toRq fun n => t n * 8192) = fNtt (negaMul (toRq cp) (toRq fun n => t n * 8192)) := by
      rw [fNtt_mul]; rfl
    have es2 : res (ti (polySubV P R)) = res (ti P) - res (ti R) := by
      funext n; rw [hs]; simp [res]
    rw [r.1, es2, a.1, b.1, fNtt_matMul hA, ← em, smul_sub]
    rfl
  have v := invnttC_res' (J 3).mach (P := polyReduceV (polySubV P R)) (r.2.mono (by decide)) e
  rw [polyCaddqV_int (C := C)]
  refine caddq_std (fun n => by have := v.2 n; simp only [Q]; omega) ?_
  apply fNtt_inj
  rw [v.1, fNtt_sub]

/-! ## Buffers -/

theorem foldl_last {α : Type} (n : Nat) (f : α → Fin (n + 1) → α) (a : α) :
    (List.finRange (n + 1)).foldl f a = f ((List.finRange n).foldl (fun s i => f s i.castSucc) a) (Fin.last n) := by
  rw [List.finRange_succ_last, List.foldl_append, List.foldl_map]
  rfl

/-- Consecutive blocks written in order read back as their concatenation; nothing else is touched. -/
theorem blocks (n len off : Nat) (w : (Nat → UInt8) → Fin n → (Nat → UInt8)) (b : Fin n → Bytes) (hg : ∀ m i, readB (w m i) (off + i.1 * len) len = b i)
    (hk : ∀ m i k, k < off + i.1 * len ∨ off + i.1 * len + len ≤ k → w m i k = m k) (m : Nat → UInt8) :
    readB ((List.finRange n).foldl w m) off (n * len) = (List.finRange n).flatMap b ∧
    ∀ k, k < off ∨ off + n * len ≤ k → (List.finRange n).foldl w m k = m k := by
  induction n with
  | zero => exact ⟨by simp [readB], fun k _ => rfl⟩
  | succ n ih =>
    have h := ih (fun m i => w m i.castSucc) (fun i => b i.castSucc) (fun m i => hg m i.castSucc) (fun m i => hk m i.castSucc)
    rw [foldl_last]
    have e : (n + 1) * len = n * len + len := Nat.succ_mul n len
    constructor
    · rw [List.finRange_succ_last, List.flatMap_append, List.flatMap_map, List.flatMap_singleton, e, readB_add, ← h.1]
      congr 1
      · exact readB_congr _ _ _ _ fun k hk' => hk _ _ _ (Or.inl (by rw [Fin.val_last]; omega))
      · exact hg _ (Fin.last n)
    · intro k hk'
      rw [e] at hk'
      rw [hk _ _ _ (by rw [Fin.val_last]; omega)]
      exact h.2 k (by omega)

theorem polyw1Pack_len (a : Poly) : (polyw1Pack a).length = 128 := by unfold polyw1Pack; rw [List.length_ofFn]

/-- The packed commitments. -/
theorem packW1_read (m : Nat → UInt8) (w1 : Fin md.K → VPoly) (v : Vec md.K) (hv : ∀ k, ti (w1 k) = v k) (hr : ∀ k i, 0 ≤ v k i ∧ v k i < 16) :
    readB ((List.finRange md.K).foldl (fun sig i => polyw1PackV sig (i.1 * 128) (w1 i)) m) 0 (md.K * 128) = vecPackW1 v := by
  have hb : ∀ k i, 0 ≤ ti (w1 k) i ∧ ti (w1 k) i < 16 := fun k i => by rw [hv]; exact hr k i
  refine (blocks md.K 128 0 (fun sig i => polyw1PackV sig (i.1 * 128) (w1 i)) (fun i => polyw1Pack (v i)) ?_ ?_ m).1
  · intro m i
    rw [Nat.zero_add]
    apply List.ext_getElem
    · rw [readB_length, polyw1Pack_len]
    · intro n h1 h2
      rw [readB_get, (polyw1PackV_spec m (i.1 * 128) (w1 i) (hb i)).1 n (by rw [readB_length] at h1; exact h1), hv]
      exact (List.getElem_eq_getD 0).symm
  · intro m i k h
    exact (polyw1PackV_spec m _ (w1 i) (hb i)).2 _ (by omega)

/-! ## The rows -/

theorem hintStep_row (b : Bytes) (pos : Nat) (v : Vec md.K) (i : Fin md.K) :
    unpackHintStep C md.OMEGA b (pos, v) i = (rowHintA md C b pos i).map fun h => (h.2, Function.update v i h.1) := by
  unfold unpackHintStep rowHintA
  dsimp only
  split
  · rfl
  · rw [Option.map_map]; rfl

theorem hintFold_keep (b : Bytes) (l : List (Fin md.K)) (i : Fin md.K) (hi : i ∉ l) : ∀ (pos : Nat) (v : Vec md.K) (k : Nat) (v' : Vec md.K),
    l.foldlM (unpackHintStep C md.OMEGA b) (pos, v) = some (k, v') → v' i = v i := by
  induction l with
  | nil => intro pos v k v' h; cases h; rfl
  | cons a l ih =>
    intro pos v k v' h
    rw [List.foldlM_cons, hintStep_row] at h
    cases hr : rowHintA md C b pos a with
    | none => rw [hr] at h; cases h
    | some p =>
      rw [hr] at h
      rw [ih (fun e => hi (List.mem_cons_of_mem _ e)) _ _ _ _ h, Function.update_of_ne (fun e => hi (by rw [e]; exact List.mem_cons_self))]

theorem verifyRows_spec (J : Fin md.K → RowJunk) (J' : Fin md.K → Fin 4 → Junk) (sig pk : Bytes) (c : VPoly) (z : Fin md.L → VPoly) (X : Fin md.K → VPoly)
    (hrow : ∀ st i, verifyRow md C H J J' sig pk c z st i =
      some ((rowHintA md C (sig.drop (md.CTILDE + md.L * 640)) st.2 i).map fun h => (polyw1PackV st.1 (i.1 * 128) (polyUseHintV (X i) (ofP h.1)), h.2)))
    (l : List (Fin md.K)) (hl : l.Nodup) : ∀ (buf : Nat → UInt8) (pos : Nat) (v : Vec md.K),
    verifyRows md C H J J' sig pk c z l (buf, pos) = some ((l.foldlM (unpackHintStep C md.OMEGA (sig.drop (md.CTILDE + md.L * 640))) (pos, v)).map fun q =>
      (l.foldl (fun m i => polyw1PackV m (i.1 * 128) (polyUseHintV (X i) (ofP (q.2 i)))) buf, q.1)) := by
  induction l with
  | nil => intro buf pos v; rfl
  | cons a l ih =>
    intro buf pos v
    rw [verifyRows, hrow, Option.bind_some, List.foldlM_cons, hintStep_row]
    dsimp only
    cases hr : rowHintA md C (sig.drop (md.CTILDE + md.L * 640)) pos a with
    | none => simp only [Option.map_none, Option.elim_none, Option.bind_eq_bind, Option.bind_none]
    | some p =>
      rw [Option.map_some, Option.map_some, Option.elim_some, ih (List.nodup_cons.1 hl).2 _ _ (Function.update v a p.1)]
      rw [Option.bind_eq_bind, Option.bind_some]
      cases hf : l.foldlM (unpackHintStep C md.OMEGA (sig.drop (md.CTILDE + md.L * 640))) (p.2, Function.update v a p.1) with
      | none => simp only [Option.map_none]
      | some q =>
        have := hintFold_keep _ l a (List.nodup_cons.1 hl).1 _ _ _ _ hf
        rw [Function.update_self] at this
        rw [Option.map_some, Option.map_some, List.foldl_cons, this]

theorem verifyRows_none (J : Fin md.K → RowJunk) (J' : Fin md.K → Fin 4 → Junk) (sig pk : Bytes) (c : VPoly) (z : Fin md.L → VPoly)
    (st : (Nat → UInt8) × Nat) (l : List (Fin md.K)) (hn : ∃ i ∈ l, rowAlt md H (J i) (pk.take 32) i = none) :
    verifyRows md C H J J' sig pk c z l st = none ∨ verifyRows md C H J J' sig pk c z l st = some none := by
  induction l generalizing st with
  | nil => obtain ⟨i, hi, -⟩ := hn; cases hi
  | cons a l ih =>
    rw [verifyRows]
    obtain ⟨i, hi, he⟩ := hn
    unfold verifyRow
    cases ha : rowAlt md H (J a) (pk.take 32) a with
    | none => exact Or.inl rfl
    | some row =>
      have hil : i ∈ l := by
        rcases List.mem_cons.1 hi with rfl | h
        · rw [ha] at he; cases he
        · exact h
      dsimp only [Option.bind_eq_bind, Option.bind_some, Option.pure_def]
      cases rowHintA md C (sig.drop (md.CTILDE + md.L * 640)) st.2 a with
      | none => exact Or.inr rfl
      | some p => exact ih _ ⟨i, hil, he⟩

theorem all_take (n : Nat) (m : Nat → UInt8) (sig : Bytes) (hl : n ≤ sig.length) :
    ((List.range n).all fun k => decide (m k = sig.getD k 0)) = decide (sig.take n = readB m 0 n) := by
  rw [Bool.eq_iff_iff, List.all_eq_true, decide_eq_true_eq]
  simp only [List.mem_range, decide_eq_true_eq]
  constructor
  · intro h
    apply List.ext_getElem
    · rw [readB_length, List.length_take]; omega
    · intro k h1 h2
      rw [readB_length] at h2
      rw [readB_get, Nat.zero_add, h k h2, List.getElem_take]
      exact List.getElem_eq_getD 0
  · intro h k hk
    have e := congrArg (fun l => l.getD k 0) h
    rw [← List.getElem_eq_getD (h := by rw [List.length_take]; omega), ← List.getElem_eq_getD (h := by rw [readB_length]; exact hk), List.getElem_take, readB_get,
      Nat.zero_add] at e
    rw [← e]
    exact List.getElem_eq_getD 0

theorem ctilde_le (md : Mode) : 32 ≤ md.CTILDE := by cases md <;> decide

theorem siglen_eq (md : Mode) : md.SIGLEN = md.CTILDE + md.L * 640 + (md.OMEGA + md.K) := rfl

theorem polyChallenge_take (sig : Bytes) : polyChallenge md C H (sig.take md.CTILDE) = polyChallenge md C H sig := by
  unfold polyChallenge
  rw [List.take_take, Nat.min_eq_left (ctilde_le md)]

/-- **Verification**, when the samplers terminate: exactly the hint check and the comparison of the challenges. -/
theorem verifyA_eq (J : VerifyJunk md) {sig m pk : Bytes} {cp : Poly} {mat : Mat md} {A : Fin md.K → Fin md.L → Rq} (hl : sig.length = md.SIGLEN) (hpk : 32 ≤ pk.length)
    (hcp : polyChallenge md C H (sig.take md.CTILDE) = some cp) (hx : Extra C md H (pk.take 32)) (hmat : matrixExpand md C H (pk.take 32) = some mat)
    (hA : ∀ i j, IsNtt (A i j) (mat i j)) :
    verifyA md C H J sig m pk = some ((unpackSig md C sig).elim false fun u => decide (u.1 = shake256 H md.CTILDE (shake256 H 64 (shake256 H 64 (pk.take md.PKLEN) ++ m) ++
      vecPackW1 (w1OfA A u.2.1 u.2.2 cp (unpackPk md C pk).2)))) := by
  have hcB := chal_bnd (polyChallenge_spec md H _ cp hcp).1
  have hrho : (pk.take 32).length = 32 := by rw [List.length_take]; omega
  have hz : ∀ j : Fin md.L, ti (polyzUnpackV fun k => sig.getD (md.CTILDE + j.1 * 640 + k) 0) = polyzUnpack C (sig.drop (md.CTILDE + j.1 * 640)) := by
    intro j
    have := Dilithium35.idx_le (k := 640) j
    have hS := siglen_eq md
    refine polyzUnpackV_int _ _ (by rw [List.length_drop, hl]; omega) fun k hk => ?_
    rw [List.getD_eq_getElem?_getD, List.getD_eq_getElem?_getD, List.getElem?_drop]
  have hzb : ∀ j : Fin md.L, Bnd 524288 (polyzUnpack C (sig.drop (md.CTILDE + j.1 * 640))) := fun j i => by
    have := Dilithium35.polyzUnpack_range (C := C) (sig.drop (md.CTILDE + j.1 * 640)) i; simp only [Dilithium35.GAMMA1] at this; omega
  unfold verifyA
  rw [if_neg (by rw [hl]; simp), ← polyChallenge_take, hcp]
  dsimp only [Option.bind_eq_bind, Option.bind_some]
  have hX := fun i => verifyMul_caddq (C := C) (J.mul i) J.chal.mach (fun j => (J.z j).mach) (pk := pk) (zv := fun j => polyzUnpack C (sig.drop (md.CTILDE + j.1 * 640)))
    hcB (matrixExpand_bnd hmat) hA hz hzb i
  have hrow : ∀ st i, verifyRow md C H J.row J.mul sig pk (nttC J.chal.mach (ofP cp)) (fun i => nttC (J.z i).mach (polyzUnpackV fun k => sig.getD (md.CTILDE + i.1 * 640 + k) 0)) st i =
      some ((rowHintA md C (sig.drop (md.CTILDE + md.L * 640)) st.2 i).map fun h => (polyw1PackV st.1 (i.1 * 128) (polyUseHintV (polyCaddqV (verifyMul md C (J.mul i) pk (nttC J.chal.mach (ofP cp))
        (fun j => nttC (J.z j).mach (polyzUnpackV fun k => sig.getD (md.CTILDE + j.1 * 640 + k) 0)) i fun j => permP (ofP (mat i j)))) (ofP h.1)), h.2)) := by
    intro st i
    unfold verifyRow
    rw [rowAlt_some (C := C) _ hrho hmat hx]
    rfl
  obtain ⟨X, hXd⟩ : ∃ X : Fin md.K → VPoly, ∀ i, polyCaddqV (verifyMul md C (J.mul i) pk (nttC J.chal.mach (ofP cp))
        (fun j => nttC (J.z j).mach (polyzUnpackV fun k => sig.getD (md.CTILDE + j.1 * 640 + k) 0)) i fun j => permP (ofP (mat i j))) = X i := ⟨_, fun _ => rfl⟩
  simp only [hXd] at hX hrow
  rw [verifyRows_spec J.row J.mul sig pk _ _ X hrow (List.finRange md.K) (List.nodup_finRange md.K) J.buf 0 (fun _ _ => C.oob), Option.bind_some]
  have hu : unpackSig md C sig = ((List.finRange md.K).foldlM (unpackHintStep C md.OMEGA (sig.drop (md.CTILDE + md.L * 640))) (0, fun _ _ => C.oob)).bind fun q =>
      if (List.range' q.1 (md.OMEGA - q.1)).any fun j => decide (at8 C (sig.drop (md.CTILDE + md.L * 640)) j ≠ 0) then none else
        some (sig.take md.CTILDE, fun i : Fin md.L => polyzUnpack C (sig.drop (md.CTILDE + i.1 * 640)), q.2) := by
    unfold unpackSig unpackHint
    rw [Option.bind_eq_bind, Option.map_bind]
    congr 1
    funext q
    obtain ⟨k, h⟩ := q
    dsimp only [Function.comp]
    split
    · rfl
    · rfl
  cases hf : (List.finRange md.K).foldlM (unpackHintStep C md.OMEGA (sig.drop (md.CTILDE + md.L * 640))) (0, fun _ _ => C.oob) with
  | none => rw [hf] at hu; rw [hu]; rfl
  | some q =>
  obtain ⟨k, h⟩ := q
  rw [hf, Option.bind_some] at hu
  rw [Option.map_some, Option.elim_some]
  dsimp only at hu ⊢
  unfold verifyEnd
  dsimp only
  cases hany : (List.range' k (md.OMEGA - k)).any fun j => decide (at8 C (sig.drop (md.CTILDE + md.L * 640)) j ≠ 0) with
  | true => rw [hany, if_pos rfl] at hu; rw [hu, if_pos rfl]; rfl
  | false =>
  rw [hany, if_neg (by decide)] at hu
  rw [hu, if_neg (by decide), Option.elim_some]
  dsimp only
  obtain ⟨-, -, -, hh, -⟩ := packSig_unpackSig sig _ _ h hl hu
  rw [all_take _ _ _ (by rw [hl, siglen_eq]; omega), readB_same _ _ _ _ (shake256_len _ _)]
  have hw : ∀ k, ti (polyUseHintV (X k) (ofP (h k))) = w1OfA A (fun j : Fin md.L => polyzUnpack C (sig.drop (md.CTILDE + j.1 * 640))) h cp (unpackPk md C pk).2 k := by
    intro k
    have eh : ti (ofP (h k)) = h k := ti_ofP (h k) fun n => by rcases hh k n with e | e <;> rw [e] <;> decide
    rw [polyUseHintV_int _ _ (fun n => by rw [hX]; exact std_range _ _) (fun n => by rw [eh]; exact hh k n), eh, hX]
    rfl
  rw [packW1_read _ _ _ hw fun k i => w1OfA_range _ _ _ _ _ k i, Option.pure_def]

end Verif.Avx235
