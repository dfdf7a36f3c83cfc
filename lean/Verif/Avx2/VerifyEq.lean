import Verif.Avx2.SignEq
import Verif.Dilithium.HintSpec

/-! # What the AVX2 verification computes -/

namespace Verif.Avx2

open Verif.Dilithium
open Verif.Dilithium.Spec (Rq toRq std IsNtt matMul)

variable {C : CSem} {H : Shake}

/-- `w1' = UseHint(h, A·z - c·t1·2^13)` with the AVX2 `UseHint`. -/
def w1OfA (A : Fin 4 → Fin 4 → Rq) (z h : Vec) (c : Poly) (t1 : Vec) : Vec := fun k i =>
  useHintA (h k i) (std (matMul A (fun j => toRq (z j)) k - negaMul (toRq c) (toRq fun n => t1 k n * 8192)) i)

theorem w1OfA_range (A : Fin 4 → Fin 4 → Rq) (z h : Vec) (c : Poly) (t1 : Vec) (k : Fin 4) (i : Fin 256) : 0 ≤ w1OfA A z h c t1 k i ∧ w1OfA A z h c t1 k i < 64 := by
  unfold w1OfA useHintA
  generalize hr : std (matMul A (fun j => toRq (z j)) k - negaMul (toRq c) (toRq fun n => t1 k n * 8192)) i = r
  have hb : 0 ≤ Spec.highBits r ∧ Spec.highBits r ≤ 43 := by rw [← hr]; exact spec_highBits_range _ (std_range _ _).1 (std_range _ _).2
  split
  · split <;> omega
  · omega

theorem verifyMul_caddq (J : Fin 4 → Junk) (M : Mach) (M' : Fin 4 → Mach) {pk : Bytes} {cp : Poly} {mat : Mat} {A : Fin 4 → Fin 4 → Rq} {z : Fin 4 → VPoly} {zv : Vec}
    (hc : Bnd 1 cp) (hm : ∀ i j, Bnd Q (mat i j)) (hA : ∀ i j, IsNtt (A i j) (mat i j)) (hz : ∀ j, ti (z j) = zv j) (hb : ∀ j, Bnd 131072 (zv j)) (i : Fin 4) :
    ti (polyCaddqV (verifyMul C J pk (nttC M (ofP cp)) (fun j => nttC (M' j) (z j)) i fun j => permP (ofP (mat i j)))) =
      std (matMul A (fun j => toRq (zv j)) i - negaMul (toRq cp) (toRq fun n => (unpackPk C pk).2 i n * 8192)) := by
  have ht : ∀ n, 0 ≤ (unpackPk C pk).2 i n ∧ (unpackPk C pk).2 i n ≤ 1023 := fun n => polyt1Unpack_range (C := C) (pk.drop (32 + i.1 * 320)) n
  unfold verifyMul
  dsimp only
  have e0 : polyt1Unpack C (pk.drop (32 + i.1 * 320)) = (unpackPk C pk).2 i := rfl
  rw [e0]
  generalize (unpackPk C pk).2 i = t at ht ⊢
  have et : ti (ofP t) = t := ti_ofP t fun n => by have := ht n; omega
  have es : ti (polyShiftlV (ofP t)) = fun n => t n * 8192 := by
    rw [polyShiftlV_int _ fun n => by rw [et]; have := ht n; omega, et]
  rw [pointwiseC'_eq']
  have a := rowAcc_res (J 0).mach M' (row := mat i) (v := z) (B := 131072) (hm i) (fun j => by rw [hz]; exact hb j) (by decide)
  have b := chalAcc_res (J 2).mach M (J 1).mach (v := polyShiftlV (ofP t)) hc (fun n => by rw [es]; have := ht n; simp only [Q]; omega)
  rw [es] at b
  simp only [hz] at a
  generalize pointwiseAccC (J 0).mach (fun j => permP (ofP (mat i j))) (fun j => nttC (M' j) (z j)) = P at a ⊢
  generalize pointwiseC (J 2).mach (nttC M (ofP cp)) (nttC (J 1).mach (polyShiftlV (ofP t))) = R at b ⊢
  have hs := polySubV_int P R fun n => by have := a.2 n; have := b.2 n; simp only [Q] at *; omega
  have hr := polyReduceV_int (C := C) (polySubV P R) fun n => by rw [hs]; have := a.2 n; have := b.2 n; simp only [Q] at *; omega
  have r := polyReduce_res (C := C) (A := 2 * Q) (a := ti (polySubV P R)) (fun n => by rw [hs]; have := a.2 n; have := b.2 n; dsimp only; omega) (by decide)
  rw [← hr] at r
  have e : res (ti (polyReduceV (polySubV P R))) = permP (Rinv • (fNtt (matMul A (fun j => toRq (zv j)) i) - fNtt (negaMul (toRq cp) (toRq fun n => t n * 8192)))) := by
    have em : fNtt (res cp) * fNtt (toRq fun n => t n * 8192) = fNtt (negaMul (toRq cp) (toRq fun n => t n * 8192)) := by
      rw [fNtt_mul]; rfl
    have es2 : res (ti (polySubV P R)) = res (ti P) - res (ti R) := by
      funext n; rw [hs]; simp [res]
    rw [r.1, es2, a.1, b.1, fNtt_matMul hA, ← em, smul_sub]
    rfl
  have v := invnttC_res' (J 3).mach (P := polyReduceV (polySubV P R)) (r.2.mono (by decide)) e
  rw [polyCaddqV_int (C := C)]
  refine caddq_std (fun n => by have := v.2 n; simp only [Q]; omega) ?_
  apply fNtt_inj
  rw [v.1, fNtt_sub]

theorem hintStep_row (b : Bytes) (pos : Nat) (v : Vec) (i : Fin 4) :
    unpackHintStep C b (pos, v) i = (rowHintA C b pos i).map fun h => (h.2, Function.update v i h.1) := by
  unfold unpackHintStep rowHintA
  dsimp only
  split
  · rfl
  · rw [Option.map_map]; rfl

theorem hintFold_keep (b : Bytes) (l : List (Fin 4)) (i : Fin 4) (hi : i ∉ l) : ∀ (pos : Nat) (v : Vec) (k : Nat) (v' : Vec),
    l.foldlM (unpackHintStep C b) (pos, v) = some (k, v') → v' i = v i := by
  induction l with
  | nil => intro pos v k v' h; cases h; rfl
  | cons a l ih =>
    intro pos v k v' h
    rw [List.foldlM_cons, hintStep_row] at h
    cases hr : rowHintA C b pos a with
    | none => rw [hr] at h; cases h
    | some p =>
      rw [hr] at h
      rw [ih (fun e => hi (List.mem_cons_of_mem _ e)) _ _ _ _ h, Function.update_of_ne (fun e => hi (by rw [e]; exact List.mem_cons_self))]

theorem verifyRows_spec (J : Fin 4 → Fin 5 → Junk) (J' : Fin 4 → Fin 4 → Junk) (sig pk : Bytes) (c : VPoly) (z X : Fin 4 → VPoly)
    (hrow : ∀ st i, verifyRow C H J J' sig pk c z st i =
      some ((rowHintA C (sig.drop 2336) st.2 i).map fun h => (polyw1PackV st.1 (i.1 * 192) (polyUseHintV (X i) (ofP h.1)), h.2)))
    (l : List (Fin 4)) (hl : l.Nodup) : ∀ (buf : Nat → UInt8) (pos : Nat) (v : Vec),
    verifyRows C H J J' sig pk c z l (buf, pos) = some ((l.foldlM (unpackHintStep C (sig.drop 2336)) (pos, v)).map fun q =>
      (l.foldl (fun m i => polyw1PackV m (i.1 * 192) (polyUseHintV (X i) (ofP (q.2 i)))) buf, q.1)) := by
  induction l with
  | nil => intro buf pos v; rfl
  | cons a l ih =>
    intro buf pos v
    rw [verifyRows, hrow, Option.bind_some, List.foldlM_cons, hintStep_row]
    dsimp only
    cases hr : rowHintA C (sig.drop 2336) pos a with
    | none => simp only [Option.map_none, Option.elim_none, Option.bind_eq_bind, Option.bind_none]
    | some p =>
      rw [Option.map_some, Option.map_some, Option.elim_some, ih (List.nodup_cons.1 hl).2 _ _ (Function.update v a p.1)]
      rw [Option.bind_eq_bind, Option.bind_some]
      cases hf : l.foldlM (unpackHintStep C (sig.drop 2336)) (p.2, Function.update v a p.1) with
      | none => simp only [Option.map_none]
      | some q =>
        have := hintFold_keep _ l a (List.nodup_cons.1 hl).1 _ _ _ _ hf
        rw [Function.update_self] at this
        rw [Option.map_some, Option.map_some, List.foldl_cons, this]

theorem verifyRows_none (J : Fin 4 → Fin 5 → Junk) (J' : Fin 4 → Fin 4 → Junk) (sig pk : Bytes) (c : VPoly) (z : Fin 4 → VPoly)
    (st : (Nat → UInt8) × Nat) (l : List (Fin 4)) (hn : ∃ i ∈ l, expandRow H (J i) (pk.take 32) i = none) :
    verifyRows C H J J' sig pk c z l st = none ∨ verifyRows C H J J' sig pk c z l st = some none := by
  induction l generalizing st with
  | nil => obtain ⟨i, hi, -⟩ := hn; cases hi
  | cons a l ih =>
    rw [verifyRows]
    obtain ⟨i, hi, he⟩ := hn
    unfold verifyRow
    cases ha : expandRow H (J a) (pk.take 32) a with
    | none => exact Or.inl rfl
    | some row =>
      have hil : i ∈ l := by
        rcases List.mem_cons.1 hi with rfl | h
        · rw [ha] at he; cases he
        · exact h
      dsimp only [Option.bind_eq_bind, Option.bind_some, Option.pure_def]
      cases rowHintA C (sig.drop 2336) st.2 a with
      | none => exact Or.inr rfl
      | some p => exact ih _ ⟨i, hil, he⟩

theorem all_take (m : Nat → UInt8) (sig : Bytes) (hl : 32 ≤ sig.length) :
    ((List.range 32).all fun k => decide (m k = sig.getD k 0)) = decide (sig.take 32 = readB m 0 32) := by
  rw [Bool.eq_iff_iff, List.all_eq_true, decide_eq_true_eq]
  simp only [List.mem_range, decide_eq_true_eq]
  constructor
  · intro h
    apply List.ext_getElem
    · rw [readB_length, List.length_take]; omega
    · intro k h1 h2
      rw [readB_length] at h2
      rw [readB_get, Nat.zero_add, h k h2, List.getElem_take]
      exact List.getElem_eq_getD 0
  · intro h k hk
    have e := congrArg (fun l => l.getD k 0) h
    rw [← List.getElem_eq_getD (h := by rw [List.length_take]; omega), ← List.getElem_eq_getD (h := by rw [readB_length]; exact hk), List.getElem_take, readB_get,
      Nat.zero_add] at e
    rw [← e]
    exact List.getElem_eq_getD 0

theorem polyChallenge_take (sig : Bytes) : polyChallenge C H (sig.take 32) = polyChallenge C H sig := by
  unfold polyChallenge
  rw [List.take_take]
  rfl

/-- **Verification**, when the samplers terminate: exactly the hint check and the comparison of the challenges. -/
theorem verifyA_eq (J : VerifyJunk) {sig m pk : Bytes} {cp : Poly} {mat : Mat} {A : Fin 4 → Fin 4 → Rq} (hl : sig.length = 2420) (hpk : 32 ≤ pk.length)
    (hcp : polyChallenge C H (sig.take 32) = some cp) (hmat : matrixExpand C H (pk.take 32) = some mat) (hA : ∀ i j, IsNtt (A i j) (mat i j)) :
    verifyA C H J sig m pk = some ((unpackSig C sig).elim false fun u => decide (u.1 = shake256 H 32 (shake256 H 64 (shake256 H 64 (pk.take 1312) ++ m) ++
      vecPackW1 (w1OfA A u.2.1 u.2.2 cp (unpackPk C pk).2)))) := by
  have hcB := chal_bnd (polyChallenge_spec H _ cp hcp).1
  have hrho : (pk.take 32).length = 32 := by rw [List.length_take]; omega
  have hz : ∀ j : Fin 4, ti (polyzUnpackV fun k => sig.getD (32 + j.1 * 576 + k) 0) = polyzUnpack C (sig.drop (32 + j.1 * 576)) := by
    intro j
    have := j.2
    refine polyzUnpackV_int _ _ (by rw [List.length_drop]; omega) fun k hk => ?_
    rw [List.getD_eq_getElem?_getD, List.getD_eq_getElem?_getD, List.getElem?_drop]
  have hzb : ∀ j : Fin 4, Bnd 131072 (polyzUnpack C (sig.drop (32 + j.1 * 576))) := fun j i => by
    have := polyzUnpack_range (C := C) (sig.drop (32 + j.1 * 576)) i; simp only [GAMMA1] at this; omega
  unfold verifyA
  rw [if_neg (by rw [hl]; decide), ← polyChallenge_take, hcp]
  dsimp only [Option.bind_eq_bind, Option.bind_some]
  have hX := fun i => verifyMul_caddq (C := C) (J.mul i) J.chal.mach (fun j => (J.z j).mach) (pk := pk) (zv := fun j => polyzUnpack C (sig.drop (32 + j.1 * 576)))
    hcB (matrixExpand_bnd hmat) hA hz hzb i
  have hrow : ∀ st i, verifyRow C H J.row J.mul sig pk (nttC J.chal.mach (ofP cp)) (fun i => nttC (J.z i).mach (polyzUnpackV fun k => sig.getD (32 + i.1 * 576 + k) 0)) st i =
      some ((rowHintA C (sig.drop 2336) st.2 i).map fun h => (polyw1PackV st.1 (i.1 * 192) (polyUseHintV (polyCaddqV (verifyMul C (J.mul i) pk (nttC J.chal.mach (ofP cp))
        (fun j => nttC (J.z j).mach (polyzUnpackV fun k => sig.getD (32 + j.1 * 576 + k) 0)) i fun j => permP (ofP (mat i j)))) (ofP h.1)), h.2)) := by
    intro st i
    unfold verifyRow
    rw [expandRow_some (C := C) _ hrho hmat]
    rfl
  obtain ⟨X, hXd⟩ : ∃ X : Fin 4 → VPoly, ∀ i, polyCaddqV (verifyMul C (J.mul i) pk (nttC J.chal.mach (ofP cp))
        (fun j => nttC (J.z j).mach (polyzUnpackV fun k => sig.getD (32 + j.1 * 576 + k) 0)) i fun j => permP (ofP (mat i j))) = X i := ⟨_, fun _ => rfl⟩
  simp only [hXd] at hX hrow
  rw [verifyRows_spec J.row J.mul sig pk _ _ X hrow (List.finRange 4) (List.nodup_finRange 4) J.buf 0 (fun _ _ => C.oob), Option.bind_some]
  have hu : unpackSig C sig = ((List.finRange 4).foldlM (unpackHintStep C (sig.drop 2336)) (0, fun _ _ => C.oob)).bind fun q =>
      if (List.range' q.1 (80 - q.1)).any fun j => decide (at8 C (sig.drop 2336) j ≠ 0) then none else
        some (sig.take 32, fun i : Fin 4 => polyzUnpack C (sig.drop (32 + i.1 * 576)), q.2) := by
    unfold unpackSig unpackHint
    rw [Option.bind_eq_bind, Option.map_bind]
    congr 1
    funext q
    obtain ⟨k, h⟩ := q
    dsimp only [Function.comp]
    split
    · rfl
    · rfl
  cases hf : (List.finRange 4).foldlM (unpackHintStep C (sig.drop 2336)) (0, fun _ _ => C.oob) with
  | none => rw [hf] at hu; rw [hu]; rfl
  | some q =>
  obtain ⟨k, h⟩ := q
  rw [hf, Option.bind_some] at hu
  rw [Option.map_some, Option.elim_some]
  dsimp only at hu ⊢
  unfold verifyEnd
  dsimp only
  cases hany : (List.range' k (80 - k)).any fun j => decide (at8 C (sig.drop 2336) j ≠ 0) with
  | true => rw [hany, if_pos rfl] at hu; rw [hu, if_pos rfl]; rfl
  | false =>
  rw [hany, if_neg (by decide)] at hu
  rw [hu, if_neg (by decide), Option.elim_some]
  dsimp only
  obtain ⟨-, -, -, hh, -⟩ := packSig_unpackSig sig _ _ h hl hu
  rw [all_take _ _ (by omega), readB_same _ _ _ _ (shake256_len _ _)]
  have hw : ∀ k, ti (polyUseHintV (X k) (ofP (h k))) = w1OfA A (fun j : Fin 4 => polyzUnpack C (sig.drop (32 + j.1 * 576))) h cp (unpackPk C pk).2 k := by
    intro k
    have eh : ti (ofP (h k)) = h k := ti_ofP (h k) fun n => by rcases hh k n with e | e <;> rw [e] <;> decide
    rw [polyUseHintV_int _ _ (fun n => by rw [hX]; exact std_range _ _) (fun n => by rw [eh]; exact hh k n), eh, hX]
    rfl
  rw [packW1_read _ _ _ hw fun k i => w1OfA_range _ _ _ _ _ k i, Option.pure_def]

end Verif.Avx2
