import Verif.Avx2.SignKey

/-! # The hint loop of the AVX2 signing code writes the portable hint encoding -/

namespace Verif.Avx2

open Verif.Dilithium

/-- `hintStepA` with its inputs abstracted: whether the two norm checks pass, and the positions. -/
def hintStepS (ok : Fin 4 → Bool) (L : Fin 4 → Bytes) (st : (Nat → UInt8) × Nat) (i : Fin 4) : Except (Nat → UInt8) ((Nat → UInt8) × Nat) :=
  if ok i = false then .error st.1 else
  if st.2 + (L i).length > 80 then .error st.1 else
  .ok (writeAt (writeAt st.1 (2336 + st.2) (L i)) (2336 + 80 + i.1) [UInt8.ofNat (st.2 + (L i).length)], st.2 + (L i).length)

theorem hintStepS_fail (ok : Fin 4 → Bool) (L : Fin 4 → Bytes) (m : Nat → UInt8)
    (h : (∃ i, ok i = false) ∨ 80 < (L 0).length + (L 1).length + (L 2).length + (L 3).length) :
    ∃ m', (List.finRange 4).foldlM (hintStepS ok L) (m, 0) = .error m' := by
  rw [finRange4]
  simp only [List.foldlM_cons, List.foldlM_nil]
  by_cases c0 : ok 0 = false
  · exact ⟨_, by simp only [hintStepS, if_pos c0]; rfl⟩
  by_cases d0 : 0 + (L 0).length > 80
  · exact ⟨_, by simp only [hintStepS, if_neg c0, if_pos d0]; rfl⟩
  simp only [hintStepS, if_neg c0, if_neg d0, bind, Except.bind]
  by_cases c1 : ok 1 = false
  · simp only [if_pos c1]; exact ⟨_, rfl⟩
  by_cases d1 : 0 + (L 0).length + (L 1).length > 80
  · simp only [if_neg c1, if_pos d1]; exact ⟨_, rfl⟩
  simp only [if_neg c1, if_neg d1]
  by_cases c2 : ok 2 = false
  · simp only [if_pos c2]; exact ⟨_, rfl⟩
  by_cases d2 : 0 + (L 0).length + (L 1).length + (L 2).length > 80
  · simp only [if_neg c2, if_pos d2]; exact ⟨_, rfl⟩
  simp only [if_neg c2, if_neg d2]
  by_cases c3 : ok 3 = false
  · simp only [if_pos c3]; exact ⟨_, rfl⟩
  have d3 : 0 + (L 0).length + (L 1).length + (L 2).length + (L 3).length > 80 := by
    rcases h with ⟨i, hi⟩ | h
    · fin_cases i
      · exact absurd hi c0
      · exact absurd hi c1
      · exact absurd hi c2
      · exact absurd hi c3
    · omega
  simp only [if_neg c3, if_pos d3]; exact ⟨_, rfl⟩

theorem hintStepS_ok (ok : Fin 4 → Bool) (L : Fin 4 → Bytes) (m : Nat → UInt8) (ho : ∀ i, ok i = true)
    (h : (L 0).length + (L 1).length + (L 2).length + (L 3).length ≤ 80) :
    ∃ m', (List.finRange 4).foldlM (hintStepS ok L) (m, 0) = .ok (m', (L 0).length + (L 1).length + (L 2).length + (L 3).length) ∧
      readB m' 0 2336 = readB m 0 2336 ∧
      readB m' 2336 84 = (L 0 ++ L 1 ++ L 2 ++ L 3) ++ readB m (2336 + ((L 0).length + (L 1).length + (L 2).length + (L 3).length))
          (80 - ((L 0).length + (L 1).length + (L 2).length + (L 3).length)) ++
        [UInt8.ofNat (L 0).length, UInt8.ofNat ((L 0).length + (L 1).length), UInt8.ofNat ((L 0).length + (L 1).length + (L 2).length),
         UInt8.ofNat ((L 0).length + (L 1).length + (L 2).length + (L 3).length)] := by
  have o : ∀ i, (ok i = false) = False := fun i => by rw [ho]; simp
  rw [finRange4]
  simp only [List.foldlM_cons, List.foldlM_nil, hintStepS, o, if_false, bind, Except.bind, Nat.zero_add, Nat.add_zero]
  generalize L 0 = a at *
  generalize L 1 = b at *
  generalize L 2 = c at *
  generalize L 3 = d at *
  rw [if_neg (show ¬ a.length > 80 by omega)]
  dsimp only
  rw [if_neg (show ¬ a.length + b.length > 80 by omega)]
  dsimp only
  rw [if_neg (show ¬ a.length + b.length + c.length > 80 by omega)]
  dsimp only
  rw [if_neg (show ¬ a.length + b.length + c.length + d.length > 80 by omega)]
  dsimp only
  refine ⟨_, rfl, ?_, ?_⟩
  · simp only [show (0 : Fin 4).1 = 0 from rfl, show (1 : Fin 4).1 = 1 from rfl, show (2 : Fin 4).1 = 2 from rfl, show (3 : Fin 4).1 = 3 from rfl, Nat.reduceAdd]
    rw [readB_disj _ _ _ _ _ (by omega), readB_disj _ _ _ _ _ (by omega), readB_disj _ _ _ _ _ (by omega), readB_disj _ _ _ _ _ (by omega),
      readB_disj _ _ _ _ _ (by omega), readB_disj _ _ _ _ _ (by omega), readB_disj _ _ _ _ _ (by omega), readB_disj _ _ _ _ _ (by omega)]
  · simp only [show (0 : Fin 4).1 = 0 from rfl, show (1 : Fin 4).1 = 1 from rfl, show (2 : Fin 4).1 = 2 from rfl, show (3 : Fin 4).1 = 3 from rfl, Nat.reduceAdd]
    rw [show 84 = a.length + (b.length + (c.length + (d.length + ((80 - (a.length + b.length + c.length + d.length)) + (1 + (1 + (1 + 1))))))) by omega]
    generalize ea : a.length = la at *
    generalize eb : b.length = lb at *
    generalize ec : c.length = lc at *
    generalize ed : d.length = ld at *
    simp only [readB_add]
    rw [show 2336 + la + lb + lc + ld + (80 - (la + lb + lc + ld)) = 2416 by omega]
    simp only [Nat.reduceAdd, ← Nat.add_assoc]
    simp (disch := first | omega | (simp only [List.length_singleton]; omega)) only [readB_disj, readB_same, List.append_assoc]
    have s1 : ∀ (m : Nat → UInt8) (k : Nat) (x : UInt8), readB (writeAt m k [x]) k 1 = [x] := fun m k x => readB_same m k [x] 1 rfl
    simp only [s1, List.cons_append, List.nil_append]

/-- The hint area of the buffer, when it starts with zeros. -/
theorem hintStepS_pack (ok : Fin 4 → Bool) (h : Vec) (m : Nat → UInt8) (ho : ∀ i, ok i = true) (hw : wt h ≤ 80) :
    ∃ m' n, (List.finRange 4).foldlM (hintStepS ok fun i => (idx (h i)).map UInt8.ofNat) (writeAt m 2336 (List.replicate 80 0), 0) = .ok (m', n) ∧
      readB m' 0 2336 = readB m 0 2336 ∧ readB m' 2336 84 = packHint h := by
  have hw' := hw
  unfold wt at hw'
  obtain ⟨m', h1, h2, h3⟩ := hintStepS_ok ok (fun i => (idx (h i)).map UInt8.ofNat) (writeAt m 2336 (List.replicate 80 0)) ho (by
    simp only [List.length_map]; omega)
  refine ⟨m', _, h1, ?_, ?_⟩
  · rw [h2, readB_disj _ _ _ _ _ (by omega)]
  · rw [h3, packHint_eq h hw]
    simp only [List.length_map]
    have : ∀ t, t ≤ 80 → readB (writeAt m 2336 (List.replicate 80 0)) (2336 + t) (80 - t) = List.replicate (80 - t) 0 := by
      intro t ht
      have a := readB_same m 2336 (List.replicate 80 0) 80 List.length_replicate
      rw [show readB (writeAt m 2336 (List.replicate 80 0)) 2336 80 = readB (writeAt m 2336 (List.replicate 80 0)) 2336 t ++
        readB (writeAt m 2336 (List.replicate 80 0)) (2336 + t) (80 - t) by rw [← readB_add, Nat.add_sub_cancel' ht]] at a
      have b := congrArg (List.drop t) a
      rw [drop_pre (by rw [readB_length])] at b
      rw [b, List.drop_replicate]
    rw [this _ hw']
    unfold allIdx wt
    simp only [List.map_append]

end Verif.Avx2
