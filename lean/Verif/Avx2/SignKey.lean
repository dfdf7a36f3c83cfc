import Verif.Avx2.SignArith

/-! # The AVX2 key generation produces the portable key pair -/

namespace Verif.Avx2

open Verif.Dilithium
open Verif.Dilithium.Spec (Rq toRq std IsNtt matMul)

variable {C : CSem} {H : Shake}

theorem finRange4 : List.finRange 4 = [0, 1, 2, 3] := rfl

theorem foldlM_none {σ α : Type} {f : σ → α → Option σ} {l : List α} {i : α} (hi : i ∈ l) (h : ∀ s, f s i = none) (s : σ) : l.foldlM f s = none := by
  induction l generalizing s with
  | nil => cases hi
  | cons a l ih =>
    rw [List.foldlM_cons]
    rcases List.mem_cons.1 hi with rfl | hi
    · rw [h]; rfl
    · cases f s a with
      | none => rfl
      | some t => exact ih hi t

theorem etaNonce (rhoprime : Bytes) (hl : rhoprime.length = 64) (J : Junk) :
    polyUniformEta4x H J rhoprime ![0, 1, 2, 3] = (vecUniformEta C H rhoprime 0).map (fun v k => ofP (v k)) ∧
    polyUniformEta4x H J rhoprime ![4, 5, 6, 7] = (vecUniformEta C H rhoprime 4).map (fun v k => ofP (v k)) := by
  constructor
  · rw [polyUniformEta4x_eq (C := C) H J rhoprime hl]
    have : ∀ k : Fin 4, (![0, 1, 2, 3] : Fin 4 → UInt16) k = 0 + UInt16.ofNat k.1 := by decide
    unfold vecUniformEta
    simp only [this]
  · rw [polyUniformEta4x_eq (C := C) H J rhoprime hl]
    have : ∀ k : Fin 4, (![4, 5, 6, 7] : Fin 4 → UInt16) k = 4 + UInt16.ofNat k.1 := by decide
    unfold vecUniformEta
    simp only [this]

theorem keypairStep_some (J : Fin 4 → Fin 10 → Junk) {rho : Bytes} (hr : rho.length = 32) {mat : Mat} {s1 s2 : Vec} {A : Fin 4 → Fin 4 → Rq}
    (hmat : matrixExpand C H rho = some mat) (r1 : ∀ k, Bnd 2 (s1 k)) (r2 : ∀ k, Bnd 2 (s2 k)) (hA : ∀ i j, IsNtt (A i j) (mat i j)) (M : Fin 4 → Mach)
    (st : (Nat → UInt8) × (Nat → UInt8)) (i : Fin 4) :
    keypairStep C H J rho (fun j => nttC (M j) (ofP (s1 j))) (fun j => ofP (s2 j)) st i =
      some (writeAt st.1 (32 + i.1 * 320) (polyt1Pack fun n => (Spec.power2Round (Spec.tOf A s1 s2 i n)).1),
        writeAt st.2 (128 + 8 * 96 + i.1 * 416) (polyt0Pack C fun n => (Spec.power2Round (Spec.tOf A s1 s2 i n)).2)) := by
  have hm := fun j => matrixExpand_bnd hmat i j
  have e1 : ∀ j, ti (ofP (s1 j)) = s1 j := fun j => ti_ofP_bnd (r1 j) (by decide)
  have e2 : ti (ofP (s2 i)) = s2 i := ti_ofP_bnd (r2 i) (by decide)
  have a := rowMul_res (J i 5).mach (J i 6).mach M hm (v := fun j => ofP (s1 j)) (B := 2) (fun j => by rw [e1]; exact r1 j) (by decide)
  simp only [e1] at a
  generalize hx : invnttC (J i 6).mach (pointwiseAccC (J i 5).mach (fun j => permP (ofP (mat i j))) (fun j => nttC (M j) (ofP (s1 j)))) = x at a
  have hadd : ti (polyAddV x (ofP (s2 i))) = fun n => ti x n + s2 i n := by
    rw [polyAddV_int _ _ fun n => by rw [e2]; have := a.2 n; have := r2 i n; omega, e2]
  have ht : ti (polyCaddqV (polyAddV x (ofP (s2 i)))) = Spec.tOf A s1 s2 i := by
    rw [polyCaddqV_int (C := C)]
    refine caddq_std ?_ ?_
    · intro n; rw [hadd]; dsimp only; have := a.2 n; have := r2 i n; simp only [Q]; omega
    · rw [hadd]
      have e : res (ti x) = matMul A (fun j => toRq (s1 j)) i := by
        apply fNtt_inj
        rw [a.1, fNtt_matMul hA]
      rw [← e]
      funext n
      simp only [res, Pi.add_apply, toRq]
      push_cast
      rfl
  have tr : ∀ n, 0 ≤ Spec.tOf A s1 s2 i n ∧ Spec.tOf A s1 s2 i n < Q := fun n => std_range _ _
  have hp := polyPower2roundV_int (C := C) (polyCaddqV (polyAddV x (ofP (s2 i)))) (by rw [ht]; exact tr)
  rw [ht] at hp
  have p1 : (polyPower2round C (Spec.tOf A s1 s2 i)).1 = fun n => (Spec.power2Round (Spec.tOf A s1 s2 i n)).1 := by
    funext n
    show (power2round C (Spec.tOf A s1 s2 i n)).1 = _
    rw [power2round_eq _ (tr n).1 (tr n).2]
  have p2 : (polyPower2round C (Spec.tOf A s1 s2 i)).2 = fun n => (Spec.power2Round (Spec.tOf A s1 s2 i n)).2 := by
    funext n
    show (power2round C (Spec.tOf A s1 s2 i n)).2 = _
    rw [power2round_eq _ (tr n).1 (tr n).2]
  unfold keypairStep
  rw [expandRow_some (C := C) _ hr hmat i]
  simp only [Option.bind_eq_bind, Option.bind_some, hx]
  rw [hp.1, hp.2, p1, p2]
  rfl

theorem layoutPk (m : Nat → UInt8) (rho p0 p1 p2 p3 : Bytes) (lr : rho.length = 32) (l0 : p0.length = 320) (l1 : p1.length = 320) (l2 : p2.length = 320)
    (l3 : p3.length = 320) :
    readB (writeAt (writeAt (writeAt (writeAt (writeAt m 0 rho) 32 p0) 352 p1) 672 p2) 992 p3) 0 1312 = rho ++ (p0 ++ (p1 ++ (p2 ++ p3))) := by
  rw [show 1312 = 32 + (320 + (320 + (320 + 320))) from rfl, readB_add, readB_add, readB_add, readB_add]
  simp only [Nat.zero_add, Nat.reduceAdd]
  simp only [readB_disj, readB_same, lr, l0, l1, l2, l3, Nat.reduceAdd, Nat.reduceLeDiff, true_or, Nat.zero_add]

theorem layoutSk (m : Nat → UInt8) (rho key tr a0 a1 a2 a3 b0 b1 b2 b3 c0 c1 c2 c3 : Bytes) (lr : rho.length = 32) (lk : key.length = 32)
    (lt : tr.length = 64) (la0 : a0.length = 96) (la1 : a1.length = 96) (la2 : a2.length = 96) (la3 : a3.length = 96)
    (lb0 : b0.length = 96) (lb1 : b1.length = 96) (lb2 : b2.length = 96) (lb3 : b3.length = 96)
    (lc0 : c0.length = 416) (lc1 : c1.length = 416) (lc2 : c2.length = 416) (lc3 : c3.length = 416) :
    readB (writeAt (writeAt (writeAt (writeAt (writeAt (writeAt (writeAt (writeAt (writeAt (writeAt (writeAt (writeAt (writeAt (writeAt (writeAt m
      0 rho) 32 key) 128 a0) 224 a1) 320 a2) 416 a3) 512 b0) 608 b1) 704 b2) 800 b3) 896 c0) 1312 c1) 1728 c2) 2144 c3) 64 tr) 0 2560 =
      rho ++ (key ++ (tr ++ (a0 ++ (a1 ++ (a2 ++ (a3 ++ (b0 ++ (b1 ++ (b2 ++ (b3 ++ (c0 ++ (c1 ++ (c2 ++ c3))))))))))))) := by
  rw [show 2560 = 32 + (32 + (64 + (96 + (96 + (96 + (96 + (96 + (96 + (96 + (96 + (416 + (416 + (416 + 416))))))))))))) from rfl]
  simp only [readB_add]
  simp only [Nat.zero_add, Nat.reduceAdd]
  simp only [readB_disj, readB_same, lr, lk, lt, la0, la1, la2, la3, lb0, lb1, lb2, lb3, lc0, lc1, lc2, lc3, Nat.reduceAdd, Nat.reduceLeDiff, true_or,
    or_true, Nat.zero_add]

/-- **Key generation**: byte for byte the portable key pair, for the same coins. -/
theorem keypairA_eq (J : Fin 8 → Junk) (J' : Fin 4 → Fin 10 → Junk) (coins : Bytes) : keypairA C H J J' coins = keypairDet C H coins := by
  have hl : (shake256 H 128 (coins.take 32)).length = 128 := shake256_len _ _
  generalize hs : shake256 H 128 (coins.take 32) = seed at hl
  obtain ⟨rho, rhoprime, key, rfl, lr, lp, lk⟩ : ∃ rho rhoprime key, seed = rho ++ rhoprime ++ key ∧ rho.length = 32 ∧ rhoprime.length = 64 ∧ key.length = 32 := by
    refine ⟨seed.take 32, (seed.drop 32).take 64, seed.drop 96, ?_, ?_, ?_, ?_⟩
    · rw [show seed.drop 96 = (seed.drop 32).drop 64 by rw [List.drop_drop], List.append_assoc, List.take_append_drop, List.take_append_drop]
    · rw [List.length_take]; omega
    · rw [List.length_take, List.length_drop]; omega
    · rw [List.length_drop]; omega
  have e1 : (rho ++ rhoprime ++ key).take 32 = rho := by rw [List.append_assoc, ← lr]; exact List.take_left
  have e2 : ((rho ++ rhoprime ++ key).drop 32).take 64 = rhoprime := by
    rw [List.append_assoc, drop_pre lr.symm, ← lp]; exact List.take_left
  have e3 : ((rho ++ rhoprime ++ key).drop 96).take 32 = key := by
    rw [drop_pre (by rw [List.length_append]; omega), List.take_of_length_le (by omega)]
  unfold keypairA
  simp only [hs, e1, e2, e3, (etaNonce (C := C) (H := H) rhoprime lp _).1, (etaNonce (C := C) (H := H) rhoprime lp _).2]
  cases h1 : vecUniformEta C H rhoprime 0 with
  | none =>
    unfold keypairDet
    simp only [hs, e1, e2, e3, h1, Option.map_none, Option.bind_eq_bind, Option.bind_none]
    cases matrixExpand C H rho <;> rfl
  | some s1 =>
  cases h2 : vecUniformEta C H rhoprime 4 with
  | none =>
    unfold keypairDet
    simp only [hs, e1, e2, e3, h1, h2, Option.map_some, Option.bind_some, Option.map_none, Option.bind_eq_bind, Option.bind_none]
    cases matrixExpand C H rho <;> rfl
  | some s2 =>
  simp only [Option.map_some, Option.bind_eq_bind, Option.bind_some]
  cases hmat : matrixExpand C H rho with
  | none =>
    obtain ⟨i, hi⟩ := expandRow_none (C := C) (fun i n => J' i (n.castLE (by omega))) lr hmat
    rw [foldlM_none (i := i) (List.mem_finRange i) (fun st => by unfold keypairStep; rw [hi]; rfl)]
    unfold keypairDet
    simp only [hs, e1, e2, e3, hmat, Option.bind_eq_bind, Option.bind_none]
  | some mat =>
  choose A hA using fun i => Classical.skolem.1 fun j => exists_isNtt (mat i j)
  have r1 : ∀ k, Bnd 2 (s1 k) := fun k i => vecUniformEta_range h1 k i
  have r2 : ∀ k, Bnd 2 (s2 k) := fun k i => vecUniformEta_range h2 k i
  have t1 : ∀ k, ti (ofP (s1 k)) = s1 k := fun k => ti_ofP_bnd (r1 k) (by decide)
  have t2 : ∀ k, ti (ofP (s2 k)) = s2 k := fun k => ti_ofP_bnd (r2 k) (by decide)
  rw [keypair_eq (C := C) (H := H) rho rhoprime key hs lr lp lk hmat h1 h2 hA]
  simp only [finRange4, List.foldlM_cons, List.foldlM_nil, keypairStep_some (C := C) J' lr hmat r1 r2 hA, Option.bind_eq_bind, Option.bind_some,
    List.foldl_cons, List.foldl_nil, t1, t2, Option.pure_def, show (0 : Fin 4).1 = 0 from rfl, show (1 : Fin 4).1 = 1 from rfl,
    show (2 : Fin 4).1 = 2 from rfl, show (3 : Fin 4).1 = 3 from rfl, Nat.reduceMul, Nat.reduceAdd, Nat.add_zero, Nat.zero_mul]
  have hpk := layoutPk (J 0).bytes rho (polyt1Pack fun n => (Spec.power2Round (Spec.tOf A s1 s2 0 n)).1)
    (polyt1Pack fun n => (Spec.power2Round (Spec.tOf A s1 s2 1 n)).1) (polyt1Pack fun n => (Spec.power2Round (Spec.tOf A s1 s2 2 n)).1)
    (polyt1Pack fun n => (Spec.power2Round (Spec.tOf A s1 s2 3 n)).1) lr (polyt1Pack_len _) (polyt1Pack_len _) (polyt1Pack_len _) (polyt1Pack_len _)
  have hpk' := hpk.trans (b := _) (c := packPk rho (fun k i => (Spec.power2Round (Spec.tOf A s1 s2 k i)).1)) (by
    unfold packPk
    rw [List.take_of_length_le (by omega)]
    simp only [finRange4, List.flatMap_cons, List.flatMap_nil, List.append_nil])
  rw [← hpk']
  refine congrArg some (Prod.ext rfl ?_)
  have hsk := layoutSk (J 1).bytes rho key (shake256 H 64 (packPk rho (fun k i => (Spec.power2Round (Spec.tOf A s1 s2 k i)).1)))
    (polyetaPack C (s1 0)) (polyetaPack C (s1 1)) (polyetaPack C (s1 2)) (polyetaPack C (s1 3))
    (polyetaPack C (s2 0)) (polyetaPack C (s2 1)) (polyetaPack C (s2 2)) (polyetaPack C (s2 3))
    (polyt0Pack C fun n => (Spec.power2Round (Spec.tOf A s1 s2 0 n)).2) (polyt0Pack C fun n => (Spec.power2Round (Spec.tOf A s1 s2 1 n)).2)
    (polyt0Pack C fun n => (Spec.power2Round (Spec.tOf A s1 s2 2 n)).2) (polyt0Pack C fun n => (Spec.power2Round (Spec.tOf A s1 s2 3 n)).2)
    lr lk (shake256_len _ _) (polyetaPack_len _) (polyetaPack_len _) (polyetaPack_len _) (polyetaPack_len _) (polyetaPack_len _) (polyetaPack_len _)
    (polyetaPack_len _) (polyetaPack_len _) (polyt0Pack_len _) (polyt0Pack_len _) (polyt0Pack_len _) (polyt0Pack_len _)
  rw [← hpk'] at hsk
  rw [hsk, hpk']
  unfold packSk
  dsimp only
  rw [List.take_of_length_le (l := rho) (by omega), List.take_of_length_le (l := key) (by omega), List.take_of_length_le (by rw [shake256_len])]
  simp only [finRange4, List.flatMap_cons, List.flatMap_nil, List.append_nil, List.append_assoc]

end Verif.Avx2
