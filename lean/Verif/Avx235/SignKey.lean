import Verif.Avx235.Sign
import Verif.Avx235.SampleLemmas
import Verif.Avx235.VerifyEq
import Verif.Avx2.SignKey
import Verif.Dilithium35.Toy

/-! # Key generation of dilithium3/avx2 and dilithium5/avx2 -/

namespace Verif.Avx235

open Verif.Dilithium (Shake Poly CSem Q F Bnd res fNtt fNtt_inj std_range caddq_std shake256 shake256_len power2round power2round_eq polyPower2round polyt1Pack polyt0Pack polyt1Pack_len
  polyt0Pack_len)
open Verif.Dilithium.Spec (Rq toRq std IsNtt)
open Verif.Dilithium35 (Mode Vec Mat matrixExpand matrixExpand_bnd polyUniformEta vecUniformEta vecUniformEta_range keypairDet keypair_eq fNtt_matMul forVec_const forVec_some eta_le polyetaPack
  polyetaPack_len packPk packSk)
open Verif.Dilithium35.Spec (matMul tOf)
open Verif.Avx2 (VPoly Junk Mach ti nttC invnttC polyAddV polyCaddqV polyPower2roundV ofP readB writeAt permP invnttC_res' ti_ofP_bnd polyAddV_int polyCaddqV_int polyPower2roundV_int
  readB_length readB_get readB_congr readB_add readB_same readB_disj writeAt_out foldlM_none forVec_intro)

variable {C : CSem} {H : Shake} {md : Mode}

theorem eta4_some {J : Junk} {rp : Bytes} (hl : rp.length = 64) {ns : Fin 4 → UInt16} {q : Nat} (hn : ∀ k, ns k = UInt16.ofNat (4 * q + k.1)) {r : Fin 4 → VPoly}
    (h : polyUniformEta4x md H J rp ns = some r) (n : Nat) (h1 : n / 4 = q) : polyUniformEta md C H rp (UInt16.ofNat n) ≠ none := by
  rw [polyUniformEta4x_eq (C := C) md H J rp hl] at h
  cases hf : Dilithium.forVec fun k => polyUniformEta md C H rp (ns k) with
  | none => rw [hf] at h; cases h
  | some v =>
    have := Dilithium.forVec_some _ _ hf ⟨n % 4, by omega⟩
    rw [hn, show 4 * q + n % 4 = n by omega] at this
    rw [this]
    exact Option.some_ne_none _

theorem eta4_intro (J : Junk) {rp : Bytes} (hl : rp.length = 64) {ns : Fin 4 → UInt16} {q : Nat} (hn : ∀ k, ns k = UInt16.ofNat (4 * q + k.1)) {f : Nat → Poly}
    (h : ∀ k : Fin 4, polyUniformEta md C H rp (UInt16.ofNat (4 * q + k.1)) = some (f (4 * q + k.1))) :
    polyUniformEta4x md H J rp ns = some fun k => ofP (f (4 * q + k.1)) := by
  rw [polyUniformEta4x_eq (C := C) md H J rp hl, forVec_intro _ (fun k => f (4 * q + k.1)) fun k => by rw [hn]; exact h k]
  rfl

theorem ns0 : ∀ k : Fin 4, (![0, 1, 2, 3] : Fin 4 → UInt16) k = UInt16.ofNat (4 * 0 + k.1) := by decide
theorem ns1 : ∀ k : Fin 4, (![4, 5, 6, 7] : Fin 4 → UInt16) k = UInt16.ofNat (4 * 1 + k.1) := by decide
theorem ns2 : ∀ k : Fin 4, (![8, 9, 10, 11] : Fin 4 → UInt16) k = UInt16.ofNat (4 * 2 + k.1) := by decide
theorem ns3 : ∀ k : Fin 4, (![12, 13, 14, 15] : Fin 4 → UInt16) k = UInt16.ofNat (4 * 3 + k.1) := by decide

/-- If the sampling returns, every stream gives a polynomial, that of the unused last polynomial too. -/
theorem sampleS_some {J : Fin 4 → Junk} {rp : Bytes} (hl : rp.length = 64) {s : (Fin md.L → VPoly) × (Fin md.K → VPoly)} (h : sampleS md H J rp = some s) (n : Nat)
    (hn : n ≤ md.L + md.K) : polyUniformEta md C H rp (UInt16.ofNat n) ≠ none := by
  cases md with
  | three =>
    unfold sampleS at h
    simp only [Option.bind_eq_bind, Option.bind_eq_some_iff] at h
    obtain ⟨a, ha, b, hb, c, hc, -⟩ := h
    have hq : n / 4 = 0 ∨ n / 4 = 1 ∨ n / 4 = 2 := by change n ≤ 11 at hn; omega
    rcases hq with hq | hq | hq
    · exact eta4_some hl ns0 ha n hq
    · exact eta4_some hl ns1 hb n hq
    · exact eta4_some hl ns2 hc n hq
  | five =>
    unfold sampleS at h
    simp only [Option.bind_eq_bind, Option.bind_eq_some_iff] at h
    obtain ⟨a, ha, b, hb, c, hc, d, hd, -⟩ := h
    have hq : n / 4 = 0 ∨ n / 4 = 1 ∨ n / 4 = 2 ∨ n / 4 = 3 := by change n ≤ 15 at hn; omega
    rcases hq with hq | hq | hq | hq
    · exact eta4_some hl ns0 ha n hq
    · exact eta4_some hl ns1 hb n hq
    · exact eta4_some hl ns2 hc n hq
    · exact eta4_some hl ns3 hd n hq

theorem sampleS_intro (J : Fin 4 → Junk) {rp : Bytes} (hl : rp.length = 64) {f : Nat → Poly}
    (h : ∀ n, n ≤ md.L + md.K → polyUniformEta md C H rp (UInt16.ofNat n) = some (f n)) :
    sampleS md H J rp = some (fun i => ofP (f i.1), fun i => ofP (f (md.L + i.1))) := by
  cases md with
  | three =>
    unfold sampleS
    rw [eta4_intro (J 0) hl ns0 fun k => h _ (by have := k.2; show _ ≤ 11; omega), eta4_intro (J 1) hl ns1 fun k => h _ (by have := k.2; show _ ≤ 11; omega),
      eta4_intro (J 2) hl ns2 fun k => h _ (by have := k.2; show _ ≤ 11; omega)]
    refine congrArg some (Prod.ext (funext fun i => ?_) (funext fun i => ?_))
    · change Fin 5 at i; fin_cases i <;> rfl
    · change Fin 6 at i; fin_cases i <;> rfl
  | five =>
    unfold sampleS
    rw [eta4_intro (J 0) hl ns0 fun k => h _ (by have := k.2; show _ ≤ 15; omega), eta4_intro (J 1) hl ns1 fun k => h _ (by have := k.2; show _ ≤ 15; omega),
      eta4_intro (J 2) hl ns2 fun k => h _ (by have := k.2; show _ ≤ 15; omega), eta4_intro (J 3) hl ns3 fun k => h _ (by have := k.2; show _ ≤ 15; omega)]
    refine congrArg some (Prod.ext (funext fun i => ?_) (funext fun i => ?_))
    · change Fin 7 at i; fin_cases i <;> rfl
    · change Fin 8 at i; fin_cases i <;> rfl

/-- The sampling of both vectors. -/
theorem sampleS_eq (J : Fin 4 → Junk) {rp : Bytes} (hl : rp.length = 64) {s1 : Vec md.L} {s2 : Vec md.K} (h1 : vecUniformEta md C H md.L rp 0 = some s1)
    (h2 : vecUniformEta md C H md.K rp (UInt16.ofNat md.L) = some s2) (hd : polyUniformEta md C H rp (UInt16.ofNat (md.L + md.K)) ≠ none) :
    sampleS md H J rp = some (fun i => ofP (s1 i), fun i => ofP (s2 i)) := by
  obtain ⟨d, hd⟩ := Option.ne_none_iff_exists'.1 hd
  have key : ∀ n, n ≤ md.L + md.K → polyUniformEta md C H rp (UInt16.ofNat n) =
      some (if h : n < md.L then s1 ⟨n, h⟩ else if h : n - md.L < md.K then s2 ⟨n - md.L, h⟩ else d) := by
    intro n hn
    by_cases c1 : n < md.L
    · rw [dif_pos c1]
      have := forVec_some _ _ _ h1 ⟨n, c1⟩
      rw [UInt16.zero_add] at this
      exact this
    · rw [dif_neg c1]
      by_cases c2 : n - md.L < md.K
      · rw [dif_pos c2]
        have := forVec_some _ _ _ h2 ⟨n - md.L, c2⟩
        rw [← UInt16.ofNat_add, Nat.add_sub_cancel' (by omega)] at this
        exact this
      · rw [dif_neg c2, show n = md.L + md.K by omega, hd]
  rw [sampleS_intro J hl key]
  refine congrArg some (Prod.ext (funext fun i => ?_) (funext fun i => ?_))
  · dsimp only; rw [dif_pos i.2]
  · have := i.2
    dsimp only
    rw [dif_neg (by omega), dif_pos (by omega)]
    congr 2
    exact Fin.ext (Nat.add_sub_cancel_left _ _)

theorem vec_of_streams {rp : Bytes} {J : Fin 4 → Junk} (hl : rp.length = 64) {s : (Fin md.L → VPoly) × (Fin md.K → VPoly)} (h : sampleS md H J rp = some s) :
    ∃ s1 s2, vecUniformEta md C H md.L rp 0 = some s1 ∧ vecUniformEta md C H md.K rp (UInt16.ofNat md.L) = some s2 := by
  have e : ∀ n, n ≤ md.L + md.K → ∃ p, polyUniformEta md C H rp (UInt16.ofNat n) = some p := fun n hn => Option.ne_none_iff_exists'.1 (sampleS_some hl h n hn)
  choose! f hf using e
  refine ⟨fun i => f i.1, fun i => f (md.L + i.1), forVec_const _ _ _ fun i => ?_, forVec_const _ _ _ fun i => ?_⟩
  · rw [UInt16.zero_add]; exact hf _ (by have := i.2; omega)
  · rw [← UInt16.ofNat_add]; exact hf _ (by have := i.2; omega)

/-- A row of the matrix times a transformed vector. -/
theorem rowMul_res (M M1 : Mach) (M' : Fin md.L → Mach) {row : Vec md.L} {v : Fin md.L → VPoly} {B : Int} (hm : ∀ j, Bnd Q (row j)) (hv : ∀ j, Bnd B (ti (v j)))
    (hB : B ≤ Q) :
    fNtt (res (ti (invnttC M1 (pointwiseAccL M (fun j => permP (ofP (row j))) (fun j => nttC (M' j) (v j)))))) = ∑ j, res (row j) * fNtt (res (ti (v j))) ∧
    Bnd 6176131 (ti (invnttC M1 (pointwiseAccL M (fun j => permP (ofP (row j))) (fun j => nttC (M' j) (v j))))) :=
  invnttC_res' M1 (rowAcc_res M M' hm hv hB).2 (rowAcc_res M M' hm hv hB).1

theorem keypairStep_some (J : Fin md.K → RowJunk) (J' : Fin md.K → Fin 2 → Junk) {rho : Bytes} (hr : rho.length = 32) {mat : Mat md} {s1 : Vec md.L} {s2 : Vec md.K}
    {A : Fin md.K → Fin md.L → Rq} (hmat : matrixExpand md C H rho = some mat) (hx : Extra C md H rho) (r1 : ∀ k, Bnd 4 (s1 k)) (r2 : ∀ k, Bnd 4 (s2 k))
    (hA : ∀ i j, IsNtt (A i j) (mat i j)) (M : Fin md.L → Mach) (st : (Nat → UInt8) × (Nat → UInt8)) (i : Fin md.K) :
    keypairStep md C H J J' rho (fun j => nttC (M j) (ofP (s1 j))) (fun j => ofP (s2 j)) st i =
      some (writeAt st.1 (32 + i.1 * 320) (polyt1Pack fun n => (Dilithium.Spec.power2Round (tOf A s1 s2 i n)).1),
        writeAt st.2 (128 + (md.L + md.K) * md.ETABYTES + i.1 * 416) (polyt0Pack C fun n => (Dilithium.Spec.power2Round (tOf A s1 s2 i n)).2)) := by
  have hm := fun j => matrixExpand_bnd hmat i j
  have e1 : ∀ j, ti (ofP (s1 j)) = s1 j := fun j => ti_ofP_bnd (r1 j) (by decide)
  have e2 : ti (ofP (s2 i)) = s2 i := ti_ofP_bnd (r2 i) (by decide)
  have a := rowMul_res (J' i 0).mach (J' i 1).mach M hm (v := fun j => ofP (s1 j)) (B := 4) (fun j => by rw [e1]; exact r1 j) (by decide)
  simp only [e1] at a
  generalize hx : invnttC (J' i 1).mach (pointwiseAccL (J' i 0).mach (fun j => permP (ofP (mat i j))) (fun j => nttC (M j) (ofP (s1 j)))) = x at a
  have hadd : ti (polyAddV x (ofP (s2 i))) = fun n => ti x n + s2 i n := by
    rw [polyAddV_int _ _ fun n => by rw [e2]; have := a.2 n; have := r2 i n; omega, e2]
  have ht : ti (polyCaddqV (polyAddV x (ofP (s2 i)))) = tOf A s1 s2 i := by
    rw [polyCaddqV_int (C := C)]
    refine caddq_std ?_ ?_
    · intro n; rw [hadd]; dsimp only; have := a.2 n; have := r2 i n; simp only [Q]; omega
    · rw [hadd]
      have e : res (ti x) = matMul A (fun j => toRq (s1 j)) i := by
        apply fNtt_inj
        rw [a.1, fNtt_matMul hA]
      rw [← e]
      funext n
      simp only [res, Pi.add_apply, toRq]
      push_cast
      rfl
  have tr : ∀ n, 0 ≤ tOf A s1 s2 i n ∧ tOf A s1 s2 i n < Q := fun n => std_range _ _
  have hp := polyPower2roundV_int (C := C) (polyCaddqV (polyAddV x (ofP (s2 i)))) (by rw [ht]; exact tr)
  rw [ht] at hp
  have p1 : (polyPower2round C (tOf A s1 s2 i)).1 = fun n => (Dilithium.Spec.power2Round (tOf A s1 s2 i n)).1 := by
    funext n
    show (power2round C (tOf A s1 s2 i n)).1 = _
    rw [power2round_eq _ (tr n).1 (tr n).2]
  have p2 : (polyPower2round C (tOf A s1 s2 i)).2 = fun n => (Dilithium.Spec.power2Round (tOf A s1 s2 i n)).2 := by
    funext n
    show (power2round C (tOf A s1 s2 i n)).2 = _
    rw [power2round_eq _ (tr n).1 (tr n).2]
  unfold keypairStep
  rw [rowAlt_some (C := C) _ hr hmat ‹_› i]
  simp only [Option.bind_eq_bind, Option.bind_some, hx]
  rw [hp.1, hp.2, p1, p2]
  rfl

theorem foldlM_pair {α β σ : Type} (l : List σ) (f : α × β → σ → Option (α × β)) (w1 : α → σ → α) (w2 : β → σ → β) (h : ∀ st i, f st i = some (w1 st.1 i, w2 st.2 i))
    (st : α × β) : l.foldlM f st = some (l.foldl w1 st.1, l.foldl w2 st.2) := by
  induction l generalizing st with
  | nil => rfl
  | cons a l ih => rw [List.foldlM_cons, h, Option.bind_eq_bind, Option.bind_some, ih]; rfl

/-- Blocks written at fixed distances. -/
theorem blocksW (n len off : Nat) (b : Fin n → Bytes) (hb : ∀ i, (b i).length = len) (m : Nat → UInt8) :
    readB ((List.finRange n).foldl (fun m i => writeAt m (off + i.1 * len) (b i)) m) off (n * len) = (List.finRange n).flatMap b ∧
    ∀ o k, o + k ≤ off ∨ off + n * len ≤ o → readB ((List.finRange n).foldl (fun m i => writeAt m (off + i.1 * len) (b i)) m) o k = readB m o k := by
  have h := blocks n len off (fun m i => writeAt m (off + i.1 * len) (b i)) b (fun m i => readB_same _ _ _ _ (hb i))
    (fun m i k hk => writeAt_out _ _ _ _ (by rw [hb]; exact hk)) m
  exact ⟨h.1, fun o k hk => readB_congr _ _ _ _ fun j hj => h.2 _ (by omega)⟩

theorem seed_split (seed : Bytes) (hl : seed.length = 128) : ∃ rho rhoprime key, seed = rho ++ rhoprime ++ key ∧ rho.length = 32 ∧ rhoprime.length = 64 ∧ key.length = 32 ∧
    seed.take 32 = rho ∧ (seed.drop 32).take 64 = rhoprime ∧ (seed.drop 96).take 32 = key := by
  refine ⟨seed.take 32, (seed.drop 32).take 64, seed.drop 96, ?_, ?_, ?_, ?_, rfl, rfl, ?_⟩
  · rw [show seed.drop 96 = (seed.drop 32).drop 64 by rw [List.drop_drop], List.append_assoc, List.take_append_drop, List.take_append_drop]
  · rw [List.length_take]; omega
  · rw [List.length_take, List.length_drop]; omega
  · rw [List.length_drop]; omega
  · rw [List.take_of_length_le]; rw [List.length_drop]; omega

/-- The key buffers, read as the portable packings. -/
theorem layout (md : Mode) (mpk msk : Nat → UInt8) (rho key tr : Bytes) (a : Fin md.L → Bytes) (b t1 t0 : Fin md.K → Bytes) (lr : rho.length = 32) (lk : key.length = 32)
    (lt : tr.length = 64) (la : ∀ i, (a i).length = md.ETABYTES) (lb : ∀ i, (b i).length = md.ETABYTES) (l1 : ∀ i, (t1 i).length = 320) (l0 : ∀ i, (t0 i).length = 416) :
    readB ((List.finRange md.K).foldl (fun m i => writeAt m (32 + i.1 * 320) (t1 i)) (writeAt mpk 0 rho)) 0 md.PKLEN = rho ++ (List.finRange md.K).flatMap t1 ∧
    readB (writeAt ((List.finRange md.K).foldl (fun m i => writeAt m (128 + (md.L + md.K) * md.ETABYTES + i.1 * 416) (t0 i))
      ((List.finRange md.K).foldl (fun m i => writeAt m (128 + (md.L + i.1) * md.ETABYTES) (b i))
        ((List.finRange md.L).foldl (fun m i => writeAt m (128 + i.1 * md.ETABYTES) (a i)) (writeAt (writeAt msk 0 rho) 32 key)))) 64 tr) 0 md.SKLEN =
      rho ++ key ++ tr ++ (List.finRange md.L).flatMap a ++ (List.finRange md.K).flatMap b ++ (List.finRange md.K).flatMap t0 := by
  constructor
  · have h := blocksW md.K 320 32 t1 l1 (writeAt mpk 0 rho)
    rw [show md.PKLEN = 32 + md.K * 320 from rfl, readB_add, h.2 0 32 (by omega), Nat.zero_add, h.1, readB_same _ _ _ _ lr]
  · have eS : md.SKLEN = 32 + 32 + 64 + md.L * md.ETABYTES + md.K * md.ETABYTES + md.K * 416 := by unfold Mode.SKLEN; omega
    rw [eS]
    clear eS
    generalize md.ETABYTES = E at *
    simp only [Nat.add_mul, ← Nat.add_assoc]
    have ha := blocksW md.L E 128 a la (writeAt (writeAt msk 0 rho) 32 key)
    generalize (List.finRange md.L).foldl (fun m i => writeAt m (128 + i.1 * E) (a i)) (writeAt (writeAt msk 0 rho) 32 key) = ma at ha ⊢
    have hb := blocksW md.K E (128 + md.L * E) b lb ma
    generalize (List.finRange md.K).foldl (fun m i => writeAt m (128 + md.L * E + i.1 * E) (b i)) ma = mb at hb ⊢
    have h0 := blocksW md.K 416 (128 + md.L * E + md.K * E) t0 l0 mb
    generalize (List.finRange md.K).foldl (fun m i => writeAt m (128 + md.L * E + md.K * E + i.1 * 416) (t0 i)) mb = m0 at h0 ⊢
    rw [readB_add, readB_add, readB_add, readB_add, readB_add]
    simp only [Nat.zero_add, Nat.reduceAdd]
    rw [readB_disj _ _ _ _ 32 (by omega), readB_disj _ 64 tr 32 32 (by omega), readB_same _ 64 _ _ lt, readB_disj _ 64 tr 128 _ (by omega), readB_disj _ 64 tr (128 + md.L * E) _ (by omega),
      readB_disj _ 64 tr (128 + md.L * E + md.K * E) _ (by omega), h0.1, h0.2 _ _ (by omega), h0.2 _ _ (by omega), h0.2 _ _ (by omega), h0.2 _ _ (by omega), hb.1, hb.2 _ _ (by omega),
      hb.2 _ _ (by omega), hb.2 _ _ (by omega), ha.1, ha.2 _ _ (by omega), ha.2 _ _ (by omega), readB_same _ 32 _ _ lk, readB_disj _ _ _ _ _ (by omega), readB_same _ 0 _ _ lr]

/-- **Key generation**: byte for byte the portable key pair, and it returns exactly when all streams it reads give a polynomial. -/
theorem keypairA_iff (J : KeyJunk md) (coins : Bytes) (kp : Bytes × Bytes) : keypairA md C H J coins = some kp ↔ keypairDet md C H coins = some kp ∧
    Extra C md H ((shake256 H 128 (coins.take 32)).take 32) ∧ polyUniformEta md C H (((shake256 H 128 (coins.take 32)).drop 32).take 64) (UInt16.ofNat (md.L + md.K)) ≠ none := by
  have hl : (shake256 H 128 (coins.take 32)).length = 128 := shake256_len _ _
  generalize hs : shake256 H 128 (coins.take 32) = seed at hl
  obtain ⟨rho, rhoprime, key, rfl, lr, lp, lk, e1, e2, e3⟩ := seed_split seed hl
  rw [e1, e2]
  have eqn : ∀ (mat : Mat md) s1 s2, matrixExpand md C H rho = some mat → Extra C md H rho → vecUniformEta md C H md.L rhoprime 0 = some s1 →
      vecUniformEta md C H md.K rhoprime (UInt16.ofNat md.L) = some s2 → polyUniformEta md C H rhoprime (UInt16.ofNat (md.L + md.K)) ≠ none →
      keypairA md C H J coins = keypairDet md C H coins := by
    intro mat s1 s2 hmat hx h1 h2 hd
    choose A hA using fun i => Classical.skolem.1 fun j => Dilithium.exists_isNtt (mat i j)
    have et := eta_le md
    have r1 : ∀ k, Bnd 4 (s1 k) := fun k i => by have := vecUniformEta_range h1 k i; omega
    have r2 : ∀ k, Bnd 4 (s2 k) := fun k i => by have := vecUniformEta_range h2 k i; omega
    have t1 : ∀ k, ti (ofP (s1 k)) = s1 k := fun k => ti_ofP_bnd (r1 k) (by decide)
    have t2 : ∀ k, ti (ofP (s2 k)) = s2 k := fun k => ti_ofP_bnd (r2 k) (by decide)
    rw [keypair_eq (C := C) (H := H) rho rhoprime key hs lr lp lk hmat h1 h2 hA]
    unfold keypairA
    dsimp only
    rw [hs, e1, e2, e3, sampleS_eq (C := C) J.eta lp h1 h2 hd]
    simp only [Option.bind_eq_bind, Option.bind_some, t1, t2]
    rw [foldlM_pair _ _ (fun m i => writeAt m (32 + i.1 * 320) (polyt1Pack fun n => (Dilithium.Spec.power2Round (tOf A s1 s2 i n)).1))
      (fun m i => writeAt m (128 + (md.L + md.K) * md.ETABYTES + i.1 * 416) (polyt0Pack C fun n => (Dilithium.Spec.power2Round (tOf A s1 s2 i n)).2)) (fun st i => keypairStep_some (C := C) J.row J.step lr hmat hx r1 r2 hA (fun i => (J.s1 i).mach) st i)]
    rw [Option.bind_some]
    have lay := fun tr (lt : tr.length = 64) => layout md J.pk J.sk rho key tr (fun i => polyetaPack md C (s1 i)) (fun i => polyetaPack md C (s2 i))
      (fun i => polyt1Pack fun n => (Dilithium.Spec.power2Round (tOf A s1 s2 i n)).1) (fun i => polyt0Pack C fun n => (Dilithium.Spec.power2Round (tOf A s1 s2 i n)).2)
      lr lk lt (fun i => polyetaPack_len md _) (fun i => polyetaPack_len md _) (fun i => polyt1Pack_len _) (fun i => polyt0Pack_len _)
    dsimp only at lay ⊢
    rw [(lay _ (shake256_len (H := H) 64 [])).1, (lay _ (shake256_len 64 _)).2]
    unfold packSk packPk
    dsimp only
    rw [List.take_of_length_le (l := rho) (by omega), List.take_of_length_le (l := key) (by omega), List.take_of_length_le (by rw [shake256_len])]
    rfl
  constructor
  · intro h
    have h' := h
    unfold keypairA at h'
    dsimp only at h'
    rw [hs, e1, e2, e3] at h'
    simp only [Option.bind_eq_bind, Option.bind_eq_some_iff] at h'
    obtain ⟨s, hsm, st, hst, -⟩ := h'
    obtain ⟨s1, s2, h1, h2⟩ := vec_of_streams (C := C) lp hsm
    have hd := sampleS_some (C := C) lp hsm (md.L + md.K) le_rfl
    have hx : Extra C md H rho := by
      by_contra hx
      obtain ⟨i, hi⟩ := rowAlt_none' J.row lr hx
      rw [foldlM_none (i := i) (List.mem_finRange i) (fun st => by unfold keypairStep; rw [hi]; rfl)] at hst
      cases hst
    obtain ⟨mat, hmat⟩ := mat_of_extra hx
    exact ⟨(eqn mat s1 s2 hmat hx h1 h2 hd).symm.trans h, hx, hd⟩
  · rintro ⟨h, hx, hd⟩
    have h' := h
    unfold keypairDet at h'
    dsimp only at h'
    rw [hs, e1, e2, e3] at h'
    simp only [Option.bind_eq_bind, Option.bind_eq_some_iff] at h'
    obtain ⟨mat, hmat, s1, h1, s2, h2, -⟩ := h'
    rw [eqn mat s1 s2 hmat hx h1 h2 hd, h]

end Verif.Avx235
