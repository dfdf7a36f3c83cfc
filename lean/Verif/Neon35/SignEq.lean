import Verif.Neon35.SignArith

/-! # The aarch64 code of dilithium3 and dilithium5 returns what the portable code returns -/

namespace Verif.Neon35

open Verif.Neon (Mach nttP invnttP reduceP caddqP pointwiseP pointwiseP' power2roundP t1UnpackP nttP_res invnttP_res reduceP_eq caddqP_eq pointwiseP'_eq power2roundP_eq)
open Verif.Avx2 (VPoly ti ofP ti_ofP ti_ofP_bnd)
open Verif.Dilithium.Spec (std)
open Verif.Dilithium (CSem Shake Poly Q F res fNtt fNtt_inj Rinv Bnd polyReduce polyReduce_res polyInvntt polyInvntt_res polyInvntt_tight polyNtt polyNtt_res polyAdd polyAdd_res polyAdd_eq
  polySub polySub_res polySub_eq polyCaddq polyCaddq_res polyPointwise polyPointwise_res polyShiftl polyPower2round res_shiftl caddq_std strict_bnd dvd_of_res reduce32 reduce32_center
  negaMul_bnd chal_bnd shake256 polyt0Unpack_range polyt1Unpack polyt1Unpack_range)
open Verif.Dilithium35

variable {md : Mode} {C : CSem} {H : Shake} {M : Mach}

/-- `A·v + e` as a standard representative. -/
theorem commit_eq {mat : Mat md} {v : Vec md.L} (hm : ∀ i j, Bnd Q (mat i j)) (hv : ∀ j, Bnd GAMMA1 (v j)) :
    vecCaddqP M (vecInvnttP M (vecReduceP M (matrixPointwiseP md M mat (vecNttP M v)))) = vecCaddq C (vecInvntt C (vecReduce C (matrixPointwise md C mat (vecNtt C v)))) := by
  funext k
  have a := matVec_resP (M := M) hm hv (by decide) k
  have p := Dilithium35.matVec_res (C := C) hm hv (by decide) k
  have b := polyReduce_res (C := C) p.2 (by decide)
  have c := polyInvntt_res (C := C) (b.2.mono (by decide)) (b.1.trans p.1)
  have e1 : caddqP M (vecInvnttP M (vecReduceP M (matrixPointwiseP md M mat (vecNttP M v))) k) = std (res (vecInvntt C (vecReduce C (matrixPointwise md C mat (vecNtt C v))) k)) := by
    rw [caddqP_eq (C := C) a.2 (by decide)]
    refine caddq_std (fun i => by have := a.2 i; simp only [Q]; omega) ?_
    apply fNtt_inj
    rw [a.1]
    exact c.1.symm
  exact e1.trans (caddq_std c.2 rfl).symm

theorem keyVec_eq {mat : Mat md} {v : Vec md.L} {e : Vec md.K} (hm : ∀ i j, Bnd Q (mat i j)) (hv : ∀ j, Bnd 4 (v j)) (he : ∀ j, Bnd 4 (e j)) :
    vecCaddqP M (vecAdd C (vecInvnttP M (vecReduceP M (matrixPointwiseP md M mat (vecNttP M v)))) e) =
      vecCaddq C (vecAdd C (vecInvntt C (vecReduce C (matrixPointwise md C mat (vecNtt C v)))) e) := by
  funext k
  have a := matVec_resP (M := M) hm hv (by decide) k
  have p := Dilithium35.matVec_res (C := C) hm hv (by decide) k
  have b := polyReduce_res (C := C) p.2 (by decide)
  have c := polyInvntt_res (C := C) (b.2.mono (by decide)) (b.1.trans p.1)
  have c' := polyInvntt_tight (C := C) (b.2.mono (by decide)) (b.1.trans p.1)
  have d := polyAdd_res (C := C) c' (he k) (by decide)
  have d' := polyAdd_res (C := C) a.2 (he k) (by decide)
  have er : res (vecInvnttP M (vecReduceP M (matrixPointwiseP md M mat (vecNttP M v))) k) = res (polyInvntt C (polyReduce C (matrixPointwise md C mat (vecNtt C v) k))) := by
    apply fNtt_inj
    rw [a.1]
    exact c.1.symm
  have e1 : caddqP M (polyAdd C (vecInvnttP M (vecReduceP M (matrixPointwiseP md M mat (vecNttP M v))) k) (e k)) =
      std (res (polyAdd C (polyInvntt C (polyReduce C (matrixPointwise md C mat (vecNtt C v) k))) (e k))) := by
    rw [caddqP_eq (C := C) d'.2 (by decide)]
    refine caddq_std (fun i => by have := d'.2 i; simp only [Q]; omega) ?_
    rw [d'.1, d.1, er]
  refine e1.trans (caddq_std (fun i => ?_) rfl).symm
  have := d.2 i; simp only [Q]; omega

/-- Two representatives of a small polynomial, plus a small one: the reductions are equal. -/
theorem redAdd {P P' y e : Poly} (hy : Bnd 600000 y) (hP : Bnd 4190209 P) (hP' : Bnd Q P') (r : res P = res e) (r' : res P' = res e) (he : Bnd 600000 e) :
    reduceP M (polyAdd C P y) = polyReduce C (polyAdd C P' y) := by
  have key : ∀ X : Poly, Bnd Q X → res X = res e → polyReduce C (polyAdd C X y) = fun i => e i + y i := by
    intro X hX rX
    funext n
    have hdv := dvd_of_res rX n
    have b1 := he n
    have b2 := hy n
    have b3 := hX n
    show reduce32 C (polyAdd C X y n) = _
    rw [polyAdd_eq (C := C) hX hy (by decide) n]
    refine reduce32_center _ _ ?_ ?_ ?_
    · obtain ⟨t, ht⟩ := hdv
      exact ⟨t, by omega⟩
    · omega
    · simp only [Q] at *; omega
  rw [reduceP_eq (C := C) (polyAdd_res (C := C) hP hy (by decide)).2 (by decide), key P (hP.mono (by decide)) r, key P' hP' r']

theorem redSub {P P' y e : Poly} (hy : Bnd 600000 y) (hP : Bnd 4190209 P) (hP' : Bnd Q P') (r : res P = res e) (r' : res P' = res e) (he : Bnd 600000 e) :
    reduceP M (polySub C y P) = polyReduce C (polySub C y P') := by
  have key : ∀ X : Poly, Bnd Q X → res X = res e → polyReduce C (polySub C y X) = fun i => y i - e i := by
    intro X hX rX
    funext n
    have hdv := dvd_of_res rX n
    have b1 := he n
    have b2 := hy n
    have b3 := hX n
    show reduce32 C (polySub C y X n) = _
    rw [polySub_eq (C := C) hy hX (by decide) n]
    refine reduce32_center _ _ ?_ ?_ ?_
    · obtain ⟨t, ht⟩ := hdv
      exact ⟨-t, by simp only [Q] at *; omega⟩
    · omega
    · simp only [Q] at *; omega
  rw [reduceP_eq (C := C) (polySub_res (C := C) hy hP (by decide)).2 (by decide), key P (hP.mono (by decide)) r, key P' hP' r']

theorem redOnly {P P' e : Poly} (hP : Bnd 4190209 P) (hP' : Bnd Q P') (r : res P = res e) (r' : res P' = res e) (he : Bnd 600000 e) :
    reduceP M P = polyReduce C P' := by
  have key : ∀ X : Poly, Bnd Q X → res X = res e → polyReduce C X = e := by
    intro X hX rX
    funext n
    have hdv := dvd_of_res rX n
    have b1 := he n
    have b3 := hX n
    show reduce32 C (X n) = _
    refine reduce32_center _ _ hdv ?_ ?_
    · omega
    · simp only [Q] at *; omega
  rw [reduceP_eq (C := C) hP (by decide), key P (hP.mono (by decide)) r, key P' hP' r']

/-- One pass of the signing loop. -/
theorem signAttemptN_eq {mu rhoprime : Bytes} {mat : Mat md} {s1 : Vec md.L} {s2 t0 : Vec md.K} (nonce : UInt16) (hm : ∀ i j, Bnd Q (mat i j))
    (h1 : ∀ k, Bnd 11 (s1 k)) (h2 : ∀ k, Bnd 11 (s2 k)) (h0 : ∀ k, Bnd 4096 (t0 k)) :
    signAttemptN md C H M ⟨mu, rhoprime, mat, vecNttP M s1, vecNttP M s2, vecNttP M t0⟩ nonce =
    signAttempt md C H ⟨mu, rhoprime, mat, vecNtt C s1, vecNtt C s2, vecNtt C t0⟩ nonce := by
  unfold signAttemptN signAttempt
  simp only [vecUniformGamma1N_eq]
  have hy : ∀ k i, -GAMMA1 < vecUniformGamma1 md C H rhoprime nonce k i ∧ vecUniformGamma1 md C H rhoprime nonce k i ≤ GAMMA1 :=
    fun k i => vecUniformGamma1_range (C := C) (H := H) rhoprime nonce k i
  generalize vecUniformGamma1 md C H rhoprime nonce = y at *
  have hyB : ∀ k, Bnd GAMMA1 (y k) := fun k i => by have := hy k i; omega
  simp only [commit_eq (C := C) (M := M) hm hyB]
  have hwr : ∀ k i, 0 ≤ vecCaddq C (vecInvntt C (vecReduce C (matrixPointwise md C mat (vecNtt C y)))) k i ∧
      vecCaddq C (vecInvntt C (vecReduce C (matrixPointwise md C mat (vecNtt C y)))) k i < Q := by
    intro k
    have p := Dilithium35.matVec_res (C := C) hm hyB (by decide) k
    have b := polyReduce_res (C := C) p.2 (by decide)
    have c := polyInvntt_res (C := C) (b.2.mono (by decide)) (b.1.trans p.1)
    exact (polyCaddq_res (C := C) c.2).2
  generalize vecCaddq C (vecInvntt C (vecReduce C (matrixPointwise md C mat (vecNtt C y)))) = w at *
  have hlow : ∀ k, Bnd 600000 ((vecDecompose C w).2 k) := by
    intro k i
    show -600000 ≤ (decompose C (w k i)).2 ∧ (decompose C (w k i)).2 ≤ 600000
    rw [decompose_eq _ (hwr k i).1 (hwr k i).2]
    have := spec_lowBits_range _ (hwr k i).1 (hwr k i).2
    unfold Spec.lowBits at this
    simp only [GAMMA2] at this
    omega
  generalize vecDecompose C w = d at *
  obtain ⟨w1, w0⟩ := d
  dsimp only at hlow ⊢
  simp only [Option.bind_eq_bind]
  cases hcp : polyChallenge md C H (shake256 H md.CTILDE (mu ++ vecPackW1 w1)) with
  | none => rw [Option.bind_none, Option.bind_none]
  | some cp =>
  obtain ⟨hct, hcc⟩ := polyChallenge_spec md H _ cp hcp
  have hcB := chal_bnd hct
  have mulB : ∀ {n : Nat} (s : Vec n) (B : Int), (∀ k, Bnd B (s k)) → ∀ k i, -((md.TAU : Int) * B) ≤ negaMul cp (s k) i ∧ negaMul cp (s k) i ≤ (md.TAU : Int) * B := by
    intro n s B hs k i
    have := negaMul_bnd cp (s k) B hct (hs k) i
    rw [hcc] at this
    exact this
  have ez : vecReduceP M (vecAdd C (vecInvnttP M (vecPointwisePolyP M (nttP M cp) (vecNttP M s1))) y) =
      vecReduce C (vecAdd C (vecInvntt C (vecPointwisePoly C (polyNtt C cp) (vecNtt C s1))) y) := by
    funext k
    have a := chalMul_res (M := M) hcB (fun k => (h1 k).mono (by decide)) k
    have b := strict_bnd (chal_mul (C := C) hcB h1 (by decide) (by decide) k).2
    exact redAdd ((hyB k).mono (by decide)) a.2 b a.1 (chal_mul_res (C := C) hcB h1 (by decide) (by decide) k) (fun i => by have := tau_le60 md; have := mulB s1 11 h1 k i; omega)
  have er : vecReduceP M (vecSub C w0 (vecInvnttP M (vecPointwisePolyP M (nttP M cp) (vecNttP M s2)))) =
      vecReduce C (vecSub C w0 (vecInvntt C (vecPointwisePoly C (polyNtt C cp) (vecNtt C s2)))) := by
    funext k
    have a := chalMul_res (M := M) hcB (fun k => (h2 k).mono (by decide)) k
    have b := strict_bnd (chal_mul (C := C) hcB h2 (by decide) (by decide) k).2
    exact redSub (hlow k) a.2 b a.1 (chal_mul_res (C := C) hcB h2 (by decide) (by decide) k) (fun i => by have := tau_le60 md; have := mulB s2 11 h2 k i; omega)
  have et : vecReduceP M (vecInvnttP M (vecPointwisePolyP M (nttP M cp) (vecNttP M t0))) =
      vecReduce C (vecInvntt C (vecPointwisePoly C (polyNtt C cp) (vecNtt C t0))) := by
    funext k
    have a := chalMul_res (M := M) hcB (fun k => (h0 k).mono (by decide)) k
    have b := strict_bnd (chal_mul (C := C) hcB h0 (by decide) (by decide) k).2
    exact redOnly a.2 b a.1 (chal_mul_res (C := C) hcB h0 (by decide) (by decide) k) (fun i => by have := tau_le60 md; have := mulB t0 4096 h0 k i; omega)
  rw [Option.bind_some, Option.bind_some]
  simp only [ez, er, et]

theorem signLoopN_eq {x x' : SignCtx md} (h : ∀ n, signAttemptN md C H M x n = signAttempt md C H x' n) (n : UInt16) : signLoopN md C H M x n = signLoop md C H x' n := by
  apply Option.ext
  intro sig
  constructor
  · intro hs
    refine signLoopN.partial_correctness md C H M x (motive := fun n sig => signLoop md C H x' n = some sig) ?_ n sig hs
    intro f ih n sig hf
    rw [h] at hf
    rw [signLoop.eq_def]
    cases hc : signAttempt md C H x' n with
    | none => rw [hc] at hf; cases hf
    | some o =>
      rw [hc] at hf
      cases o with
      | none => exact ih _ _ hf
      | some s => exact hf
  · intro hs
    refine signLoop.partial_correctness md C H x' (motive := fun n sig => signLoopN md C H M x n = some sig) ?_ n sig hs
    intro f ih n sig hf
    rw [signLoopN.eq_def, h]
    cases hc : signAttempt md C H x' n with
    | none => rw [hc] at hf; cases hf
    | some o =>
      rw [hc] at hf
      cases o with
      | none => exact ih _ _ hf
      | some s => exact hf

/-- Signing, for every string as secret key. -/
theorem signatureN_eq (m sk : Bytes) (h6 : SixBlocksMat md H (sk.take 32)) : signatureN md C H M m sk = signature md C H m sk := by
  have e6 : matrixExpandN md C H (unpackSk md C sk).rho = matrixExpand md C H (unpackSk md C sk).rho := matrixExpandN_eq h6
  unfold signatureN signature signCtxN signCtx
  have hb := etaMin_bnd md
  have b1 : ∀ k, Bnd 11 ((unpackSk md C sk).s1 k) := fun k i => by
    have := polyetaUnpack_range (C := C) md (sk.drop (128 + k.1 * md.ETABYTES)) i
    exact ⟨le_trans hb.1 this.1, le_trans this.2 hb.2⟩
  have b2 : ∀ k, Bnd 11 ((unpackSk md C sk).s2 k) := fun k i => by
    have := polyetaUnpack_range (C := C) md (sk.drop (128 + md.L * md.ETABYTES + k.1 * md.ETABYTES)) i
    exact ⟨le_trans hb.1 this.1, le_trans this.2 hb.2⟩
  have b0 : ∀ k, Bnd 4096 ((unpackSk md C sk).t0 k) := fun k i => by
    have := polyt0Unpack_range (C := C) (sk.drop (128 + md.L * md.ETABYTES + md.K * md.ETABYTES + k.1 * 416)) i
    exact ⟨le_of_lt this.1, this.2⟩
  generalize unpackSk md C sk = f at *
  dsimp only
  rw [e6]
  simp only [Option.bind_eq_bind]
  cases hmat : matrixExpand md C H f.rho with
  | none => rw [Option.bind_none, Option.bind_none, Option.bind_none, Option.bind_none]
  | some mat =>
    rw [Option.bind_some, Option.bind_some, Option.pure_def, Option.bind_some, Option.bind_some]
    exact signLoopN_eq (fun n => signAttemptN_eq n (matrixExpand_bnd hmat) b1 b2 b0) 0

theorem cryptoSignN_eq (m sk : Bytes) (h6 : SixBlocksMat md H (sk.take 32)) : cryptoSignN md C H M m sk = cryptoSign md C H m sk := by
  unfold cryptoSignN cryptoSign
  rw [signatureN_eq m sk h6]

theorem power2_eq {n : Nat} {v : Vec n} (h : ∀ k i, 0 ≤ v k i ∧ v k i < Q) : vecPower2roundP M v = vecPower2round C v := by
  have e : ∀ k, power2roundP M (v k) = polyPower2round C (v k) := fun k => power2roundP_eq (h k)
  unfold vecPower2roundP
  simp only [e]
  rfl

/-- Key generation. -/
theorem keypairN_eq (coins : Bytes) (h6 : SixBlocksMat md H ((shake256 H 128 (coins.take 32)).take 32)) : keypairN md C H M coins = keypairDet md C H coins := by
  unfold keypairN keypairDet
  generalize shake256 H 128 (coins.take 32) = sb at *
  dsimp only
  rw [matrixExpandN_eq h6]
  simp only [Option.bind_eq_bind]
  cases hmat : matrixExpand md C H (sb.take 32) with
  | none => rw [Option.bind_none, Option.bind_none]
  | some mat =>
  rw [Option.bind_some, Option.bind_some]
  cases hs1 : vecUniformEta md C H md.L ((sb.drop 32).take 64) 0 with
  | none => rw [Option.bind_none, Option.bind_none]
  | some s1 =>
  rw [Option.bind_some, Option.bind_some]
  cases hs2 : vecUniformEta md C H md.K ((sb.drop 32).take 64) (UInt16.ofNat md.L) with
  | none => rw [Option.bind_none, Option.bind_none]
  | some s2 =>
  rw [Option.bind_some, Option.bind_some]
  have he := eta_le md
  have r1 : ∀ j, Bnd 4 (s1 j) := fun j i => by have := vecUniformEta_range hs1 j i; omega
  have r2 : ∀ j, Bnd 4 (s2 j) := fun j i => by have := vecUniformEta_range hs2 j i; omega
  have hm := fun i j => matrixExpand_bnd hmat i j
  rw [keyVec_eq (C := C) (M := M) hm r1 r2]
  have hr : ∀ k i, 0 ≤ vecCaddq C (vecAdd C (vecInvntt C (vecReduce C (matrixPointwise md C mat (vecNtt C s1)))) s2) k i ∧
      vecCaddq C (vecAdd C (vecInvntt C (vecReduce C (matrixPointwise md C mat (vecNtt C s1)))) s2) k i < Q := by
    intro k
    have p := Dilithium35.matVec_res (C := C) hm r1 (by decide) k
    have b := polyReduce_res (C := C) p.2 (by decide)
    have c' := polyInvntt_tight (C := C) (b.2.mono (by decide)) (b.1.trans p.1)
    have d := polyAdd_res (C := C) c' (show Bnd 4 (s2 k) from r2 k) (by decide)
    exact (polyCaddq_res (C := C) (a := polyAdd C (polyInvntt C (polyReduce C (matrixPointwise md C mat (vecNtt C s1) k))) (s2 k))
      (fun i => by have := d.2 i; simp only [Q]; omega)).2
  generalize vecCaddq C (vecAdd C (vecInvntt C (vecReduce C (matrixPointwise md C mat (vecNtt C s1)))) s2) = t at *
  rw [power2_eq (C := C) hr]

/-- The verifier's commitment. -/
theorem verVec_eq {mat : Mat md} {z : Vec md.L} {t1 : Vec md.K} {cp : Poly} (hm : ∀ i j, Bnd Q (mat i j)) (hz : ∀ j, Bnd GAMMA1 (z j)) (hc : Bnd 1 cp)
    (ht : ∀ k i, 0 ≤ t1 k i ∧ t1 k i < 1024) :
    vecCaddqP M (vecInvnttP M (vecReduceP M (vecSub C (matrixPointwiseP md M mat (vecNttP M z)) (vecPointwisePolyP' M (nttP M cp) (vecNttP M (vecShiftl C t1)))))) =
      vecCaddq C (vecInvntt C (vecReduce C (vecSub C (matrixPointwise md C mat (vecNtt C z)) (vecPointwisePoly C (polyNtt C cp) (vecNtt C (vecShiftl C t1)))))) := by
  funext k
  have sh := res_shiftl (C := C) (ht k)
  -- portable
  have a := Dilithium35.matVec_res (C := C) hm hz (by decide) k
  have nc := polyNtt_res (C := C) hc (by decide)
  have nt := polyNtt_res (C := C) sh.2 (by decide)
  have p := polyPointwise_res (C := C) nc.2 nt.2 (by decide)
  have d := polySub_res (C := C) a.2 p.2 (by decide)
  have r := polyReduce_res (C := C) d.2 (by decide)
  have e : res (polyReduce C (polySub C (matrixPointwise md C mat (vecNtt C z) k) (polyPointwise C (polyNtt C cp) (polyNtt C (polyShiftl C (t1 k))))))
      = Rinv • (∑ j, res (mat k j) * fNtt (res (z j)) - fNtt (res cp) * fNtt (res (polyShiftl C (t1 k)))) := by
    rw [r.1, d.1, a.1, p.1, nc.1, nt.1, ← smul_sub]
  have i := polyInvntt_res (C := C) (r.2.mono (by decide)) e
  -- aarch64
  have a' := rowAcc_res (M := M) (hm k) hz (by decide)
  have nc' := nttP_res (M := M) hc (by decide)
  have nt' := nttP_res (M := M) sh.2 (by decide)
  have ep : pointwiseP' M (nttP M cp) (nttP M (polyShiftl C (t1 k))) = polyPointwise C (nttP M cp) (nttP M (polyShiftl C (t1 k))) :=
    pointwiseP'_eq nc'.2 nt'.2 (by decide) (by decide)
  have p' := polyPointwise_res (C := C) nc'.2 nt'.2 (by decide)
  have d' := polySub_res (C := C) a'.2 p'.2 (by decide)
  have r' := polyReduce_res (C := C) d'.2 (by decide)
  have er : reduceP M (polySub C (pointwiseAccP md M (mat k) (vecNttP M z)) (pointwiseP' M (nttP M cp) (nttP M (polyShiftl C (t1 k))))) =
      polyReduce C (polySub C (pointwiseAccP md M (mat k) (vecNttP M z)) (polyPointwise C (nttP M cp) (nttP M (polyShiftl C (t1 k))))) := by
    rw [ep]
    exact reduceP_eq d'.2 (by decide)
  have e' : res (polyReduce C (polySub C (pointwiseAccP md M (mat k) (vecNttP M z)) (polyPointwise C (nttP M cp) (nttP M (polyShiftl C (t1 k))))))
      = Rinv • (∑ j, res (mat k j) * fNtt (res (z j)) - fNtt (res cp) * fNtt (res (polyShiftl C (t1 k)))) := by
    rw [r'.1, d'.1, a'.1, p'.1, nc'.1, nt'.1, ← smul_sub]
  have i' := invnttP_res (M := M) (r'.2.mono (by decide)) e'
  have e1 : caddqP M (invnttP M (reduceP M (polySub C (pointwiseAccP md M (mat k) (vecNttP M z)) (pointwiseP' M (nttP M cp) (nttP M (polyShiftl C (t1 k))))))) =
      std (res (polyInvntt C (polyReduce C (polySub C (matrixPointwise md C mat (vecNtt C z) k) (polyPointwise C (polyNtt C cp) (polyNtt C (polyShiftl C (t1 k)))))))) := by
    rw [er, caddqP_eq (C := C) i'.2 (by decide)]
    refine caddq_std (fun n => by have := i'.2 n; simp only [Q]; omega) ?_
    apply fNtt_inj
    rw [i'.1, i.1]
  exact e1.trans (caddq_std (a := polyInvntt C (polyReduce C (polySub C (matrixPointwise md C mat (vecNtt C z) k) (polyPointwise C (polyNtt C cp)
      (polyNtt C (polyShiftl C (t1 k))))))) i.2 rfl).symm

/-- Verification, for every signature string and every string of the length of a public key. -/
theorem verifyN_eq (sig m pk : Bytes) (hpk : md.PKLEN ≤ pk.length) (h6 : SixBlocksMat md H (pk.take 32)) : verifyN md C H M sig m pk = verify md C H sig m pk := by
  unfold verifyN verify
  rw [unpackPkP_eq pk hpk]
  by_cases hl : sig.length = md.SIGLEN
  · rw [if_neg (by simp [hl]), if_neg (by simp [hl])]
    have ht : ∀ k i, 0 ≤ (unpackPk md C pk).2 k i ∧ (unpackPk md C pk).2 k i < 1024 := fun k i => by
      have := polyt1Unpack_range (C := C) (pk.drop (32 + k.1 * 320)) i
      show 0 ≤ polyt1Unpack C _ i ∧ polyt1Unpack C _ i < 1024
      omega
    have e6 : matrixExpandN md C H (unpackPk md C pk).1 = matrixExpand md C H (unpackPk md C pk).1 := matrixExpandN_eq h6
    generalize unpackPk md C pk = u at *
    obtain ⟨rho, t1⟩ := u
    dsimp only at ht e6 ⊢
    rw [e6]
    cases hu : unpackSig md C sig with
    | none => rfl
    | some x =>
      obtain ⟨c, z, h⟩ := x
      dsimp only
      cases hn : vecChknorm C z (GAMMA1 - md.BETA) with
      | true => rw [if_pos rfl, if_pos rfl]
      | false =>
        rw [if_neg Bool.false_ne_true, if_neg Bool.false_ne_true]
        simp only [Option.bind_eq_bind]
        cases hcp : polyChallenge md C H c with
        | none => rw [Option.bind_none, Option.bind_none]
        | some cp =>
        rw [Option.bind_some, Option.bind_some]
        cases hmat : matrixExpand md C H rho with
        | none => rw [Option.bind_none, Option.bind_none]
        | some mat =>
        rw [Option.bind_some, Option.bind_some]
        have hr := (packSig_unpackSig sig c z h hl hu).2.2.1
        have hz : ∀ k, Bnd GAMMA1 (z k) := fun k i => by have := hr k i; simp only [GAMMA1] at *; omega
        rw [verVec_eq (M := M) (fun i j => matrixExpand_bnd hmat i j) hz (chal_bnd (polyChallenge_spec md H _ cp hcp).1) ht]
  · rw [if_pos hl, if_pos hl]

theorem cryptoOpenN_eq (sm pk : Bytes) (hpk : md.PKLEN ≤ pk.length) (h6 : SixBlocksMat md H (pk.take 32)) : cryptoOpenN md C H M sm pk = cryptoOpen md C H sm pk := by
  unfold cryptoOpenN cryptoOpen
  rw [verifyN_eq _ _ _ hpk h6]

end Verif.Neon35
