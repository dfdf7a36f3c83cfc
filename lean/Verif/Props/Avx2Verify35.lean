import Verif.Avx235.VerifyCor
import Verif.Dilithium35.Toy

/-!
# Properties C124, C125: the AVX2 verification of Dilithium3 and Dilithium5

`verifyA`, `cryptoOpenA` model `crypto_sign_verify`, `crypto_sign_open` of pqclean/crypto_sign/dilithium{3,5}/avx2/sign.c with everything below them.
Their argument `J` is the contents of uninitialised buffers and of the registers.  The functions without `A` are the portable implementation
(C113–C118), `Spec` is the text of the specification.
-/

namespace Verif.Props
open Verif.Avx235
open Verif.Dilithium (CSem Shake Poly wrapSem shake256 shake256_len polyUniform toyH toy_uniform fNtt fNtt_inj fNtt_mul fNtt_smul)
open Verif.Dilithium.Spec (Rq IsNtt)
open Verif.Dilithium35 (Mode Vec Mat unpackSig unpackPk polyChallenge matrixExpand vecPackW1 packSig packPk verify cryptoOpen keypairDet signature cryptoSign verify_reject verify_signature open_sign
  unpackSig_packSig wt toy_keypair toy_signs toy_challenge toy_mat toyA toyA_ntt)
open Verif (Bytes)

variable {C : CSem} {H : Shake} {md : Mode}

/-- The streams that the AVX2 matrix expansion reads: those of the matrix, and in dilithium3 two more, with nonces 1536 and 1537. -/
def MatrixStreams (md : Mode) (C : CSem) (H : Shake) (rho : Bytes) : Prop :=
  matrixExpand md C H rho ≠ none ∧ (md = .three → polyUniform C H rho 1536 ≠ none ∧ polyUniform C H rho 1537 ≠ none)

theorem streams_iff {rho : Bytes} : MatrixStreams md C H rho ↔ Extra C md H rho := extra_iff.symm

/-! ## C124: verification -/

/-- C124: row by row, the AVX2 matrix expansion (both forms) gives the portable matrix, in the coefficient order of the AVX2 transforms. -/
theorem C124_matrix (J : RowJunk) (rho : Bytes) (hr : rho.length = 32) (mat : Mat md) (hm : matrixExpand md C H rho = some mat) (hx : MatrixStreams md C H rho) (i : Fin md.K) :
    rowAlt md H J rho i = some (fun j => Avx2.permP (Avx2.ofP (mat i j))) ∧ rowMat md H J rho i = some (fun j => Avx2.permP (Avx2.ofP (mat i j))) :=
  ⟨rowAlt_some J hr hm (streams_iff.1 hx) i, rowMat_some J hr hm (streams_iff.1 hx) i⟩

/-- C124: what the AVX2 verification accepts.  `w1OfA` is `UseHint(h, A·z - c·t1·2^13)` with the AVX2 `UseHint` of C122.  There is no bound on `z`
beyond what the encoding can express. -/
theorem C124_acceptance (J : VerifyJunk md) (sig m pk : Bytes) (hpk : pk.length = md.PKLEN) :
    verifyA md C H J sig m pk = some true ↔
    sig.length = md.SIGLEN ∧ MatrixStreams md C H (pk.take 32) ∧ ∃ c z h cp mat A, unpackSig md C sig = some (c, z, h) ∧ polyChallenge md C H c = some cp ∧
      matrixExpand md C H (pk.take 32) = some mat ∧ (∀ i j, IsNtt (A i j) (mat i j)) ∧
      c = shake256 H md.CTILDE (shake256 H 64 (shake256 H 64 pk ++ m) ++ vecPackW1 (w1OfA A z h cp (unpackPk md C pk).2)) := by
  rw [streams_iff]
  exact verifyA_iff J hpk

/-- C124: the result does not depend on uninitialised memory when the samplers terminate. -/
theorem C124_deterministic (J J' : VerifyJunk md) (sig m pk : Bytes) (hpk : pk.length = md.PKLEN) (hc : polyChallenge md C H (sig.take md.CTILDE) ≠ none)
    (hx : MatrixStreams md C H (pk.take 32)) : verifyA md C H J sig m pk = verifyA md C H J' sig m pk ∧ (verifyA md C H J sig m pk).isSome := by
  have hP : 32 ≤ pk.length := by rw [hpk]; exact Nat.le_add_right _ _
  by_cases hl : sig.length = md.SIGLEN
  case neg => rw [verifyA_len J hl, verifyA_len J' hl]; exact ⟨rfl, rfl⟩
  obtain ⟨cp, hcp⟩ := Option.ne_none_iff_exists'.1 hc
  have hx := streams_iff.1 hx
  obtain ⟨mat, hmat⟩ := mat_of_extra hx
  obtain ⟨A, hA⟩ := isNtt_mat mat
  rw [verifyA_eq J hl hP hcp hx hmat hA, verifyA_eq J' hl hP hcp hx hmat hA]
  exact ⟨rfl, rfl⟩

/-- C124: the AVX2 verification agrees with the portable one on every signature string, unless the response has a coefficient of absolute value
`γ1 - β` or more, or a hint points to a coefficient of `A·z - c·t1·2^13` whose low part is exactly 0. -/
theorem C124_agrees (J : VerifyJunk md) (sig m pk : Bytes) (hpk : pk.length = md.PKLEN) (cp : Poly) (mat : Mat md) (A : Fin md.K → Fin md.L → Rq)
    (hcp : polyChallenge md C H (sig.take md.CTILDE) = some cp) (hx : MatrixStreams md C H (pk.take 32)) (hmat : matrixExpand md C H (pk.take 32) = some mat)
    (hA : ∀ i j, IsNtt (A i j) (mat i j)) :
    verifyA md C H J sig m pk = verify md C H sig m pk ∨
    ∃ c z h, unpackSig md C sig = some (c, z, h) ∧ ((∃ k i, 524288 - md.BETA ≤ |z k i|) ∨
      ∃ k i, h k i = 1 ∧ Dilithium35.Spec.lowBits (rawOf A z cp (unpackPk md C pk).2 k i) = 0) := by
  have hP : 32 ≤ pk.length := by rw [hpk]; exact Nat.le_add_right _ _
  have hx := streams_iff.1 hx
  by_cases hl : sig.length = md.SIGLEN
  case neg => exact Or.inl (by rw [verifyA_len J hl, verify_reject (Or.inl hl)])
  cases hu : unpackSig md C sig with
  | none => exact Or.inl (by rw [verify_reject (Or.inr (Or.inl hu)), verifyA_eq J hl hP hcp hx hmat hA, hu]; rfl)
  | some u =>
  obtain ⟨c, z, h⟩ := u
  by_cases hz : ∃ k i, 524288 - md.BETA ≤ |z k i|
  · exact Or.inr ⟨c, z, h, rfl, Or.inl hz⟩
  by_cases hn : ∃ k i, h k i = 1 ∧ Dilithium35.Spec.lowBits (rawOf A z cp (unpackPk md C pk).2 k i) = 0
  · exact Or.inr ⟨c, z, h, rfl, Or.inr hn⟩
  refine Or.inl (verifyA_agree J hl hpk hu (fun k i => ?_) (by rw [← unpackSig_fst hu]; exact hcp) hx hmat hA fun k i e => hn ⟨k, i, e⟩)
  by_contra hc
  exact hz ⟨k, i, not_lt.1 hc⟩

/-- C124: a signature made by the portable code with a generated key is accepted by the AVX2 verification and opened by the AVX2
`crypto_sign_open`. -/
theorem C124_honest (J : VerifyJunk md) (coins pk sk m sig sm : Bytes) (hk : keypairDet md C H coins = some (pk, sk)) (hx : MatrixStreams md C H (pk.take 32)) :
    (signature md C H m sk = some sig → verifyA md C H J sig m pk = some true ∧ verify md C H sig m pk = some true) ∧
    (cryptoSign md C H m sk = some sm → cryptoOpenA md C H J sm pk = some (some m) ∧ cryptoOpen md C H sm pk = some (some m)) := by
  have hx := streams_iff.1 hx
  constructor
  · intro hs
    exact ⟨verifyA_signature J hk hs hx, (verify_signature hk hs).1⟩
  · intro hs
    refine ⟨?_, open_sign hk hs⟩
    unfold cryptoSign at hs
    simp only [Option.bind_eq_bind, Option.bind_eq_some_iff, Option.pure_def, Option.some.injEq] at hs
    obtain ⟨sig, hsig, rfl⟩ := hs
    have hl2 : sig.length = md.SIGLEN := (verify_signature hk hsig).2
    unfold cryptoOpenA
    rw [if_neg (by rw [List.length_append]; omega), List.take_left' hl2, List.drop_left' hl2, verifyA_signature J hk hsig hx]
    rfl

/-- C124: what the AVX2 `crypto_sign_open` returns, on every string. -/
theorem C124_open (J : VerifyJunk md) (sm pk m : Bytes) :
    cryptoOpenA md C H J sm pk = some (some m) ↔ ∃ sig, sig.length = md.SIGLEN ∧ sm = sig ++ m ∧ verifyA md C H J sig m pk = some true := by
  unfold cryptoOpenA
  constructor
  · intro h
    split at h
    · cases h
    · rename_i hl
      simp only [Option.bind_eq_bind, Option.bind_eq_some_iff, Option.pure_def, Option.some.injEq] at h
      obtain ⟨ok, hv, hm⟩ := h
      split at hm
      · rename_i ho
        rw [Option.some.injEq] at hm
        subst ho hm
        exact ⟨_, by rw [List.length_take]; omega, (List.take_append_drop _ _).symm, hv⟩
      · cases hm
  · rintro ⟨sig, hl, rfl, hv⟩
    rw [if_neg (by rw [List.length_append]; omega), List.take_left' hl, List.drop_left' hl, hv]
    rfl

theorem toy_streams (rho : Bytes) : MatrixStreams md wrapSem toyH rho := by
  refine ⟨by rw [toy_mat]; simp, fun _ => ⟨by rw [toy_uniform]; simp, by rw [toy_uniform]; simp⟩⟩

/-- C124_honest is not empty. -/
example (J : VerifyJunk md) (coins m : Bytes) : ∃ pk sk sig, keypairDet md wrapSem toyH coins = some (pk, sk) ∧ signature md wrapSem toyH m sk = some sig ∧
    verifyA md wrapSem toyH J sig m pk = some true := by
  obtain ⟨pk, sk, hk⟩ := toy_keypair (md := md) coins
  obtain ⟨sig, hs⟩ := toy_signs coins pk sk m hk
  exact ⟨pk, sk, sig, hk, hs, ((C124_honest J coins pk sk m sig [] hk (toy_streams _)).1 hs).1⟩

/-! ## C125: where the two verifications differ -/

theorem wt_zero (md : Mode) : wt (fun _ _ => 0 : Vec md.K) ≤ md.OMEGA := by cases md <;> decide +kernel

/-- C125: the missing bound.  For every matrix seed `rho` and message there is a public key (`t1 = 0`) and for every encodable response `z` a signature
that the AVX2 verification accepts and that the portable verification rejects as soon as one coefficient of `z` reaches `γ1 - β`. -/
theorem C125_long_response (J : VerifyJunk md) (m rho c pk : Bytes) (z : Vec md.L) (cp : Poly) (mat : Mat md) (A : Fin md.K → Fin md.L → Rq) (hr : rho.length = 32)
    (hx : MatrixStreams md C H rho) (hmat : matrixExpand md C H rho = some mat) (hA : ∀ i j, IsNtt (A i j) (mat i j)) (hz : ∀ k i, -524288 < z k i ∧ z k i ≤ 524288)
    (hpk : pk = packPk md rho fun _ _ => 0)
    (hc : c = shake256 H md.CTILDE (shake256 H 64 (shake256 H 64 pk ++ m) ++ vecPackW1 fun k i => Dilithium35.Spec.highBits (Dilithium35.Spec.wOf A z k i)))
    (hcp : polyChallenge md C H c = some cp) (hlong : ∃ k i, 524288 - md.BETA ≤ |z k i|) :
    verifyA md C H J (packSig md C c z fun _ _ => 0) m pk = some true ∧ verify md C H (packSig md C c z fun _ _ => 0) m pk = some false := by
  have hcl : c.length = md.CTILDE := by rw [hc]; exact shake256_len _ _
  have hh : ∀ (k : Fin md.K) (i : Fin 256), (fun _ _ => 0 : Vec md.K) k i = 0 ∨ (fun _ _ => 0 : Vec md.K) k i = 1 := fun _ _ => Or.inl rfl
  subst hpk
  constructor
  · rw [verifyA_zero J hr hcl hz hh (wt_zero md) (streams_iff.1 hx) hmat hA hcp]
    have e : (fun k i => useHintA ((fun _ _ => 0 : Vec md.K) k i) (Dilithium35.Spec.wOf A z k i)) = fun k i => Dilithium35.Spec.highBits (Dilithium35.Spec.wOf A z k i) := by
      funext k i
      unfold useHintA
      exact if_neg (fun h0 => absurd (show (0 : Int) = 1 from h0) (by decide))
    rw [e]
    exact congrArg some (decide_eq_true hc)
  · exact verify_reject (Or.inr (Or.inr ⟨c, z, _, unpackSig_packSig c z _ hcl hz hh (wt_zero md), hlong⟩))

theorem k_pos (md : Mode) : 0 < md.K ∧ 0 < md.L := by cases md <;> decide

/-- A response with every coefficient `γ1` has an encoding and is long; with the toy hash the samplers terminate: C125_long_response is not empty. -/
example (J : VerifyJunk md) (m : Bytes) : ∃ sig pk, verifyA md wrapSem toyH J sig m pk = some true ∧ verify md wrapSem toyH sig m pk = some false := by
  obtain ⟨cp, hcp⟩ := toy_challenge (md := md) (shake256 toyH md.CTILDE (shake256 toyH 64 (shake256 toyH 64 (packPk md (List.replicate 32 7) fun _ _ => 0) ++ m) ++
    vecPackW1 fun k i => Dilithium35.Spec.highBits (Dilithium35.Spec.wOf (toyA md) (fun _ _ => 524288) k i)))
  have hβ : 0 ≤ md.BETA := (Dilithium35.beta_le md).1
  exact ⟨_, _, C125_long_response J m (List.replicate 32 7) _ _ (fun _ _ => 524288) cp _ (toyA md) List.length_replicate (toy_streams _) (toy_mat _) toyA_ntt
    (fun _ _ => by decide) rfl rfl hcp ⟨⟨0, (k_pos md).2⟩, 0, by rw [show |(524288 : Int)| = 524288 from rfl]; omega⟩⟩

/-- The hint vector with a single 1, at coefficient 0 of polynomial 0. -/
def oneHint35 (md : Mode) : Vec md.K := fun k i => if k.1 = 0 ∧ i = 0 then 1 else 0

theorem wt_one (md : Mode) : wt (oneHint35 md) ≤ md.OMEGA := by cases md <;> decide +kernel

/-- C125: the low part 0.  For every `rho` and message the AVX2 verification accepts a signature with `z = 0` and one hint, and if the portable
verification accepts it too then two different strings have the same challenge hash. -/
theorem C125_hint_at_zero (J : VerifyJunk md) (m rho c pk mu : Bytes) (cp : Poly) (mat : Mat md) (A : Fin md.K → Fin md.L → Rq) (hr : rho.length = 32)
    (hx : MatrixStreams md C H rho) (hmat : matrixExpand md C H rho = some mat) (hA : ∀ i j, IsNtt (A i j) (mat i j))
    (hpk : pk = packPk md rho fun _ _ => 0) (hmu : mu = shake256 H 64 (shake256 H 64 pk ++ m))
    (hc : c = shake256 H md.CTILDE (mu ++ vecPackW1 fun (k : Fin md.K) i => if k.1 = 0 ∧ i = 0 then 1 else 0))
    (hcp : polyChallenge md C H c = some cp) :
    verifyA md C H J (packSig md C c (fun _ _ => 0) (oneHint35 md)) m pk = some true ∧
    verify md C H (packSig md C c (fun _ _ => 0) (oneHint35 md)) m pk =
      some (decide (c = shake256 H md.CTILDE (mu ++ vecPackW1 fun (k : Fin md.K) i => if k.1 = 0 ∧ i = 0 then 15 else 0))) ∧
    vecPackW1 (fun (k : Fin md.K) i => if k.1 = 0 ∧ i = 0 then 1 else 0) ≠ vecPackW1 (fun (k : Fin md.K) i => if k.1 = 0 ∧ i = 0 then 15 else 0) := by
  have hcl : c.length = md.CTILDE := by rw [hc]; exact shake256_len _ _
  have hβ := Dilithium35.beta_le md
  have hh : ∀ (k : Fin md.K) (i : Fin 256), oneHint35 md k i = 0 ∨ oneHint35 md k i = 1 := fun k i => by unfold oneHint35; split <;> simp
  have h0 : Dilithium35.Spec.wOf A (fun _ _ => 0) = fun _ _ => 0 := by
    funext k i
    unfold Dilithium35.Spec.wOf Dilithium35.Spec.matMul
    have e : ∀ j : Fin md.L, negaMul (A k j) (Dilithium.Spec.toRq fun _ => 0) = 0 := by
      intro j
      apply fNtt_inj
      rw [fNtt_mul]
      have e0 : (Dilithium.Spec.toRq fun _ => 0) = (0 : Rq) := by funext n; simp [Dilithium.Spec.toRq]
      have : fNtt (0 : Rq) = 0 := by
        have := fNtt_smul 0 (0 : Rq)
        rwa [zero_smul, zero_smul] at this
      funext i
      rw [e0, this]
      exact mul_zero _
    rw [Finset.sum_eq_zero fun j _ => e j]
    rfl
  have eA : (fun k i => useHintA (oneHint35 md k i) (Dilithium35.Spec.wOf A (fun _ _ => 0) k i)) = fun k i => if k.1 = 0 ∧ i = 0 then 1 else 0 := by
    funext k i
    rw [h0]
    unfold oneHint35
    dsimp only
    split
    · decide +kernel
    · decide +kernel
  have eC : (fun k i => Dilithium35.Spec.useHint (oneHint35 md k i) (Dilithium35.Spec.wOf A (fun _ _ => 0) k i)) = fun k i => if k.1 = 0 ∧ i = 0 then 15 else 0 := by
    funext k i
    rw [h0]
    unfold oneHint35
    dsimp only
    split
    · decide +kernel
    · decide +kernel
  subst hpk
  refine ⟨?_, ?_, fun e => ?_⟩
  · rw [verifyA_zero J hr hcl (fun _ _ => by decide) hh (wt_one md) (streams_iff.1 hx) hmat hA hcp, eA, ← hmu]
    exact congrArg some (decide_eq_true hc)
  · rw [Avx235.verify_zero hr hcl (fun _ _ => by rw [abs_zero]; omega) hh (wt_one md) hmat hA hcp, eC, ← hmu]
  · have ev : ∀ x : Int, 0 ≤ x ∧ x < 16 → Dilithium35.polyw1Unpack C (vecPackW1 fun (k : Fin md.K) i => if k.1 = 0 ∧ i = 0 then x else 0) 0 = x := fun x hx => by
      have hf : (fun i : Fin 256 => if (⟨0, (k_pos md).1⟩ : Fin md.K).1 = 0 ∧ i = 0 then x else 0) 0 = x := if_pos ⟨rfl, rfl⟩
      unfold vecPackW1
      obtain ⟨r, hr⟩ := Dilithium35.drop_flat md.K (fun k : Fin md.K => Dilithium35.polyw1Pack fun i => if k.1 = 0 ∧ i = 0 then x else 0) 128 (fun k => polyw1Pack_len _) [] ⟨0, (k_pos md).1⟩
      rw [List.append_nil, Nat.zero_mul, List.drop_zero] at hr
      rw [hr, Dilithium35.polyw1_un_pk (C := C) _ r (fun i => by split <;> omega)]
      exact hf
    have := ev 1 (by omega)
    rw [e, ev 15 (by omega)] at this
    omega

/-- C125_hint_at_zero is not empty. -/
example (J : VerifyJunk md) (m : Bytes) : ∃ sig pk, verifyA md wrapSem toyH J sig m pk = some true := by
  obtain ⟨cp, hcp⟩ := toy_challenge (md := md) (shake256 toyH md.CTILDE (shake256 toyH 64 (shake256 toyH 64 (packPk md (List.replicate 32 7) fun _ _ => 0) ++ m) ++
    vecPackW1 fun (k : Fin md.K) i => if k.1 = 0 ∧ i = 0 then 1 else 0))
  exact ⟨_, _, (C125_hint_at_zero J m (List.replicate 32 7) _ _ _ cp _ (toyA md) List.length_replicate (toy_streams _) (toy_mat _) toyA_ntt rfl rfl rfl hcp).1⟩

end Verif.Props
