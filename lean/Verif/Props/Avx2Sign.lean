import Verif.Avx2.VerifyCor
import Verif.Dilithium.Toy
import Verif.Dilithium.LinkedLemmas

/-!
# Properties C93, C94, C95: the AVX2 signature scheme of Dilithium2

`keypairA`, `signatureA`, `cryptoSignA`, `verifyA`, `cryptoOpenA` model pqclean/crypto_sign/dilithium2/avx2/sign.c with everything below it (the
assembly of C89, the intrinsics of C90–C92).  Their arguments `J` are the contents of uninitialised buffers and of the registers.  The functions without
`A` are the portable implementation (C63–C68), `Spec` is the text of the specification.
-/

namespace Verif.Props
open Verif.Avx2
open Verif.Dilithium
open Verif.Dilithium.Spec (Rq IsNtt)

variable {C : CSem} {H : Shake}

/-! ## C93: key generation and signing -/

/-- C93: for every seed the AVX2 code makes the key pair of the portable code, and for every secret key and message the same signature and signed
message; one fails to terminate exactly when the other does. -/
theorem C93_same_keys_and_signatures (coins m sk : Bytes) (hsk : sk.length = 2560) :
    (∀ J J', keypairA C H J J' coins = keypairDet C H coins) ∧ (∀ J, signatureA C H J m sk = signature C H m sk) ∧
    ∀ J, cryptoSignA C H J m sk = cryptoSign C H m sk :=
  ⟨fun J J' => keypairA_eq J J' coins, fun J => signatureA_eq J m sk (by omega), fun J => cryptoSignA_eq J m sk (by omega)⟩

/-- C93 is not empty: with the toy hash both functions terminate, whatever the buffers contained. -/
example (J : Fin 8 → Junk) (J' : Fin 4 → Fin 10 → Junk) (J2 : SignJunk) (coins m : Bytes) :
    ∃ pk sk sig, keypairA wrapSem toyH J J' coins = some (pk, sk) ∧ signatureA wrapSem toyH J2 m sk = some sig := by
  obtain ⟨pk, sk, hk⟩ := toy_keypair coins
  obtain ⟨sig, hs⟩ := toy_signs coins pk sk m hk
  refine ⟨pk, sk, sig, by rw [keypairA_eq, hk], ?_⟩
  have hl : sk.length = 2560 := (keypairDet_len hk).2
  rw [signatureA_eq J2 m sk (by omega), hs]

/-! ## C94: verification -/

/-- C94: what the AVX2 verification accepts.  `w1OfA` is `UseHint(h, A·z - c·t1·2^13)` with the AVX2 `UseHint` of C90.  There is no bound on `z` beyond
what the encoding can express. -/
theorem C94_acceptance (J : VerifyJunk) (sig m pk : Bytes) (hpk : pk.length = 1312) :
    verifyA C H J sig m pk = some true ↔
    sig.length = 2420 ∧ ∃ c z h cp mat A, unpackSig C sig = some (c, z, h) ∧ polyChallenge C H c = some cp ∧ matrixExpand C H (pk.take 32) = some mat ∧
      (∀ i j, IsNtt (A i j) (mat i j)) ∧
      c = shake256 H 32 (shake256 H 64 (shake256 H 64 pk ++ m) ++ vecPackW1 (w1OfA A z h cp (unpackPk C pk).2)) := verifyA_iff J hpk

/-- C94: the result does not depend on uninitialised memory when the samplers terminate. -/
theorem C94_deterministic (J J' : VerifyJunk) (sig m pk : Bytes) (hpk : pk.length = 1312) (hc : polyChallenge C H (sig.take 32) ≠ none)
    (hm : matrixExpand C H (pk.take 32) ≠ none) : verifyA C H J sig m pk = verifyA C H J' sig m pk ∧ (verifyA C H J sig m pk).isSome := by
  by_cases hl : sig.length = 2420
  case neg => rw [verifyA_len J hl, verifyA_len J' hl]; exact ⟨rfl, rfl⟩
  obtain ⟨cp, hcp⟩ := Option.ne_none_iff_exists'.1 hc
  obtain ⟨mat, hmat⟩ := Option.ne_none_iff_exists'.1 hm
  have hA : ∀ i j, IsNtt ((exists_isNtt (mat i j)).choose) (mat i j) := fun i j => (exists_isNtt (mat i j)).choose_spec
  rw [verifyA_eq J hl (by omega) hcp hmat hA, verifyA_eq J' hl (by omega) hcp hmat hA]
  exact ⟨rfl, rfl⟩

/-- C94: the AVX2 verification agrees with the portable one on every signature string, unless the response has a coefficient of absolute value
`γ1 - β` or more, or a hint points to a coefficient of `A·z - c·t1·2^13` whose low part is exactly 0. -/
theorem C94_agrees (J : VerifyJunk) (sig m pk : Bytes) (hpk : pk.length = 1312) (cp : Poly) (mat : Mat) (A : Fin 4 → Fin 4 → Rq)
    (hcp : polyChallenge C H (sig.take 32) = some cp) (hmat : matrixExpand C H (pk.take 32) = some mat) (hA : ∀ i j, IsNtt (A i j) (mat i j)) :
    verifyA C H J sig m pk = verify C H sig m pk ∨
    ∃ c z h, unpackSig C sig = some (c, z, h) ∧ ((∃ k i, 131072 - 78 ≤ |z k i|) ∨
      ∃ k i, h k i = 1 ∧ Spec.lowBits (rawOf A z cp (unpackPk C pk).2 k i) = 0) := by
  by_cases hl : sig.length = 2420
  case neg => exact Or.inl (by rw [verifyA_len J hl, verify_reject (Or.inl hl)])
  cases hu : unpackSig C sig with
  | none => exact Or.inl (by rw [verify_reject (Or.inr (Or.inl hu)), verifyA_eq J hl (by omega) hcp hmat hA, hu]; rfl)
  | some u =>
  obtain ⟨c, z, h⟩ := u
  by_cases hz : ∃ k i, 131072 - 78 ≤ |z k i|
  · exact Or.inr ⟨c, z, h, rfl, Or.inl hz⟩
  by_cases hn : ∃ k i, h k i = 1 ∧ Spec.lowBits (rawOf A z cp (unpackPk C pk).2 k i) = 0
  · exact Or.inr ⟨c, z, h, rfl, Or.inr hn⟩
  refine Or.inl (verifyA_agree J hl hpk hu (fun k i => ?_) (by rw [← unpackSig_fst hu]; exact hcp) hmat hA fun k i e => hn ⟨k, i, e⟩)
  by_contra hc
  exact hz ⟨k, i, not_lt.1 hc⟩

/-- C94: a signature made with a generated key is accepted by the AVX2 verification and opened by the AVX2 `crypto_sign_open`, whichever implementation
made the key and the signature. -/
theorem C94_honest (J : VerifyJunk) (coins pk sk m sig sm : Bytes) (hk : (∃ J J', keypairA C H J J' coins = some (pk, sk)) ∨ keypairDet C H coins = some (pk, sk)) :
    ((∃ J, signatureA C H J m sk = some sig) ∨ signature C H m sk = some sig → verifyA C H J sig m pk = some true ∧ verify C H sig m pk = some true) ∧
    ((∃ J, cryptoSignA C H J m sk = some sm) ∨ cryptoSign C H m sk = some sm → cryptoOpenA C H J sm pk = some (some m) ∧ cryptoOpen C H sm pk = some (some m)) := by
  have hk : keypairDet C H coins = some (pk, sk) := by
    rcases hk with ⟨J, J', h⟩ | h
    · rw [← keypairA_eq J J' coins, h]
    · exact h
  have hl : sk.length = 2560 := (keypairDet_len hk).2
  constructor
  · intro hs
    have hs : signature C H m sk = some sig := by
      rcases hs with ⟨J, h⟩ | h
      · rw [← signatureA_eq J m sk (by omega), h]
      · exact h
    exact ⟨verifyA_signature J hk hs, (verify_signature hk hs).1⟩
  · intro hs
    have hs : cryptoSign C H m sk = some sm := by
      rcases hs with ⟨J, h⟩ | h
      · rw [← cryptoSignA_eq J m sk (by omega), h]
      · exact h
    refine ⟨?_, open_sign hk hs⟩
    unfold cryptoSign at hs
    simp only [Option.bind_eq_bind, Option.bind_eq_some_iff, Option.pure_def, Option.some.injEq] at hs
    obtain ⟨sig, hsig, rfl⟩ := hs
    have hl2 : sig.length = 2420 := (verify_signature hk hsig).2
    unfold cryptoOpenA
    rw [if_neg (by rw [List.length_append]; omega), List.take_left' hl2, List.drop_left' hl2, verifyA_signature J hk hsig]
    rfl

/-- C94_honest is not empty. -/
example (J : VerifyJunk) (J2 : SignJunk) (coins m : Bytes) : ∃ pk sk sig, keypairDet wrapSem toyH coins = some (pk, sk) ∧ signatureA wrapSem toyH J2 m sk = some sig ∧
    verifyA wrapSem toyH J sig m pk = some true := by
  obtain ⟨pk, sk, hk⟩ := toy_keypair coins
  obtain ⟨sig, hs⟩ := toy_signs coins pk sk m hk
  have hl : sk.length = 2560 := (keypairDet_len hk).2
  have hsA : signatureA wrapSem toyH J2 m sk = some sig := by rw [signatureA_eq J2 m sk (by omega), hs]
  exact ⟨pk, sk, sig, hk, hsA, ((C94_honest J coins pk sk m sig [] (Or.inr hk)).1 (Or.inl ⟨J2, hsA⟩)).1⟩

/-! ## C95: where the two verifications differ -/

/-- C95: the missing bound.  For every matrix seed `rho` and message there is a public key (`t1 = 0`) and for every encodable response `z` a signature
that the AVX2 verification accepts and that the portable verification rejects as soon as one coefficient of `z` reaches `γ1 - β`. -/
theorem C95_long_response (J : VerifyJunk) (m rho c pk : Bytes) (z : Vec) (cp : Poly) (mat : Mat) (A : Fin 4 → Fin 4 → Rq) (hr : rho.length = 32)
    (hmat : matrixExpand C H rho = some mat) (hA : ∀ i j, IsNtt (A i j) (mat i j)) (hz : ∀ k i, -131072 < z k i ∧ z k i ≤ 131072)
    (hpk : pk = packPk rho fun _ _ => 0)
    (hc : c = shake256 H 32 (shake256 H 64 (shake256 H 64 pk ++ m) ++ vecPackW1 fun k i => Spec.highBits (Spec.wOf A z k i)))
    (hcp : polyChallenge C H c = some cp) (hlong : ∃ k i, 131072 - 78 ≤ |z k i|) :
    verifyA C H J (packSig C c z fun _ _ => 0) m pk = some true ∧ verify C H (packSig C c z fun _ _ => 0) m pk = some false := by
  have hcl : c.length = 32 := by rw [hc]; exact shake256_len _ _
  have hw : wt (fun _ _ => 0) ≤ 80 := by decide +kernel
  have hh : ∀ (k : Fin 4) (i : Fin 256), (fun _ _ => 0 : Vec) k i = 0 ∨ (fun _ _ => 0 : Vec) k i = 1 := fun _ _ => Or.inl rfl
  subst hpk
  constructor
  · rw [verifyA_zero J hr hcl hz hh hw hmat hA hcp]
    have e : (fun k i => useHintA ((fun _ _ => 0 : Vec) k i) (Spec.wOf A z k i)) = fun k i => Spec.highBits (Spec.wOf A z k i) := by
      funext k i
      unfold useHintA
      exact if_neg (fun h0 => absurd (show (0 : Int) = 1 from h0) (by decide))
    rw [e]
    exact congrArg some (decide_eq_true hc)
  · exact verify_reject (Or.inr (Or.inr ⟨c, z, _, unpackSig_packSig c z _ hcl hz hh hw, hlong⟩))

/-- A response with every coefficient `γ1` has encoding and is long; with the toy hash the samplers terminate: C95_long_response is not empty. -/
example (J : VerifyJunk) (m : Bytes) : ∃ sig pk, verifyA wrapSem toyH J sig m pk = some true ∧ verify wrapSem toyH sig m pk = some false := by
  obtain ⟨cp, hcp⟩ := toy_challenge (shake256 toyH 32 (shake256 toyH 64 (shake256 toyH 64 (packPk (List.replicate 32 7) fun _ _ => 0) ++ m) ++
    vecPackW1 fun k i => Spec.highBits (Spec.wOf toyA (fun _ _ => 131072) k i)))
  exact ⟨_, _, C95_long_response J m (List.replicate 32 7) _ _ (fun _ _ => 131072) cp _ toyA List.length_replicate (toy_mat _) toyA_ntt
    (fun _ _ => by decide) rfl rfl hcp ⟨0, 0, by decide⟩⟩

/-- The hint vector with a single 1, at coefficient 0 of polynomial 0. -/
def oneHint : Vec := fun k i => if k = 0 ∧ i = 0 then 1 else 0

/-- C95: the low part 0.  For every `rho` and message the AVX2 verification accepts a signature with `z = 0` and one hint, and if the portable
verification accepts it too then two different strings have the same challenge hash. -/
theorem C95_hint_at_zero (J : VerifyJunk) (m rho c pk mu : Bytes) (cp : Poly) (mat : Mat) (A : Fin 4 → Fin 4 → Rq) (hr : rho.length = 32)
    (hmat : matrixExpand C H rho = some mat) (hA : ∀ i j, IsNtt (A i j) (mat i j))
    (hpk : pk = packPk rho fun _ _ => 0) (hmu : mu = shake256 H 64 (shake256 H 64 pk ++ m))
    (hc : c = shake256 H 32 (mu ++ vecPackW1 fun k i => if k = 0 ∧ i = 0 then 1 else 0))
    (hcp : polyChallenge C H c = some cp) :
    verifyA C H J (packSig C c (fun _ _ => 0) oneHint) m pk = some true ∧
    verify C H (packSig C c (fun _ _ => 0) oneHint) m pk =
      some (decide (c = shake256 H 32 (mu ++ vecPackW1 fun k i => if k = 0 ∧ i = 0 then 43 else 0))) ∧
    vecPackW1 (fun k i => if k = 0 ∧ i = 0 then 1 else 0) ≠ vecPackW1 (fun k i => if k = 0 ∧ i = 0 then 43 else 0) := by
  have hcl : c.length = 32 := by rw [hc]; exact shake256_len _ _
  have hw : wt oneHint ≤ 80 := by decide +kernel
  have hh : ∀ (k : Fin 4) (i : Fin 256), oneHint k i = 0 ∨ oneHint k i = 1 := fun k i => by unfold oneHint; split <;> simp
  have h0 : Spec.wOf A (fun _ _ => 0) = fun _ _ => 0 := by
    funext k i
    unfold Spec.wOf Spec.matMul
    have e : ∀ j : Fin 4, negaMul (A k j) (Spec.toRq fun _ => 0) = 0 := by
      intro j
      apply fNtt_inj
      rw [fNtt_mul]
      have e0 : (Spec.toRq fun _ => 0) = (0 : Rq) := by funext n; simp [Spec.toRq]
      have : fNtt (0 : Rq) = 0 := by
        have := fNtt_smul 0 (0 : Rq)
        rwa [zero_smul, zero_smul] at this
      funext i
      rw [e0, this]
      exact mul_zero _
    rw [Finset.sum_eq_zero fun j _ => e j]
    rfl
  have eA : (fun k i => useHintA (oneHint k i) (Spec.wOf A (fun _ _ => 0) k i)) = fun k i => if k = 0 ∧ i = 0 then 1 else 0 := by
    funext k i
    rw [h0]
    unfold oneHint
    dsimp only
    split
    · decide +kernel
    · decide +kernel
  have eC : (fun k i => Spec.useHint (oneHint k i) (Spec.wOf A (fun _ _ => 0) k i)) = fun k i => if k = 0 ∧ i = 0 then 43 else 0 := by
    funext k i
    rw [h0]
    unfold oneHint
    dsimp only
    split
    · decide +kernel
    · decide +kernel
  subst hpk
  refine ⟨?_, ?_, fun e => ?_⟩
  · rw [verifyA_zero J hr hcl (fun _ _ => by decide) hh hw hmat hA hcp, eA, ← hmu]
    exact congrArg some (decide_eq_true hc)
  · rw [verify_zero hr hcl (fun _ _ => by decide) hh hw hmat hA hcp, eC, ← hmu]
  · have ev : ∀ x : Int, 0 ≤ x ∧ x < 64 → polyw1Unpack C (vecPackW1 fun k i => if k = 0 ∧ i = 0 then x else 0) 0 = x := fun x hx => by
      have := congrFun (polyw1_un_pk (C := C) (fun i => if (0 : Fin 4) = 0 ∧ i = 0 then x else 0)
        (([1, 2, 3] : List (Fin 4)).flatMap fun k => polyw1Pack fun i => if k = 0 ∧ i = 0 then x else 0) (fun i => by split <;> omega)) 0
      rwa [if_pos ⟨rfl, rfl⟩] at this
    have := ev 1 (by omega)
    rw [e, ev 43 (by omega)] at this
    omega

end Verif.Props
