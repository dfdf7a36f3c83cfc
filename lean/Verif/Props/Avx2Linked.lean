import Verif.Avx2.SignLinkedLemmas
import Verif.Props.Avx2Sign
import Verif.Props.DilithiumLinked

/-! # C99: the AVX2 build of Dilithium2 together with the hash code it is linked with

`Verif/Avx2/SignLinked.lean` models the AVX2 functions down to the machine instructions of the four-way Keccak permutation and to fips202.c: no hash
function is left as a parameter.  `K` holds the contents of uninitialised registers and buffers of the hash code, `J` those of the rest; `C` and `O` say
what undefined behaviour would do. -/

namespace Verif.Props
open Verif Verif.Keccak Verif.Dilithium
open Verif.Dilithium.Spec (Rq IsNtt)
open Verif.Avx2 (Junk SignJunk VerifyJunk)
open Verif.Avx2.Linked (KJ)

/-- C99: the two linked programs make the same key pair from the same coins, and the same signature and signed message, whatever uninitialised memory
and registers contain and whatever undefined operations would do; one fails to terminate exactly when the other does. -/
theorem C99_same_keys_and_signatures (C C' : CSem) (O O' : Oob) :
    (∀ K K' J J' (coins : Bytes), coins.length = 32 → Avx2.Linked.keypairA C O K K' J J' coins = Linked.keypairDet C' O' coins) ∧
    (∀ K K' J (m sk : Bytes), sk.length = 2560 → Avx2.Linked.signatureA C O K K' J m sk = Linked.signature C' O' m sk) ∧
    (∀ K K' J (m sk : Bytes), sk.length = 2560 → Avx2.Linked.cryptoSignA C O K K' J m sk = Linked.cryptoSign C' O' m sk) := by
  have hcs : ∀ m sk : Bytes, sk.length = 2560 → Linked.cryptoSign C O m sk = Linked.cryptoSign C' O' m sk := fun m sk h => by
    have := (C85_no_undefined_behaviour C C' O O').2.1 m sk h
    unfold Linked.cryptoSign
    rw [this]
  refine ⟨fun K K' J J' coins h => ?_, fun K K' J m sk h => ?_, fun K K' J m sk h => ?_⟩
  · rw [Avx2.Linked.keypairA_eq, (C93_same_keys_and_signatures coins [] (List.replicate 2560 0) (List.length_replicate ..)).1,
      ← (C85_linked_is_model C O).1 coins h, (C85_no_undefined_behaviour C C' O O').1 coins h]
  · rw [Avx2.Linked.signatureA_eq _ _ _ _ _ _ _ h, (C93_same_keys_and_signatures [] m sk h).2.1,
      ← (C85_linked_is_model C O).2.1 m sk h, (C85_no_undefined_behaviour C C' O O').2.1 m sk h]
  · rw [Avx2.Linked.cryptoSignA_eq _ _ _ _ _ _ _ h, (C93_same_keys_and_signatures [] m sk h).2.2,
      ← (C85_linked_is_model C O).2.2.1 m sk h, hcs m sk h]

/-- C99 is not empty: on the coins of the known-answer test the linked AVX2 key generation returns the key pair of the test. -/
example (C : CSem) (O : Oob) (K : Fin 2 → KJ) (K' : Fin 4 → KJ) (J : Fin 8 → Junk) (J' : Fin 4 → Fin 10 → Junk) :
    Avx2.Linked.keypairA C O K K' J J' Kat.coins = some (Kat.pk, Kat.sk) := by
  have hl : Kat.coins.length = 32 := Eval.unb_len _ _
  rw [(C99_same_keys_and_signatures C C O O).1 K K' J J' _ hl]
  exact keypair_kat C O

/-- C99: a signature made by either linked program under a generated key is accepted by both verifications, and both open the signed message. -/
theorem C99_honest (C : CSem) (O : Oob) (K : Fin 4 → KJ) (J : VerifyJunk) (coins pk sk m sig sm : Bytes) (hc : coins.length = 32)
    (hk : (∃ K K' J J', Avx2.Linked.keypairA C O K K' J J' coins = some (pk, sk)) ∨ Linked.keypairDet C O coins = some (pk, sk)) :
    ((∃ K K' J, Avx2.Linked.signatureA C O K K' J m sk = some sig) ∨ Linked.signature C O m sk = some sig →
      Avx2.Linked.verifyA C O K J sig m pk = some true ∧ Linked.verify C O sig m pk = some true) ∧
    ((∃ K K' J, Avx2.Linked.cryptoSignA C O K K' J m sk = some sm) ∨ Linked.cryptoSign C O m sk = some sm →
      Avx2.Linked.cryptoOpenA C O K J sm pk = some (some m) ∧ Linked.cryptoOpen C O sm pk = some (some m)) := by
  obtain ⟨e1, e2, e3⟩ := C99_same_keys_and_signatures C C O O
  have hk' : Linked.keypairDet C O coins = some (pk, sk) := by
    rcases hk with ⟨K, K', J, J', h⟩ | h
    · rw [← e1 K K' J J' coins hc]; exact h
    · exact h
  have hkm : keypairDet C fipsShake coins = some (pk, sk) := by rw [← (C85_linked_is_model C O).1 coins hc]; exact hk'
  have hlen := Avx2.keypairDet_len hkm
  obtain ⟨hp, hs⟩ : pk.length = 1312 ∧ sk.length = 2560 := hlen
  obtain ⟨v1, v2⟩ := C94_honest (C := C) (H := fipsShake) J coins pk sk m sig sm (Or.inr hkm)
  obtain ⟨-, l2, l3, l4, l5⟩ := C85_linked_is_model C O
  refine ⟨fun h => ?_, fun h => ?_⟩
  · rw [Avx2.Linked.verifyA_eq _ _ _ _ _ _ _ hp, l4 _ _ _ hp]
    refine v1 (Or.inr ?_)
    rw [← l2 m sk hs]
    rcases h with ⟨K, K', J, h⟩ | h
    · rw [← e2 K K' J m sk hs]; exact h
    · exact h
  · rw [Avx2.Linked.cryptoOpenA_eq _ _ _ _ _ _ hp, l5 _ _ hp]
    refine v2 (Or.inr ?_)
    rw [← l3 m sk hs]
    rcases h with ⟨K, K', J, h⟩ | h
    · rw [← e3 K K' J m sk hs]; exact h
    · exact h

/-- C99: the verifications of the two linked programs give the same answer on every string whenever the samplers terminate, unless the response has a
coefficient of absolute value `γ1 - β` or more, or a hint points to a coefficient of `A·z - c·t1·2^13` whose low part is exactly 0. -/
theorem C99_agrees (C : CSem) (O : Oob) (K : Fin 4 → KJ) (J : VerifyJunk) (sig m pk : Bytes) (hpk : pk.length = 1312) (hsig : 32 ≤ sig.length) (cp : Poly)
    (mat : Mat) (A : Fin 4 → Fin 4 → Rq) (hcp : Linked.polyChallenge C O (sig.take 32) = some cp) (hmat : Linked.matrixExpand C O (pk.take 32) = some mat)
    (hA : ∀ i j, IsNtt (A i j) (mat i j)) :
    Avx2.Linked.verifyA C O K J sig m pk = Linked.verify C O sig m pk ∨
    ∃ c z h, unpackSig C sig = some (c, z, h) ∧ ((∃ k i, 131072 - 78 ≤ |z k i|) ∨
      ∃ k i, h k i = 1 ∧ Spec.lowBits (Avx2.rawOf A z cp (unpackPk C pk).2 k i) = 0) := by
  rw [Avx2.Linked.verifyA_eq _ _ _ _ _ _ _ hpk, (C85_linked_is_model C O).2.2.2.1 _ _ _ hpk]
  rw [Linked.polyChallenge_eq C O _ (by rw [List.length_take]; omega)] at hcp
  rw [Linked.matrixExpand_eq C O _ (by rw [List.length_take]; omega)] at hmat
  exact C94_agrees J sig m pk hpk cp mat A hcp hmat hA

/-- C99: what the linked AVX2 verification accepts, with SHAKE256 for the hash function. -/
theorem C99_acceptance (C : CSem) (O : Oob) (K : Fin 4 → KJ) (J : VerifyJunk) (sig m pk tr mu : Bytes) (hpk : pk.length = 1312)
    (htr : Fips202.bitsOf tr = Fips202.SHAKE256 (Fips202.bitsOf pk) (8 * 64)) (hmu : Fips202.bitsOf mu = Fips202.SHAKE256 (Fips202.bitsOf (tr ++ m)) (8 * 64)) :
    Avx2.Linked.verifyA C O K J sig m pk = some true ↔
    sig.length = 2420 ∧ ∃ c z h cp mat A, unpackSig C sig = some (c, z, h) ∧ Linked.polyChallenge C O c = some cp ∧
      Linked.matrixExpand C O (pk.take 32) = some mat ∧ (∀ i j, IsNtt (A i j) (mat i j)) ∧
      Fips202.bitsOf c = Fips202.SHAKE256 (Fips202.bitsOf (mu ++ vecPackW1 (Avx2.w1OfA A z h cp (unpackPk C pk).2))) (8 * 32) := by
  have inj := fun (a b : Bytes) (h : Fips202.bitsOf a = Fips202.bitsOf b) => bitsOf_inj h
  have etr : tr = Dilithium.shake256 fipsShake 64 pk := inj _ _ (by rw [htr, (C85_digest 64 pk).2])
  have emu : mu = Dilithium.shake256 fipsShake 64 (Dilithium.shake256 fipsShake 64 pk ++ m) := inj _ _ (by rw [hmu, etr, (C85_digest 64 _).2])
  rw [Avx2.Linked.verifyA_eq _ _ _ _ _ _ _ hpk, C94_acceptance J sig m pk hpk]
  refine and_congr_right fun hl => ?_
  have hc : ∀ c z h, unpackSig C sig = some (c, z, h) → c.length = 32 := fun c z h hu => by
    exact (packSig_unpackSig sig c z h hl hu).2.1
  constructor
  · rintro ⟨c, z, h, cp, mat, A, h1, h2, h3, h4, h5⟩
    refine ⟨c, z, h, cp, mat, A, h1, ?_, ?_, h4, ?_⟩
    · rw [Linked.polyChallenge_eq C O _ (hc c z h h1)]; exact h2
    · rw [Linked.matrixExpand_eq C O _ (by rw [List.length_take]; omega)]; exact h3
    · rw [← (C85_digest 32 _).2, emu, ← h5]
  · rintro ⟨c, z, h, cp, mat, A, h1, h2, h3, h4, h5⟩
    rw [Linked.polyChallenge_eq C O _ (hc c z h h1)] at h2
    rw [Linked.matrixExpand_eq C O _ (by rw [List.length_take]; omega)] at h3
    refine ⟨c, z, h, cp, mat, A, h1, h2, h3, h4, inj _ _ ?_⟩
    rw [h5, (C85_digest 32 _).2, emu]

/-! ## C99: one input on which the two programs differ

The public key is `Kat.rho ‖ 0 … 0`, the message is empty; the signature has response 0 and one hint.  The kernel evaluates the five digests. -/

-- one at a time: the kernel's memory is freed between them
set_option Elab.async false

/-- SHAKE256 of the public key `Kat.rho ‖ 0 … 0`, 64 bytes. -/
def trz : Bytes := [232, 186, 112, 161, 87, 110, 91, 244, 177, 73, 232, 59, 87, 13, 85, 91, 146, 82, 151, 79, 3, 230, 185, 122, 56, 209, 31, 184, 137, 73, 164,
    13, 84, 19, 184, 16, 52, 79, 177, 166, 218, 207, 238, 194, 219, 147, 185, 148, 21, 80, 118, 66, 111, 66, 164, 160, 117, 71, 45, 123, 124,
    39, 103, 121]
/-- SHAKE256 of `trz` (and the empty message), 64 bytes. -/
def muz : Bytes := [185, 8, 229, 255, 230, 219, 83, 207, 75, 199, 76, 44, 210, 106, 141, 76, 72, 184, 149, 121, 217, 213, 105, 218, 243, 54, 179, 217, 7, 133,
    144, 192, 106, 239, 113, 27, 121, 57, 124, 78, 228, 215, 247, 173, 69, 30, 153, 162, 11, 19, 139, 243, 153, 16, 65, 159, 152, 197, 138, 115,
    59, 105, 90, 186]
/-- SHAKE256 of `muz ‖ 1 0 0 … 0`, 32 bytes. -/
def cz : Bytes := [205, 21, 60, 38, 46, 99, 218, 129, 134, 226, 131, 30, 121, 232, 4, 74, 194, 178, 216, 116, 70, 44, 176, 154, 224, 167, 44, 243, 185, 28, 42,
    1]
/-- SHAKE256 of `muz ‖ 43 0 0 … 0`, 32 bytes. -/
def cz' : Bytes := [86, 90, 16, 224, 37, 59, 164, 6, 199, 230, 131, 19, 29, 245, 32, 163, 153, 127, 37, 223, 220, 112, 80, 241, 38, 154, 129, 53, 183, 158, 185,
    231]
/-- SHAKE256 of `cz`, 136 bytes. -/
def streamz : Bytes := [33, 165, 212, 13, 26, 236, 222, 156, 72, 90, 159, 70, 116, 33, 218, 200, 184, 123, 229, 23, 156, 168, 73, 114, 9, 105, 154, 240, 152, 51,
    53, 227, 190, 222, 48, 60, 35, 149, 114, 52, 131, 182, 212, 247, 186, 21, 190, 0, 105, 62, 56, 146, 51, 150, 124, 76, 119, 19, 65, 174, 208,
    194, 7, 131, 23, 190, 48, 58, 225, 159, 240, 235, 34, 206, 250, 36, 64, 217, 138, 224, 187, 77, 55, 119, 152, 29, 41, 12, 229, 10, 107, 32,
    96, 216, 68, 6, 143, 23, 128, 68, 65, 18, 77, 13, 190, 29, 122, 26, 126, 179, 115, 148, 9, 47, 233, 241, 222, 158, 145, 11, 176, 30, 61,
    186, 65, 0, 194, 63, 180, 1, 70, 68, 156, 0, 195, 117]

set_option maxRecDepth 100000 in
theorem trz_eq : Keccak.shake256 someOob 64 (Kat.rho ++ List.replicate 1280 0) = some trz := by rw [Eval.shake256_eval]; decide +kernel
set_option maxRecDepth 100000 in
theorem muz_eq : Keccak.shake256 someOob 64 trz = some muz := by rw [Eval.shake256_eval]; decide +kernel
set_option maxRecDepth 100000 in
theorem cz_eq : Keccak.shake256 someOob 32 (muz ++ 1 :: List.replicate 767 0) = some cz := by rw [Eval.shake256_eval]; decide +kernel
set_option maxRecDepth 100000 in
theorem cz'_eq : Keccak.shake256 someOob 32 (muz ++ 43 :: List.replicate 767 0) = some cz' := by rw [Eval.shake256_eval]; decide +kernel
set_option maxRecDepth 100000 in
theorem streamz_eq : Keccak.shake256 someOob 136 cz = some streamz := by rw [Eval.shake256_eval]; decide +kernel
set_option maxRecDepth 100000 in
theorem pkz_eq : packPk Kat.rho (fun _ _ => 0) = Kat.rho ++ List.replicate 1280 0 := by decide +kernel
set_option maxRecDepth 100000 in
theorem w1z_eq : vecPackW1 (fun k i => if k = 0 ∧ i = 0 then 1 else 0) = 1 :: List.replicate 767 0 := by decide +kernel
set_option maxRecDepth 100000 in
theorem w1z'_eq : vecPackW1 (fun k i => if k = 0 ∧ i = 0 then 43 else 0) = 43 :: List.replicate 767 0 := by decide +kernel

/-- Whether a list of stream bytes is long enough for `n` steps of `SampleInBall` from index `i`. -/
def ballEnough : Bytes → Nat → Nat → Bool
  | _, 0, _ => true
  | [], _ + 1, _ => false
  | b :: l, n + 1, i => if i < b.toNat then ballEnough l (n + 1) i else ballEnough l n (i + 1)

theorem ballSteps_of (s : Nat → UInt8) : ∀ (l : Bytes) (n i p : Nat) (c : Poly), (∀ k, (h : k < l.length) → s (p + k) = l[k]) → ballEnough l n i = true →
    ∃ c', Spec.BallSteps s n i p c c' := by
  intro l
  induction l with
  | nil =>
    intro n i p c _ h
    cases n with
    | zero => exact ⟨c, rfl⟩
    | succ n => cases h
  | cons b l ih =>
    intro n i p c hs h
    cases n with
    | zero => exact ⟨c, rfl⟩
    | succ n =>
      have h0 : s p = b := hs 0 (by simp)
      have hs' : ∀ k, (h : k < l.length) → s (p + 1 + k) = l[k] := fun k hk => by
        have := hs (k + 1) (by simp; omega)
        rw [show p + 1 + k = p + (k + 1) by omega, this]; rfl
      unfold ballEnough at h
      split at h
      · rename_i hb
        obtain ⟨c', q, a1, a2, a3, a4⟩ := ih (n + 1) i (p + 1) c hs' h
        refine ⟨c', q, by omega, fun k hk hkq => ?_, a3, a4⟩
        rcases Nat.lt_or_ge p k with hp | hp
        · exact a2 k hp hkq
        · rw [show k = p by omega, h0]; exact hb
      · rename_i hb
        obtain ⟨c', hc'⟩ := ih n (i + 1) (p + 1) _ hs' h
        exact ⟨c', p, le_refl _, fun k h1 h2 => by omega, by rw [h0]; omega, hc'⟩

theorem challengez (C : CSem) : ∃ cp, polyChallenge C fipsShake cz = some cp := by
  have h := streamz_eq
  rw [C84_shake256_is_model, Option.some.injEq] at h
  have hs : ∀ k, (hk : k < (streamz.drop 8).length) → fipsShake.shake256 (cz.take 32) (8 + k) = (streamz.drop 8)[k] := fun k hk => by
    have hk' : k < 128 := hk
    rw [List.getElem_drop, show cz.take 32 = cz from rfl]
    have : (Dilithium.shake256 fipsShake 136 cz)[8 + k]'(by rw [(C85_digest 136 cz).1]; omega) = fipsShake.shake256 cz (8 + k) := by
      unfold Dilithium.shake256 squeeze
      rw [List.getElem_map, List.getElem_range, Nat.zero_add]
    rw [← this]
    simp only [h]
  obtain ⟨c, hc⟩ := ballSteps_of _ (streamz.drop 8) 39 217 8 (fun _ => 0) hs (by decide +kernel)
  exact ⟨c, (polyChallenge_iff fipsShake cz c).2 hc⟩

theorem matrixz (C : CSem) : ∃ mat, matrixExpand C fipsShake Kat.rho = some mat := by
  have hm : matrixExpand wrapSem fipsShake Kat.rho = _ := Kat.K_ok.matrix
  rw [matrixExpand_indep wrapSem C] at hm
  exact ⟨_, hm⟩

/-- The witness of `C99_builds_disagree`. -/
theorem disagree_at : ∃ pk sig : Bytes, pk.length = 1312 ∧ sig.length = 2420 ∧ pk.take 32 = Kat.rho ∧ ∀ (C : CSem) (O : Oob) (K : Fin 4 → KJ) (J : VerifyJunk),
    Avx2.Linked.verifyA C O K J sig [] pk = some true ∧ Linked.verify C O sig [] pk = some false ∧
    Avx2.Linked.cryptoOpenA C O K J sig pk = some (some []) ∧ Linked.cryptoOpen C O sig pk = some none := by
  have d1 := trz_eq
  have d2 := muz_eq
  have d3 := cz_eq
  have d4 := cz'_eq
  rw [C84_shake256_is_model, Option.some.injEq, ← pkz_eq] at d1
  rw [C84_shake256_is_model, Option.some.injEq] at d2
  rw [C84_shake256_is_model, Option.some.injEq, ← w1z_eq] at d3
  rw [C84_shake256_is_model, Option.some.injEq, ← w1z'_eq] at d4
  have hpkl : (packPk Kat.rho fun _ _ => 0).length = 1312 := by rw [pkz_eq, List.length_append, List.length_replicate]; rfl
  have hsl : (packSig wrapSem cz (fun _ _ => 0) oneHint).length = 2420 := packSig_len _ _ _ rfl
  refine ⟨packPk Kat.rho fun _ _ => 0, packSig wrapSem cz (fun _ _ => 0) oneHint, hpkl, hsl, ?_, fun C O K J => ?_⟩
  · rw [pkz_eq, List.take_left' (show Kat.rho.length = 32 from Eval.unb_len _ _)]
  have hv : Avx2.Linked.verifyA C O K J (packSig wrapSem cz (fun _ _ => 0) oneHint) [] (packPk Kat.rho fun _ _ => 0) = some true ∧
      Linked.verify C O (packSig wrapSem cz (fun _ _ => 0) oneHint) [] (packPk Kat.rho fun _ _ => 0) = some false := by
    rw [Avx2.Linked.verifyA_eq _ _ _ _ _ _ _ hpkl, (C85_linked_is_model C O).2.2.2.1 _ _ _ hpkl, packSig_indep wrapSem C _ _ _ (fun k i => by decide)]
    obtain ⟨cp, hcp⟩ := challengez C
    obtain ⟨mat, hmat⟩ := matrixz C
    choose A hA using fun i j => exists_isNtt (mat i j)
    obtain ⟨a, b, -⟩ := C95_hint_at_zero J [] Kat.rho cz _ muz cp mat A rfl hmat hA rfl (by rw [d1, List.append_nil, d2]) d3.symm hcp
    rw [d4] at b
    exact ⟨a, b.trans (congrArg some (decide_eq_false (by decide)))⟩
  obtain ⟨h1, h2⟩ := hv
  generalize packSig wrapSem cz (fun _ _ => 0) oneHint = sig at hsl h1 h2 ⊢
  refine ⟨h1, h2, ?_, ?_⟩
  · unfold Avx2.Linked.cryptoOpenA
    rw [if_neg (by omega), List.take_of_length_le (by omega), List.drop_of_length_le (by omega), h1]
    rfl
  · unfold Linked.cryptoOpen
    have h : SIGLEN = 2420 := rfl
    rw [if_neg (by omega), List.take_of_length_le (by omega), List.drop_of_length_le (by omega), h2]
    rfl

/-- C99: the two builds of the same library disagree: there are a public key of the right size and a signature of the right size on the empty message
that the AVX2 build accepts and the portable build rejects, whatever uninitialised memory contains. -/
theorem C99_builds_disagree : ∃ pk sig : Bytes, pk.length = 1312 ∧ sig.length = 2420 ∧ ∀ (C : CSem) (O : Oob) (K : Fin 4 → KJ) (J : VerifyJunk),
    Avx2.Linked.verifyA C O K J sig [] pk = some true ∧ Linked.verify C O sig [] pk = some false ∧
    Avx2.Linked.cryptoOpenA C O K J sig pk = some (some []) ∧ Linked.cryptoOpen C O sig pk = some none := by
  obtain ⟨pk, sig, h1, h2, -, h⟩ := disagree_at
  exact ⟨pk, sig, h1, h2, h⟩

end Verif.Props
