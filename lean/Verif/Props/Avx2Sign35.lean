import Verif.Avx235.SignEq
import Verif.Props.Avx2Verify35

/-!
# Property C126: AVX2 key generation and signing of Dilithium3 and Dilithium5

`keypairA`, `signatureA`, `cryptoSignA` model `crypto_sign_keypair`, `crypto_sign_signature`, `crypto_sign` of
pqclean/crypto_sign/dilithium{3,5}/avx2/sign.c with everything below them.  Their argument `J` is the contents of uninitialised buffers and of the
registers.  The functions without `A` are the portable implementation (C113–C118).
-/

namespace Verif.Props
open Verif.Avx235
open Verif.Dilithium (CSem Shake Poly wrapSem shake256 shake256_len toyH)
open Verif.Dilithium35 (Mode Vec Mat keypairDet signature cryptoSign verify cryptoOpen polyUniformEta vecUniformEta packPk packSk verify_signature open_sign toy_keypair toy_signs toy_eta)
open Verif (Bytes)

variable {C : CSem} {H : Shake} {md : Mode}

/-- The streams that the AVX2 key generation reads beyond the portable one, for the seed `coins`: those of `MatrixStreams` for the public seed, and
one more with nonce `L + K` for the last, unused lane of the secret vectors. -/
def KeyStreams (md : Mode) (C : CSem) (H : Shake) (coins : Bytes) : Prop :=
  MatrixStreams md C H ((shake256 H 128 (coins.take 32)).take 32) ∧
  polyUniformEta md C H (((shake256 H 128 (coins.take 32)).drop 32).take 64) (UInt16.ofNat (md.L + md.K)) ≠ none

/-- The first 32 bytes of both keys are the public seed. -/
theorem key_rho {coins pk sk : Bytes} (h : keypairDet md C H coins = some (pk, sk)) :
    pk.take 32 = (shake256 H 128 (coins.take 32)).take 32 ∧ sk.take 32 = pk.take 32 ∧ 32 ≤ sk.length := by
  unfold keypairDet at h
  simp only [Option.bind_eq_bind, Option.bind_eq_some_iff, Option.pure_def, Option.some.injEq, Prod.mk.injEq] at h
  obtain ⟨mat, hmat, s1, hs1, s2, hs2, rfl, rfl⟩ := h
  have hl : (shake256 H 128 (coins.take 32)).length = 128 := shake256_len _ _
  have h32 : ((shake256 H 128 (coins.take 32)).take 32).length = 32 := by rw [List.length_take]; omega
  generalize (shake256 H 128 (coins.take 32)).take 32 = rho at *
  have e : rho.take 32 = rho := List.take_of_length_le h32.le
  refine ⟨?_, ?_, ?_⟩
  · unfold packPk
    rw [e, List.take_left' h32]
  · unfold packPk packSk
    dsimp only
    simp only [List.append_assoc]
    rw [e, List.take_left' h32, List.take_left' h32]
  · unfold packSk
    dsimp only
    simp only [List.append_assoc]
    rw [e, List.length_append]; omega

/-! ## C126 -/

/-- C126: for every seed the AVX2 key generation makes exactly the key pair of the portable one, whatever the buffers contained; it terminates exactly
when the portable one does and the surplus streams give a polynomial too. -/
theorem C126_keypair (J : KeyJunk md) (coins pk sk : Bytes) :
    keypairA md C H J coins = some (pk, sk) ↔ keypairDet md C H coins = some (pk, sk) ∧ KeyStreams md C H coins := by
  rw [keypairA_iff]
  unfold KeyStreams
  rw [streams_iff]

/-- C126: for every secret key (also one that key generation does not make) and message, the AVX2 signature is exactly the portable signature. -/
theorem C126_signature (J : SignJunk md) (m sk sig : Bytes) (hsk : sk.length = md.SKLEN) :
    signatureA md C H J m sk = some sig ↔ signature md C H m sk = some sig ∧ MatrixStreams md C H (sk.take 32) := by
  rw [streams_iff]
  exact signatureA_iff J m sk sig (by rw [hsk]; cases md <;> decide)

/-- C126: the same for the signed message. -/
theorem C126_sign (J : SignJunk md) (m sk sm : Bytes) (hsk : sk.length = md.SKLEN) :
    cryptoSignA md C H J m sk = some sm ↔ cryptoSign md C H m sk = some sm ∧ MatrixStreams md C H (sk.take 32) := by
  rw [streams_iff]
  exact cryptoSignA_iff J m sk sm (by rw [hsk]; cases md <;> decide)

/-- C126: the contents of uninitialised memory never matter. -/
theorem C126_deterministic (K K' : KeyJunk md) (J J' : SignJunk md) (coins m sk : Bytes) (hsk : sk.length = md.SKLEN) :
    keypairA md C H K coins = keypairA md C H K' coins ∧ signatureA md C H J m sk = signatureA md C H J' m sk ∧ cryptoSignA md C H J m sk = cryptoSignA md C H J' m sk := by
  refine ⟨Option.ext fun ⟨p, s⟩ => ?_, Option.ext fun s => ?_, Option.ext fun s => ?_⟩
  · exact (C126_keypair K coins p s).trans (C126_keypair K' coins p s).symm
  · exact (C126_signature J m sk s hsk).trans (C126_signature J' m sk s hsk).symm
  · exact (C126_sign J m sk s hsk).trans (C126_sign J' m sk s hsk).symm

/-- C126: a message signed by the AVX2 code with a key of the AVX2 code is accepted and opened by both implementations; a message signed by the portable
code with that key is the same string. -/
theorem C126_honest (K : KeyJunk md) (J : SignJunk md) (V : VerifyJunk md) (coins pk sk m sig sm : Bytes) (hk : keypairA md C H K coins = some (pk, sk)) :
    (signatureA md C H J m sk = signature md C H m sk ∧ cryptoSignA md C H J m sk = cryptoSign md C H m sk) ∧
    (signatureA md C H J m sk = some sig → verifyA md C H V sig m pk = some true ∧ verify md C H sig m pk = some true) ∧
    (cryptoSignA md C H J m sk = some sm → cryptoOpenA md C H V sm pk = some (some m) ∧ cryptoOpen md C H sm pk = some (some m)) := by
  obtain ⟨hk, hx, -⟩ := (C126_keypair K coins pk sk).1 hk
  obtain ⟨e1, e2, e3⟩ := key_rho hk
  rw [← e1] at hx
  have hx2 : Extra C md H (sk.take 32) := by rw [e2]; exact streams_iff.1 hx
  have eS : signatureA md C H J m sk = signature md C H m sk := Option.ext fun s => (signatureA_iff J m sk s e3).trans (and_iff_left hx2)
  have eM : cryptoSignA md C H J m sk = cryptoSign md C H m sk := Option.ext fun s => (cryptoSignA_iff J m sk s e3).trans (and_iff_left hx2)
  rw [eS, eM]
  exact ⟨⟨rfl, rfl⟩, C124_honest V coins pk sk m sig sm hk hx⟩

theorem toy_keyStreams (coins : Bytes) : KeyStreams md wrapSem toyH coins :=
  ⟨toy_streams _, by rw [toy_eta]; simp⟩

/-- C126 is not empty: with the toy hash the AVX2 code makes keys and signs every message with them, whatever the buffers contained. -/
example (K : KeyJunk md) (J : SignJunk md) (V : VerifyJunk md) (coins m : Bytes) : ∃ pk sk sig, keypairA md wrapSem toyH K coins = some (pk, sk) ∧
    signatureA md wrapSem toyH J m sk = some sig ∧ verifyA md wrapSem toyH V sig m pk = some true := by
  obtain ⟨pk, sk, hk⟩ := toy_keypair (md := md) coins
  obtain ⟨sig, hs⟩ := toy_signs coins pk sk m hk
  have hkA := (C126_keypair K coins pk sk).2 ⟨hk, toy_keyStreams coins⟩
  have h := C126_honest K J V coins pk sk m sig [] hkA
  have hsA : signatureA md wrapSem toyH J m sk = some sig := h.1.1.trans hs
  exact ⟨pk, sk, sig, hkA, hsA, (h.2.1 hsA).1⟩

end Verif.Props
