import Verif.Dilithium35.LinkedLemmas
import Verif.Props.Dilithium35
import Verif.Props.DilithiumLinked

/-! # C127: Dilithium3 and Dilithium5 together with the hash code they are linked with

`Verif/Dilithium35/Linked.lean` models the C functions down to the Keccak permutation: no hash function is left as a parameter.  `C` and `O` say what
undefined behaviour in the Dilithium code and in fips202.c would do; the results do not depend on them. -/

namespace Verif.Props
open Verif Verif.Keccak Verif.Dilithium35
open Verif.Dilithium (CSem Poly)
open Verif.Dilithium.Spec (Rq IsNtt)

variable (md : Mode) (C : CSem) (O : Oob)

/-- C127: the linked program is the model with FIPS 202 for its hash functions (so every theorem about the model with `H = fipsShake` is about the
linked program), in every case in which the buffers have their sizes; also in not terminating. -/
theorem C127_linked_is_model :
    (∀ coins : Bytes, coins.length = 32 → Linked.keypairDet md C O coins = keypairDet md C fipsShake coins) ∧
    (∀ m sk : Bytes, sk.length = Spec.skBytes md → Linked.signature md C O m sk = signature md C fipsShake m sk) ∧
    (∀ m sk : Bytes, sk.length = Spec.skBytes md → Linked.cryptoSign md C O m sk = cryptoSign md C fipsShake m sk) ∧
    (∀ sig m pk : Bytes, pk.length = Spec.pkBytes md → Linked.verify md C O sig m pk = verify md C fipsShake sig m pk) ∧
    (∀ sm pk : Bytes, pk.length = Spec.pkBytes md → Linked.cryptoOpen md C O sm pk = cryptoOpen md C fipsShake sm pk) := by
  rw [← d35_sk_len, ← d35_pk_len]
  exact ⟨Linked.keypairDet_eq C O, Linked.signature_eq C O, Linked.cryptoSign_eq C O, Linked.verify_eq C O, Linked.cryptoOpen_eq C O⟩

/-- C127: no undefined behaviour in the linked program. -/
theorem C127_no_undefined_behaviour (C C' : CSem) (O O' : Oob) :
    (∀ coins : Bytes, coins.length = 32 → Linked.keypairDet md C O coins = Linked.keypairDet md C' O' coins) ∧
    (∀ m sk : Bytes, sk.length = Spec.skBytes md → Linked.signature md C O m sk = Linked.signature md C' O' m sk) ∧
    (∀ sig m pk : Bytes, pk.length = Spec.pkBytes md → Linked.verify md C O sig m pk = Linked.verify md C' O' sig m pk) ∧
    (∀ sm pk : Bytes, pk.length = Spec.pkBytes md → Linked.cryptoOpen md C O sm pk = Linked.cryptoOpen md C' O' sm pk) := by
  obtain ⟨h1, h2, h3, h4⟩ := C118_no_undefined_behaviour md C C' fipsShake
  obtain ⟨a1, a2, _, a4, a5⟩ := C127_linked_is_model md C O
  obtain ⟨b1, b2, _, b4, b5⟩ := C127_linked_is_model md C' O'
  refine ⟨fun c h => ?_, fun m sk h => ?_, fun s m pk h => ?_, fun sm pk h => ?_⟩
  · rw [a1 c h, b1 c h, h1]
  · rw [a2 m sk h, b2 m sk h, h2 m sk h]
  · rw [a4 s m pk h, b4 s m pk h, h3 s m pk h]
  · rw [a5 sm pk h, b5 sm pk h, h4 sm pk h]

/-- C127: in the linked program every signature made under a generated key pair verifies, and the attached form opens to the message. -/
theorem C127_verify_sign (coins pk sk m : Bytes) (hc : coins.length = 32) (hk : Linked.keypairDet md C O coins = some (pk, sk)) :
    (∀ sig, Linked.signature md C O m sk = some sig → Linked.verify md C O sig m pk = some true ∧ sig.length = Spec.sigBytes md) ∧
    (∀ sm, Linked.cryptoSign md C O m sk = some sm → Linked.cryptoOpen md C O sm pk = some (some m)) := by
  obtain ⟨h1, h2, h3, h4, h5⟩ := C127_linked_is_model md C O
  rw [h1 coins hc] at hk
  obtain ⟨hp, hs⟩ := C115_sizes coins pk sk hk
  refine ⟨fun sig h => ?_, fun sm h => ?_⟩
  · rw [h2 m sk hs] at h
    rw [h4 sig m pk hp]
    exact C115_verify_sign coins pk sk m sig hk h
  · rw [h3 m sk hs] at h
    rw [h5 sm pk hp]
    exact C115_open_sign coins pk sk m sm hk h

/-- C127: the linked verifier decides the equation of the specification with SHAKE256 for the hash function: a well-formed signature is accepted exactly
when its challenge seed (48 bytes in dilithium3, 64 in dilithium5) is the hash of `mu` and `w1' = UseHint(h, A·z - c·t1·2^13)`, `mu` being the 64-byte hash
of the 64-byte hash of the public key and the message. -/
theorem C127_verify_spec (sig m pk c : Bytes) (z : Fin md.L → Poly) (h : Fin md.K → Poly) (cp : Poly) (mat : Mat md) (A : Fin md.K → Fin md.L → Rq)
    (hl : sig.length = Spec.sigBytes md) (hpk : pk.length = Spec.pkBytes md) (hu : unpackSig md C sig = some (c, z, h))
    (hn : Spec.NormLt z (2 ^ 19 - (Spec.params md).beta)) (hcp : Linked.polyChallenge md C O c = some cp)
    (hmat : Linked.matrixExpand md C O (pk.take 32) = some mat) (hA : ∀ i j, IsNtt (A i j) (mat i j)) (tr mu c' : Bytes)
    (htr : Fips202.bitsOf tr = Fips202.SHAKE256 (Fips202.bitsOf pk) (8 * 64)) (hmu : Fips202.bitsOf mu = Fips202.SHAKE256 (Fips202.bitsOf (tr ++ m)) (8 * 64))
    (hc' : Fips202.bitsOf c' = Fips202.SHAKE256 (Fips202.bitsOf (mu ++ vecPackW1 (Spec.w1Of A z h cp (unpackPk md C pk).2))) (8 * Spec.seedBytes md)) :
    Linked.verify md C O sig m pk = some (decide (c = c')) := by
  have e1 : tr = Dilithium.shake256 fipsShake 64 pk := bitsOf_inj (htr.trans (C85_digest 64 pk).2.symm)
  have e2 : mu = Dilithium.shake256 fipsShake 64 (tr ++ m) := bitsOf_inj (hmu.trans (C85_digest 64 _).2.symm)
  have e3 := bitsOf_inj (hc'.trans (C85_digest (Spec.seedBytes md) _).2.symm)
  have hs := d35_sig_len md
  have hc : 32 ≤ c.length := by
    unfold unpackSig at hu
    cases hx : unpackHint C md.K md.OMEGA (sig.drop (md.CTILDE + md.L * 640)) with
    | none => simp [hx] at hu
    | some y =>
      simp [hx] at hu
      have := Linked.ctilde_le md
      rw [← hu.1, List.length_take, hl, ← hs]; unfold Mode.SIGLEN; omega
  rw [Linked.polyChallenge_eq C O c hc] at hcp
  rw [Linked.matrixExpand_eq C O _ (by rw [List.length_take, hpk]; cases md <;> decide)] at hmat
  rw [(C127_linked_is_model md C O).2.2.2.1 sig m pk hpk, C117_verify sig m pk c z h cp mat A hl hpk hu hn hcp hmat hA, ← e1, ← e2, ← e3]

/-- Non-vacuity of the length hypotheses: a signature with the right length is not rejected before the hashes are computed — for instance a zero
signature parses, with zero hints. -/
example (md : Mode) : ∃ sig : Bytes, sig.length = Spec.sigBytes md ∧ unpackSig md Dilithium.wrapSem sig ≠ none := by
  refine ⟨List.replicate (Spec.sigBytes md) 0, List.length_replicate, ?_⟩
  cases md <;> decide +kernel

end Verif.Props
