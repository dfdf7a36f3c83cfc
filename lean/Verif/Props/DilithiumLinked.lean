import Verif.Dilithium.LinkedLemmas
import Verif.Props.Dilithium
import Verif.Dilithium.Kat.Pair

/-! # C85: Dilithium2 together with the hash code it is linked with

`Verif/Dilithium/Linked.lean` models the C functions down to the Keccak permutation: no hash function is left as a parameter.  `C` and `O` say what
undefined behaviour in the Dilithium code and in fips202.c would do; the results do not depend on them. -/

namespace Verif.Props
open Verif Verif.Keccak Verif.Dilithium
open Verif.Dilithium.Spec (Rq IsNtt)

variable (C : CSem) (O : Oob)

/-- C85: the digests in the theorems about Dilithium are, for `fipsShake`, SHAKE256 of the bytes. -/
theorem C85_digest (n : Nat) (inp : Bytes) : (Dilithium.shake256 fipsShake n inp).length = n ∧
    Fips202.bitsOf (Dilithium.shake256 fipsShake n inp) = Fips202.SHAKE256 (Fips202.bitsOf inp) (8 * n) := by
  obtain ⟨out, h1, h2, h3⟩ := C82_shake256 someOob n inp
  rw [C84_shake256_is_model, Option.some.injEq] at h1
  rw [h1]; exact ⟨h2, h3⟩

/-- C85: the linked program is the model with FIPS 202 for its hash functions (so every theorem about the model with `H = fipsShake` is about the
linked program), in every case in which the buffers have their sizes; also in not terminating. -/
theorem C85_linked_is_model :
    (∀ coins : Bytes, coins.length = 32 → Linked.keypairDet C O coins = keypairDet C fipsShake coins) ∧
    (∀ m sk : Bytes, sk.length = 2560 → Linked.signature C O m sk = signature C fipsShake m sk) ∧
    (∀ m sk : Bytes, sk.length = 2560 → Linked.cryptoSign C O m sk = cryptoSign C fipsShake m sk) ∧
    (∀ sig m pk : Bytes, pk.length = 1312 → Linked.verify C O sig m pk = verify C fipsShake sig m pk) ∧
    (∀ sm pk : Bytes, pk.length = 1312 → Linked.cryptoOpen C O sm pk = cryptoOpen C fipsShake sm pk) :=
  ⟨Linked.keypairDet_eq C O, Linked.signature_eq C O, Linked.cryptoSign_eq C O, Linked.verify_eq C O, Linked.cryptoOpen_eq C O⟩

/-- C85: no undefined behaviour in the linked program. -/
theorem C85_no_undefined_behaviour (C C' : CSem) (O O' : Oob) :
    (∀ coins : Bytes, coins.length = 32 → Linked.keypairDet C O coins = Linked.keypairDet C' O' coins) ∧
    (∀ m sk : Bytes, sk.length = 2560 → Linked.signature C O m sk = Linked.signature C' O' m sk) ∧
    (∀ sig m pk : Bytes, pk.length = 1312 → Linked.verify C O sig m pk = Linked.verify C' O' sig m pk) ∧
    (∀ sm pk : Bytes, pk.length = 1312 → Linked.cryptoOpen C O sm pk = Linked.cryptoOpen C' O' sm pk) := by
  obtain ⟨h1, h2, h3, h4⟩ := C68_no_undefined_behaviour C C' fipsShake
  obtain ⟨a1, a2, _, a4, a5⟩ := C85_linked_is_model C O
  obtain ⟨b1, b2, _, b4, b5⟩ := C85_linked_is_model C' O'
  refine ⟨fun c h => ?_, fun m sk h => ?_, fun s m pk h => ?_, fun sm pk h => ?_⟩
  · rw [a1 c h, b1 c h, h1]
  · rw [a2 m sk h, b2 m sk h, h2 m sk h]
  · rw [a4 s m pk h, b4 s m pk h, h3 s m pk h]
  · rw [a5 sm pk h, b5 sm pk h, h4 sm pk h]

/-- C85: in the linked program every signature made under a generated key pair verifies, and the attached form opens to the message. -/
theorem C85_verify_sign (coins pk sk m : Bytes) (hc : coins.length = 32) (hk : Linked.keypairDet C O coins = some (pk, sk)) :
    (∀ sig, Linked.signature C O m sk = some sig → Linked.verify C O sig m pk = some true ∧ sig.length = 2420) ∧
    (∀ sm, Linked.cryptoSign C O m sk = some sm → Linked.cryptoOpen C O sm pk = some (some m)) := by
  obtain ⟨h1, h2, h3, h4, h5⟩ := C85_linked_is_model C O
  rw [h1 coins hc] at hk
  obtain ⟨hp, hs⟩ := C62_sizes coins pk sk hk
  refine ⟨fun sig h => ?_, fun sm h => ?_⟩
  · rw [h2 m sk hs] at h
    rw [h4 sig m pk hp]
    exact C62_verify_sign coins pk sk m sig hk h
  · rw [h3 m sk hs] at h
    rw [h5 sm pk hp]
    exact C62_open_sign coins pk sk m sm hk h

/-- C85: the linked verifier decides the equation of the specification with SHAKE256 for the hash function: a well-formed signature is accepted exactly
when its challenge seed is the 32-byte hash of `mu` and `w1' = UseHint(h, A·z - c·t1·2^13)`, `mu` being the 64-byte hash of the 64-byte hash of the
public key and the message. -/
theorem C85_verify_spec (sig m pk c : Bytes) (z h : Vec) (cp : Poly) (mat : Mat) (A : Fin 4 → Fin 4 → Rq) (hl : sig.length = 2420) (hpk : pk.length = 1312)
    (hu : unpackSig C sig = some (c, z, h)) (hn : Spec.NormLt z (131072 - 78)) (hcp : Linked.polyChallenge C O c = some cp)
    (hmat : Linked.matrixExpand C O (pk.take 32) = some mat) (hA : ∀ i j, IsNtt (A i j) (mat i j)) (tr mu c' : Bytes)
    (htr : Fips202.bitsOf tr = Fips202.SHAKE256 (Fips202.bitsOf pk) (8 * 64)) (hmu : Fips202.bitsOf mu = Fips202.SHAKE256 (Fips202.bitsOf (tr ++ m)) (8 * 64))
    (hc' : Fips202.bitsOf c' = Fips202.SHAKE256 (Fips202.bitsOf (mu ++ vecPackW1 (Spec.w1Of A z h cp (unpackPk C pk).2))) (8 * 32)) :
    Linked.verify C O sig m pk = some (decide (c = c')) := by
  have e1 : tr = Dilithium.shake256 fipsShake 64 pk := bitsOf_inj (htr.trans (C85_digest 64 pk).2.symm)
  have e2 : mu = Dilithium.shake256 fipsShake 64 (tr ++ m) := bitsOf_inj (hmu.trans (C85_digest 64 _).2.symm)
  have e3 := bitsOf_inj (hc'.trans (C85_digest 32 _).2.symm)
  have hc : c.length = 32 := by
    unfold unpackSig at hu
    cases hx : unpackHint C (sig.drop 2336) with
    | none => simp [hx] at hu
    | some y => simp [hx] at hu; rw [← hu.1, List.length_take, hl]; rfl
  rw [Linked.polyChallenge_eq C O c hc] at hcp
  rw [Linked.matrixExpand_eq C O _ (by rw [List.length_take, hpk]; rfl)] at hmat
  rw [Linked.verify_eq C O sig m pk hpk, C67_verify sig m pk c z h cp mat A hl hpk hu hn hcp hmat hA, ← e1, ← e2, ← e3]

-- one at a time: the kernel's memory is freed between them
set_option Elab.async false

/-! ## A run -/

/-- Non-vacuity of C85: on the coins of the known-answer test the linked program generates the key pair of the test, under every behaviour of undefined
operations. -/
theorem keypair_kat : Linked.keypairDet C O Kat.coins = some (Kat.pk, Kat.sk) := by
  have hl : Kat.coins.length = 32 := Eval.unb_len _ _
  rw [(C85_no_undefined_behaviour C wrapSem O someOob).1 _ hl, (C85_linked_is_model wrapSem someOob).1 _ hl]
  exact Kat.kat_keypair

end Verif.Props
