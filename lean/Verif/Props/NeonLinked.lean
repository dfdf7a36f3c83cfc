import Verif.Neon.SignLinkedLemmas
import Verif.Neon.Indep
import Verif.Props.Neon
import Verif.Props.Kat

/-!
# C111: the aarch64 code of Dilithium2 together with the hash code it is linked with

`Verif/Neon/SignLinked.lean` models the aarch64 functions down to the instructions of the two-way Keccak permutation and to fips202.c: no hash function is
left as a parameter.  `E` and `E'` hold, for each call of a two-way hash function, the version of the permutation that is compiled in, the registers, the
uninitialised state and the bytes behind the inputs; `M` the registers and memory when an assembly routine is called; `C` and `O` what undefined behaviour
would do.
-/

namespace Verif.Props
open Verif Verif.Keccak
open Verif.Dilithium hiding W32 toI32_id
open Verif.Neon.X2 (KJ)

/-- C111: the two linked programs make the same keys, signatures, signed messages, verdicts and opened messages, if six blocks of SHAKE128 are enough for
each entry of the matrix of the key. -/
theorem C111_same (C C' : CSem) (O O' : Oob) (M : Neon.Mach) (E : Fin 4 → Fin 2 → KJ) (E' : Nat → Fin 2 → KJ) :
    (∀ coins : Bytes, coins.length = 32 → MatrixEnough fipsShake ((Dilithium.shake256 fipsShake 128 coins).take 32) →
      Neon.Linked.keypair C O M E coins = Linked.keypairDet C' O' coins) ∧
    (∀ m sk : Bytes, sk.length = 2560 → MatrixEnough fipsShake (sk.take 32) →
      Neon.Linked.signature C O M E E' m sk = Linked.signature C' O' m sk ∧ Neon.Linked.cryptoSign C O M E E' m sk = Linked.cryptoSign C' O' m sk) ∧
    (∀ sig m pk : Bytes, pk.length = 1312 → MatrixEnough fipsShake (pk.take 32) → Neon.Linked.verify C O M E sig m pk = Linked.verify C' O' sig m pk) ∧
    (∀ sm pk : Bytes, pk.length = 1312 → MatrixEnough fipsShake (pk.take 32) → Neon.Linked.cryptoOpen C O M E sm pk = Linked.cryptoOpen C' O' sm pk) := by
  obtain ⟨s1, s2, s3, s4⟩ := C107_same (C := C) (H := fipsShake) M
  obtain ⟨l1, l2, l3, l4, l5⟩ := C85_linked_is_model C O
  obtain ⟨n1, n2, n3, n4⟩ := C85_no_undefined_behaviour C C' O O'
  refine ⟨fun coins h h6 => ?_, fun m sk h h6 => ⟨?_, ?_⟩, fun sig m pk h h6 => ?_, fun sm pk h h6 => ?_⟩
  · rw [Neon.Linked.keypair_eq _ _ _ _ _ h, s1 coins (by rw [List.take_of_length_le h.le]; exact h6), ← l1 _ h, n1 _ h]
  · rw [Neon.Linked.signature_eq _ _ _ _ _ _ _ h, (s2 m sk h6).1, ← l2 _ _ h, n2 _ _ h]
  · rw [Neon.Linked.cryptoSign_eq _ _ _ _ _ _ _ h, (s2 m sk h6).2, ← l3 _ _ h]
    unfold Linked.cryptoSign
    rw [n2 _ _ h]
  · rw [Neon.Linked.verify_eq _ _ _ _ _ _ _ h, s3 _ _ _ h.ge h6, ← l4 _ _ _ h, n3 _ _ _ h]
  · rw [Neon.Linked.cryptoOpen_eq _ _ _ _ _ _ h, s4 _ _ h.ge h6, ← l5 _ _ h, n4 _ _ h]

/-- A generated key pair begins, in both parts, with the seed of its matrix. -/
theorem keypairN_rho {C : CSem} {H : Shake} {M : Neon.Mach} {coins pk sk : Bytes} (h : Neon.keypairN C H M coins = some (pk, sk)) :
    pk.take 32 = (Dilithium.shake256 H 128 (coins.take 32)).take 32 ∧ sk.take 32 = (Dilithium.shake256 H 128 (coins.take 32)).take 32 ∧
    pk.length = 1312 ∧ sk.length = 2560 := by
  have hs : (Dilithium.shake256 H 128 (coins.take 32)).length = 128 := shake256_len _ _
  unfold Neon.keypairN at h
  generalize Dilithium.shake256 H 128 (coins.take 32) = sb at h hs ⊢
  simp only [Option.bind_eq_bind, Option.bind_eq_some_iff, Option.pure_def, Option.some.injEq, Prod.mk.injEq] at h
  obtain ⟨mat, hmat, s1, hs1, s2, hs2, rfl, rfl⟩ := h
  have hp : ∀ t1, (packPk (sb.take 32) t1).take 32 = sb.take 32 ∧ (packPk (sb.take 32) t1).length = 1312 := fun t1 => by
    have l : (sb.take 32).length = 32 := by simp [hs]
    refine ⟨?_, packPk_len _ _ l⟩
    unfold packPk
    rw [List.take_left' (by simp [hs])]
    simp
  refine ⟨(hp _).1, ?_, (hp _).2, ?_⟩
  · unfold packSk
    simp only [List.append_assoc]
    rw [List.take_left' (by simp [hs])]
    simp
  · unfold packSk
    simp only [List.length_append, List.length_take, List.length_drop, shake256_len, hs]
    rw [flat4_len _ 96 (fun i => polyetaPack_len _), flat4_len _ 96 (fun i => polyetaPack_len _), flat4_len _ 416 (fun i => polyt0Pack_len _)]
    rfl

/-- C111: keys made by either linked program, a signature made by either, verification by either: it is accepted, and the signed message opens to the message,
if six blocks of SHAKE128 are enough for each entry of the matrix, whose seed is the first 32 bytes of the public key. -/
theorem C111_honest (C : CSem) (O : Oob) (M M' M'' : Neon.Mach) (E1 E2 E3 : Fin 4 → Fin 2 → KJ) (E' : Nat → Fin 2 → KJ) (coins pk sk m : Bytes)
    (hc : coins.length = 32) (h6 : MatrixEnough fipsShake (pk.take 32))
    (hk : Neon.Linked.keypair C O M E1 coins = some (pk, sk) ∨ Linked.keypairDet C O coins = some (pk, sk)) :
    (∀ sig, Neon.Linked.signature C O M' E2 E' m sk = some sig ∨ Linked.signature C O m sk = some sig →
      Neon.Linked.verify C O M'' E3 sig m pk = some true ∧ Linked.verify C O sig m pk = some true) ∧
    (∀ sm, Neon.Linked.cryptoSign C O M' E2 E' m sk = some sm ∨ Linked.cryptoSign C O m sk = some sm →
      Neon.Linked.cryptoOpen C O M'' E3 sm pk = some (some m) ∧ Linked.cryptoOpen C O sm pk = some (some m)) := by
  obtain ⟨l1, l2, l3, l4, l5⟩ := C85_linked_is_model C O
  rw [Neon.Linked.keypair_eq _ _ _ _ _ hc, l1 _ hc] at hk
  have hr : MatrixEnough fipsShake ((Dilithium.shake256 fipsShake 128 (coins.take 32)).take 32) := by
    rcases hk with h | h
    · rw [← (keypairN_rho h).1]; exact h6
    · rw [← (keypair_rho h).1]; exact h6
  have hk' : keypairDet C fipsShake coins = some (pk, sk) := by
    rw [(C107_same M).1 coins hr, or_self] at hk
    exact hk
  obtain ⟨hp, hs⟩ : pk.length = 1312 ∧ sk.length = 2560 := Avx2.keypairDet_len hk'
  obtain ⟨v, o⟩ := C107_honest M M' M'' coins pk sk m hr hk
  refine ⟨fun sig h => ?_, fun sm h => ?_⟩
  · rw [Neon.Linked.signature_eq _ _ _ _ _ _ _ hs, l2 _ _ hs] at h
    rw [Neon.Linked.verify_eq _ _ _ _ _ _ _ hp, l4 _ _ _ hp]
    exact v sig h
  · rw [Neon.Linked.cryptoSign_eq _ _ _ _ _ _ _ hs, l3 _ _ hs] at h
    rw [Neon.Linked.cryptoOpen_eq _ _ _ _ _ _ hp, l5 _ _ hp]
    exact o sm h

/-- C111: no undefined behaviour, and no dependence on registers, uninitialised memory or the version of the permutation, on any coins, message, signature
string or string of the length of a key, whether or not six blocks are enough. -/
theorem C111_no_undefined_behaviour (C C' : CSem) (O O' : Oob) (M M' : Neon.Mach) (E1 E2 : Fin 4 → Fin 2 → KJ) (E1' E2' : Nat → Fin 2 → KJ) :
    (∀ coins : Bytes, coins.length = 32 → Neon.Linked.keypair C O M E1 coins = Neon.Linked.keypair C' O' M' E2 coins) ∧
    (∀ m sk : Bytes, sk.length = 2560 → Neon.Linked.signature C O M E1 E1' m sk = Neon.Linked.signature C' O' M' E2 E2' m sk) ∧
    (∀ m sk : Bytes, sk.length = 2560 → Neon.Linked.cryptoSign C O M E1 E1' m sk = Neon.Linked.cryptoSign C' O' M' E2 E2' m sk) ∧
    (∀ sig m pk : Bytes, pk.length = 1312 → Neon.Linked.verify C O M E1 sig m pk = Neon.Linked.verify C' O' M' E2 sig m pk) ∧
    (∀ sm pk : Bytes, pk.length = 1312 → Neon.Linked.cryptoOpen C O M E1 sm pk = Neon.Linked.cryptoOpen C' O' M' E2 sm pk) := by
  refine ⟨fun coins h => ?_, fun m sk h => ?_, fun m sk h => ?_, fun sig m pk h => ?_, fun sm pk h => ?_⟩
  · rw [Neon.Linked.keypair_eq _ _ _ _ _ h, Neon.Linked.keypair_eq _ _ _ _ _ h, Neon.keypairN_indep C C' fipsShake M M']
  · rw [Neon.Linked.signature_eq _ _ _ _ _ _ _ h, Neon.Linked.signature_eq _ _ _ _ _ _ _ h, Neon.signatureN_indep C C' fipsShake M M' _ _ h.ge]
  · rw [Neon.Linked.cryptoSign_eq _ _ _ _ _ _ _ h, Neon.Linked.cryptoSign_eq _ _ _ _ _ _ _ h, Neon.cryptoSignN_indep C C' fipsShake M M' _ _ h.ge]
  · rw [Neon.Linked.verify_eq _ _ _ _ _ _ _ h, Neon.Linked.verify_eq _ _ _ _ _ _ _ h, Neon.verifyN_indep C C' fipsShake M M' _ _ _ h.ge]
  · rw [Neon.Linked.cryptoOpen_eq _ _ _ _ _ _ h, Neon.Linked.cryptoOpen_eq _ _ _ _ _ _ h, Neon.cryptoOpenN_indep C C' fipsShake M M' _ _ h.ge]

/-- C111: the linked aarch64 program with itself needs no condition: a signature it makes under a key it made is accepted by it, and the signed message opens
to the message. -/
theorem C111_own (C C' C'' : CSem) (O O' O'' : Oob) (M M' M'' : Neon.Mach) (E1 E2 E3 : Fin 4 → Fin 2 → KJ) (E' : Nat → Fin 2 → KJ) (coins pk sk m : Bytes)
    (hc : coins.length = 32) (hk : Neon.Linked.keypair C O M E1 coins = some (pk, sk)) :
    (∀ sig, Neon.Linked.signature C' O' M' E2 E' m sk = some sig → Neon.Linked.verify C'' O'' M'' E3 sig m pk = some true) ∧
    (∀ sm, Neon.Linked.cryptoSign C' O' M' E2 E' m sk = some sm → Neon.Linked.cryptoOpen C'' O'' M'' E3 sm pk = some (some m)) := by
  obtain ⟨-, -, hp, hs⟩ : _ ∧ _ ∧ pk.length = 1312 ∧ sk.length = 2560 := keypairN_rho (by rw [← Neon.Linked.keypair_eq C O M E1 coins hc]; exact hk)
  obtain ⟨n1, -, -, n4, n5⟩ := C111_no_undefined_behaviour C C' O O' M M' E1 E2 E' E'
  obtain ⟨-, -, -, n4', n5'⟩ := C111_no_undefined_behaviour C'' C' O'' O' M'' M' E3 E2 E' E'
  rw [n1 _ hc, Neon.Linked.keypair_eq _ _ _ _ _ hc] at hk
  obtain ⟨v, o⟩ := C107_own M' M' M' coins pk sk m hk
  refine ⟨fun sig h => ?_, fun sm h => ?_⟩
  · rw [n4' _ _ _ hp, Neon.Linked.verify_eq _ _ _ _ _ _ _ hp]
    exact v sig (by rw [← Neon.Linked.signature_eq C' O' M' E2 E' m sk hs]; exact h)
  · rw [n5' _ _ hp, Neon.Linked.cryptoOpen_eq _ _ _ _ _ _ hp]
    exact o sm (by rw [← Neon.Linked.cryptoSign_eq C' O' M' E2 E' m sk hs]; exact h)

/-! ## Not vacuous: the known-answer test -/

open Dilithium.Eval in
theorem enough_of (x : Bytes) (n : UInt16) (l : List Int) (h : (Keccak.shake128 someOob 840 (x ++ nonceBytes n)).map (rejUniform 256) = some l)
    (hl : l.length = 256) : SixBlocksEnough (stream128 fipsShake x n) := by
  obtain ⟨b, hb, rfl⟩ := Option.map_eq_some_iff.1 h
  have d := digest128 someOob _ _ _ hb
  have r := rejUniform_squeeze (stream128 fipsShake x n) 280 256 0
  have d' : squeeze (stream128 fipsShake x n) (3 * 0) (3 * 280) = b := d
  rw [d'] at r
  rw [r, List.length_take] at hl
  rw [sixBlocks_iff]
  unfold Neon.SixBlocks
  have := accUniform_mono (stream128 fipsShake x n) 280 336 (by decide)
  omega

open Dilithium.Kat Dilithium.Eval in
/-- Six blocks are enough for the key of the known-answer test. -/
theorem kat_enough : MatrixEnough fipsShake Kat.rho := fun i j => by
  match i with
  | 0 =>
    match j with
    | 0 => exact enough_of rho 0 m00 mat00 (unp_len _ _)
    | 1 => exact enough_of rho 1 m01 mat01 (unp_len _ _)
    | 2 => exact enough_of rho 2 m02 mat02 (unp_len _ _)
    | 3 => exact enough_of rho 3 m03 mat03 (unp_len _ _)
  | 1 =>
    match j with
    | 0 => exact enough_of rho 256 m10 mat10 (unp_len _ _)
    | 1 => exact enough_of rho 257 m11 mat11 (unp_len _ _)
    | 2 => exact enough_of rho 258 m12 mat12 (unp_len _ _)
    | 3 => exact enough_of rho 259 m13 mat13 (unp_len _ _)
  | 2 =>
    match j with
    | 0 => exact enough_of rho 512 m20 mat20 (unp_len _ _)
    | 1 => exact enough_of rho 513 m21 mat21 (unp_len _ _)
    | 2 => exact enough_of rho 514 m22 mat22 (unp_len _ _)
    | 3 => exact enough_of rho 515 m23 mat23 (unp_len _ _)
  | 3 =>
    match j with
    | 0 => exact enough_of rho 768 m30 mat30 (unp_len _ _)
    | 1 => exact enough_of rho 769 m31 mat31 (unp_len _ _)
    | 2 => exact enough_of rho 770 m32 mat32 (unp_len _ _)
    | 3 => exact enough_of rho 771 m33 mat33 (unp_len _ _)

theorem kat_pk_rho : Kat.pk.take 32 = Kat.rho ∧ Kat.sk.take 32 = Kat.rho ∧ (Dilithium.shake256 fipsShake 128 Kat.coins).take 32 = Kat.rho := by
  obtain ⟨h1, h2, -⟩ := keypair_rho Kat.kat_keypair
  have e : (Dilithium.shake256 fipsShake 128 Kat.coins).take 32 = Kat.rho := by
    have hd : Dilithium.shake256 fipsShake 128 Kat.coins = Kat.K.rho ++ Kat.K.rhop ++ Kat.K.key := Kat.K_ok.seed
    rw [hd, List.append_assoc, List.take_left' Kat.K_ok.lrho]
    rfl
  rw [List.take_of_length_le kat_len.1.le, e] at h1 h2
  exact ⟨h1, h2, e⟩

/-- C111 is not empty: the aarch64 program makes the keys and the signature of the known-answer test, and accepts it, whatever the machine. -/
theorem kat_neon (C : CSem) (O : Oob) (M : Neon.Mach) (E : Fin 4 → Fin 2 → KJ) (E' : Nat → Fin 2 → KJ) :
    Neon.Linked.keypair C O M E Kat.coins = some (Kat.pk, Kat.sk) ∧ Neon.Linked.signature C O M E E' Kat.msg0 Kat.sk = some Kat.sig0 ∧
    Neon.Linked.verify C O M E Kat.sig0 Kat.msg0 Kat.pk = some true := by
  obtain ⟨lc, lm, lp, ls, lg⟩ := kat_len
  obtain ⟨e1, e2, e3⟩ := kat_pk_rho
  obtain ⟨s1, s2, s3, -⟩ := C111_same C C O O M E E'
  obtain ⟨hk, hs, hv, -, -⟩ := kat_linked C O
  exact ⟨by rw [s1 _ lc (by rw [e3]; exact kat_enough), hk], by rw [(s2 _ _ ls (by rw [e2]; exact kat_enough)).1, hs],
    by rw [s3 _ _ _ lp (by rw [e1]; exact kat_enough), hv]⟩

end Verif.Props
