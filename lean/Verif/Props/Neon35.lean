import Verif.Neon35.Indep
import Verif.Neon35.Stores
import Verif.Props.Neon
import Verif.Dilithium35.Toy

/-!
# C120, C121: the aarch64 (NEON) code of Dilithium3 and Dilithium5

On aarch64 the Rust wrapper calls pqclean/crypto_sign/dilithium3/aarch64 and dilithium5/aarch64 (dilithium3.rs, dilithium5.rs).  All assembly routines but one
are those of dilithium2 (C105); the inner product is assembled for vectors of 5 and of 7 polynomials.  `M` is the rest of the machine when a routine is called:
arbitrary registers and memory.  `md` is the parameter set.
-/

namespace Verif.Props
open Verif.Avx2 (VPoly ti)
open Verif.Neon35
open Verif.Neon (SixBlocks call_frame run)
open Verif.Dilithium (CSem Shake wrapSem toyH stream128 shake256 shake256_len montgomeryReduce mont_mod)
open Verif.Dilithium35

variable {md : Mode} {C : CSem} {H : Shake}

/-! ## C120: the inner product -/

/-- C120: the row-by-vector product of 5 (dilithium3) or 7 (dilithium5) products, one reduction at the end: `2^-32` times the sum of products modulo `q`, of
absolute value at most `q`. -/
theorem C120_pointwise_acc (md : Mode) (M : Neon.Mach) (u v : Fin md.L → VPoly) (A B : Int) (hu : ∀ k i, -A ≤ ti (u k) i ∧ ti (u k) i ≤ A)
    (hv : ∀ k i, -B ≤ ti (v k) i ∧ ti (v k) i ≤ B) (h : 7 * (A * B) ≤ 2 ^ 31 * 8380417 - 8380417) (i : Fin 256) :
    (8380417 : Int) ∣ ti (Neon35.pointwiseAccN md M u v) i * 2 ^ 32 - ∑ k, ti (u k) i * ti (v k) i ∧ |ti (Neon35.pointwiseAccN md M u v) i| ≤ 8380417 := by
  have hq : 7 * (A * B) ≤ 2147483647 * Dilithium.Q := by simp only [Dilithium.Q]; omega
  have e := pointwiseAccN_int wrapSem md M u v (A * B) (fun k i => Dilithium.mul_bnd (hu k i) (hv k i)) hq i
  have r := pointwiseAccN_res wrapSem md M u v A B hu hv hq
  refine ⟨?_, abs_le.2 (r.2 i)⟩
  have m := mont_mod (C := wrapSem) (∑ k, ti (u k) i * ti (v k) i) (by simp only [Dilithium.Q] at *; omega) (by simp only [Dilithium.Q] at *; omega)
  rw [← e.1] at m
  exact m

/-- C120: the routines write only to their output, the first 256 words of memory, whatever memory and registers contain. -/
theorem C120_writes (M : Neon.Mach) (x : Nat) (hx : 256 ≤ x) :
    (run (M.args [0, 256, 1536, 2816]) Neon.pointwiseAccAsm5).mem x = M.mem x ∧ (run (M.args [0, 256, 2048, 3840]) Neon.pointwiseAccAsm7).mem x = M.mem x :=
  ⟨call_frame 256 _ _ acc5_stores M x hx, call_frame 256 _ _ acc7_stores M x hx⟩

/-- C120: the masking vectors are those of the portable code, always. -/
theorem C120_masks (md : Mode) (seed : Bytes) (nonce : UInt16) : Neon35.vecUniformGamma1N md C H seed nonce = Dilithium35.vecUniformGamma1 md C H seed nonce :=
  Neon35.vecUniformGamma1N_eq seed nonce

-- The bound is met by a matrix row and a transformed vector.
example : 7 * (8380417 * (8380417 + 8 * 8380417)) ≤ 2 ^ 31 * 8380417 - (8380417 : Int) := by decide
-- Vectors of ones: the sum of products is 5.
example (M : Neon.Mach) (i : Fin 256) : (8380417 : Int) ∣ ti (Neon35.pointwiseAccN .three M (fun _ _ => 1) fun _ _ => 1) i * 2 ^ 32 - 5 := by
  have o : ∀ k, ti (fun _ => 1) k = 1 := fun _ => show (1 : Avx2.W32).toInt = 1 by decide
  have := (C120_pointwise_acc .three M (fun _ _ => 1) (fun _ _ => 1) 1 1 (fun k i => by rw [o]; omega) (fun k i => by rw [o]; omega) (by decide) i).1
  simp only [o] at this
  exact this

/-! ## C121: keys, signatures and verification -/

/-- Six blocks contain enough candidates for each entry of the matrix of seed `rho` (30 entries for dilithium3, 56 for dilithium5). -/
def MatrixEnough35 (md : Mode) (H : Shake) (rho : Bytes) : Prop := ∀ (i : Fin md.K) (j : Fin md.L), SixBlocksEnough (stream128 H rho (UInt16.ofNat (i.1 * 256 + j.1)))

theorem matrixEnough35_iff (rho : Bytes) : MatrixEnough35 md H rho ↔ SixBlocksMat md H rho :=
  forall_congr' fun _ => forall_congr' fun _ => sixBlocks_iff _

/-- C121: the aarch64 code returns the keys, the signatures, the verdicts and the opened messages that the portable code returns, for all coins, messages, byte
strings as signature, and byte strings as secret or public key, if six blocks are enough for the matrix of the key. -/
theorem C121_same (md : Mode) (M : Neon.Mach) :
    (∀ coins, MatrixEnough35 md H ((shake256 H 128 (coins.take 32)).take 32) → Neon35.keypairN md C H M coins = Dilithium35.keypairDet md C H coins) ∧
    (∀ m sk, MatrixEnough35 md H (sk.take 32) →
      Neon35.signatureN md C H M m sk = Dilithium35.signature md C H m sk ∧ Neon35.cryptoSignN md C H M m sk = Dilithium35.cryptoSign md C H m sk) ∧
    (∀ sig m pk, md.PKLEN ≤ pk.length → MatrixEnough35 md H (pk.take 32) → Neon35.verifyN md C H M sig m pk = Dilithium35.verify md C H sig m pk) ∧
    (∀ sm pk, md.PKLEN ≤ pk.length → MatrixEnough35 md H (pk.take 32) → Neon35.cryptoOpenN md C H M sm pk = Dilithium35.cryptoOpen md C H sm pk) :=
  ⟨fun coins h => Neon35.keypairN_eq coins ((matrixEnough35_iff _).1 h),
    fun m sk h => ⟨Neon35.signatureN_eq m sk ((matrixEnough35_iff _).1 h), Neon35.cryptoSignN_eq m sk ((matrixEnough35_iff _).1 h)⟩,
    fun sig m pk hp h => Neon35.verifyN_eq sig m pk hp ((matrixEnough35_iff _).1 h), fun sm pk hp h => Neon35.cryptoOpenN_eq sm pk hp ((matrixEnough35_iff _).1 h)⟩

theorem keypair35_rho {coins pk sk : Bytes} (h : Dilithium35.keypairDet md C H coins = some (pk, sk)) :
    pk.take 32 = (shake256 H 128 (coins.take 32)).take 32 ∧ sk.take 32 = (shake256 H 128 (coins.take 32)).take 32 ∧ pk.length = md.PKLEN := by
  have hs : (shake256 H 128 (coins.take 32)).length = 128 := shake256_len _ _
  unfold Dilithium35.keypairDet at h
  generalize shake256 H 128 (coins.take 32) = sb at h hs ⊢
  simp only [Option.bind_eq_bind, Option.bind_eq_some_iff, Option.pure_def, Option.some.injEq, Prod.mk.injEq] at h
  obtain ⟨mat, hmat, s1, hs1, s2, hs2, rfl, rfl⟩ := h
  refine ⟨?_, ?_, packPk_len _ _ (by simp [hs])⟩
  · unfold Dilithium35.packPk
    rw [List.take_left' (by simp [hs])]
    simp
  · unfold Dilithium35.packSk
    simp only [List.append_assoc]
    rw [List.take_left' (by simp [hs])]
    simp

/-- C121: keys made by the aarch64 or the portable code, a signature made by either under that key, verification by either: it is accepted, and the signed
message opens to the message. -/
theorem C121_honest (md : Mode) (M1 M2 M3 : Neon.Mach) (coins pk sk m : Bytes) (h6 : MatrixEnough35 md H ((shake256 H 128 (coins.take 32)).take 32))
    (hk : Neon35.keypairN md C H M1 coins = some (pk, sk) ∨ Dilithium35.keypairDet md C H coins = some (pk, sk)) :
    (∀ sig, Neon35.signatureN md C H M2 m sk = some sig ∨ Dilithium35.signature md C H m sk = some sig →
      Neon35.verifyN md C H M3 sig m pk = some true ∧ Dilithium35.verify md C H sig m pk = some true) ∧
    (∀ sm, Neon35.cryptoSignN md C H M2 m sk = some sm ∨ Dilithium35.cryptoSign md C H m sk = some sm →
      Neon35.cryptoOpenN md C H M3 sm pk = some (some m) ∧ Dilithium35.cryptoOpen md C H sm pk = some (some m)) := by
  rw [(C121_same md M1).1 coins h6, or_self] at hk
  obtain ⟨e1, e2, e3⟩ := keypair35_rho hk
  obtain ⟨a, b⟩ := (C121_same (C := C) (H := H) md M2).2.1 m sk (by rw [e2]; exact h6)
  have v := fun sig => (C121_same (C := C) (H := H) md M3).2.2.1 sig m pk e3.ge (by rw [e1]; exact h6)
  have o := fun sm => (C121_same (C := C) (H := H) md M3).2.2.2 sm pk e3.ge (by rw [e1]; exact h6)
  refine ⟨fun sig hs => ?_, fun sm hs => ?_⟩
  · rw [a, or_self] at hs
    rw [v, and_self]
    exact (Dilithium35.verify_signature hk hs).1
  · rw [b, or_self] at hs
    rw [o, and_self]
    exact Dilithium35.open_sign hk hs

/-- C121: the aarch64 code with itself needs no condition: a signature it makes under a key it made is accepted by it, and the signed message opens to the
message. -/
theorem C121_own (md : Mode) (M1 M2 M3 : Neon.Mach) (coins pk sk m : Bytes) (hk : Neon35.keypairN md C H M1 coins = some (pk, sk)) :
    (∀ sig, Neon35.signatureN md C H M2 m sk = some sig → Neon35.verifyN md C H M3 sig m pk = some true) ∧
    (∀ sm, Neon35.cryptoSignN md C H M2 m sk = some sm → Neon35.cryptoOpenN md C H M3 sm pk = some (some m)) := by
  obtain ⟨a, b⟩ := H
  have hl : ((shake256 ⟨a, b⟩ 128 (coins.take 32)).take 32).length = 32 := by
    rw [List.length_take, shake256_len]; rfl
  obtain ⟨mat, hm⟩ : ∃ mat, Neon35.matrixExpandN md C ⟨a, b⟩ ((shake256 ⟨a, b⟩ 128 (coins.take 32)).take 32) = some mat := by
    unfold Neon35.keypairN at hk
    generalize shake256 ⟨a, b⟩ 128 (coins.take 32) = sb at hk ⊢
    dsimp only at hk
    rw [Option.bind_eq_bind, Option.bind_eq_some_iff] at hk
    exact ⟨hk.choose, hk.choose_spec.1⟩
  obtain ⟨a', h6', hc'⟩ := Neon35.other_exists hl hm
  have hc : ∀ rho, rho = (shake256 ⟨a, b⟩ 128 (coins.take 32)).take 32 → Neon35.matrixExpandN md C ⟨a', b⟩ rho = Neon35.matrixExpandN md C ⟨a, b⟩ rho := by
    rintro rho rfl
    exact hc' C
  rw [← Neon35.keypairN_congr coins (hc _ rfl)] at hk
  have h6 : MatrixEnough35 md ⟨a', b⟩ ((shake256 ⟨a', b⟩ 128 (coins.take 32)).take 32) := (matrixEnough35_iff _).2 h6'
  obtain ⟨v, o⟩ := C121_honest md M1 M2 M3 coins pk sk m h6 (Or.inl hk)
  have hk' := hk
  rw [(C121_same md M1).1 coins h6] at hk'
  obtain ⟨e1, e2, -⟩ := keypair35_rho hk'
  have e1' : pk.take 32 = (shake256 ⟨a, b⟩ 128 (coins.take 32)).take 32 := e1
  have e2' : sk.take 32 = (shake256 ⟨a, b⟩ 128 (coins.take 32)).take 32 := e2
  refine ⟨fun sig hs => ?_, fun sm hs => ?_⟩
  · rw [← Neon35.signatureN_congr m sk (hc _ e2')] at hs
    rw [← Neon35.verifyN_congr sig m pk (hc _ e1')]
    exact (v sig (Or.inl hs)).1
  · rw [← Neon35.cryptoSignN_congr m sk (hc _ e2')] at hs
    rw [← Neon35.cryptoOpenN_congr sm pk (hc _ e1')]
    exact (o sm (Or.inl hs)).1

/-- C121: results do not depend on registers, on other memory, or on what a signed overflow or an out-of-bounds read would do, on any coins, message, signature
string or string of the length of a key, whether or not six blocks are enough. -/
theorem C121_no_undefined_behaviour (md : Mode) (C C' : CSem) (H : Shake) (M M' : Neon.Mach) :
    (∀ coins, Neon35.keypairN md C H M coins = Neon35.keypairN md C' H M' coins) ∧
    (∀ m sk, md.SKLEN ≤ sk.length → Neon35.signatureN md C H M m sk = Neon35.signatureN md C' H M' m sk ∧
      Neon35.cryptoSignN md C H M m sk = Neon35.cryptoSignN md C' H M' m sk) ∧
    (∀ sig m pk, md.PKLEN ≤ pk.length → Neon35.verifyN md C H M sig m pk = Neon35.verifyN md C' H M' sig m pk) ∧
    (∀ sm pk, md.PKLEN ≤ pk.length → Neon35.cryptoOpenN md C H M sm pk = Neon35.cryptoOpenN md C' H M' sm pk) :=
  ⟨Neon35.keypairN_indep C C' H M M', fun m sk h => ⟨Neon35.signatureN_indep C C' H M M' m sk h, Neon35.cryptoSignN_indep C C' H M M' m sk h⟩,
    Neon35.verifyN_indep C C' H M M', Neon35.cryptoOpenN_indep C C' H M M'⟩

theorem toy_enough35 (md : Mode) (rho : Bytes) : MatrixEnough35 md toyH rho := by
  intro i j
  rw [sixBlocks_iff]
  unfold SixBlocks
  show 256 ≤ (Dilithium.accUniform (fun n => if n % 3 = 0 then 1 else 0) 0 336).length
  decide +kernel

example (md : Mode) (M : Neon.Mach) (coins m : Bytes) : ∃ pk sk sig, Neon35.keypairN md wrapSem toyH M coins = some (pk, sk) ∧
    Neon35.signatureN md wrapSem toyH M m sk = some sig ∧ Neon35.verifyN md wrapSem toyH M sig m pk = some true := by
  obtain ⟨pk, sk, hk⟩ := Dilithium35.toy_keypair (md := md) coins
  obtain ⟨sig, hs⟩ := Dilithium35.toy_signs coins pk sk m hk
  refine ⟨pk, sk, sig, by rw [(C121_same md M).1 coins (toy_enough35 md _), hk], by rw [((C121_same md M).2.1 m sk (toy_enough35 md _)).1, hs], ?_⟩
  exact ((C121_honest md M M M coins pk sk m (toy_enough35 md _) (Or.inr hk)).1 sig (Or.inr hs)).1

end Verif.Props
