import Verif.Neon.SampleLinkedLemmas

/-!
# Properties C109, C110: the two-way Keccak of dilithium2/aarch64

The assembly macros of feat.S and the intrinsics of fips202x2.c as lists of instructions (`Verif/Neon/F1600Code.lean`, semantics in `Verif/Neon/F1600.lean`),
the permutation in both versions (`Verif/Neon/F1600X2.lean`) and the rest of fips202x2.c (`Verif/Neon/Fips202x2.lean`).
-/

namespace Verif.Props

open Verif.Keccak (U64 Oob)
open Verif.Fips202
open Verif.Neon.F1600

/-! ## C109: the permutation -/

/-- Lane `l` of the 25 vectors as a FIPS 202 state array: lane `(x, y)` is in vector `5 y + x`. -/
def state2 (s : Nat → V2) (l : Fin 2) : State := fun x y z => (s (5 * y.1 + x.1) l).getLsbD z.1

private theorem state2_eq (s : Nat → V2) (l : Fin 2) : state2 s l = Keccak.abs (laneOf s l) := by
  funext x y z
  unfold state2 Keccak.abs laneOf
  rw [Vector.getElem_ofFn]

/-- C109: with the round constants of fips202x2.c, `KeccakF1600_StatePermutex2` applies KECCAK-f[1600] to each of the two states, both when it runs the SHA3
instructions (`sha3 = true`, feat.S) and when it does not, whatever the registers hold at the call. -/
theorem C109_permutation (sha3 : Bool) (regs : Nat → V2) (s : Nat → V2) (l : Fin 2) :
    state2 (f1600x2 sha3 (fun k => Neon.X2.roundConstants.getD k 0) regs s) l = keccakF (state2 s l) := by
  rw [state2_eq, state2_eq]
  exact f1600x2_abs sha3 _ (fun c _ => by rw [Neon.X2.roundConstants_eq]) _ _ _

/-- C109: the two versions return the same 25 vectors, and nothing after the 25 vectors
is written. -/
theorem C109_versions (regs regs' : Nat → V2) (s : Nat → V2) (i : Nat) :
    f1600x2 true (fun k => Neon.X2.roundConstants.getD k 0) regs s i = f1600x2 false (fun k => Neon.X2.roundConstants.getD k 0) regs' s i ∧
    (25 ≤ i → ∀ sha3 rc, f1600x2 sha3 rc regs s i = s i) := by
  have far : 25 ≤ i → ∀ sha3 rc regs, f1600x2 sha3 rc regs s i = s i := fun h sha3 rc regs => by
    unfold f1600x2 storeState; rw [if_neg (by omega)]
  refine ⟨?_, fun h sha3 rc => far h sha3 rc regs⟩
  by_cases h : i < 25
  · funext l
    have e := (f1600x2_permute true (fun k => Neon.X2.roundConstants.getD k 0) (fun c _ => by rw [Neon.X2.roundConstants_eq]) regs s l).trans
      (f1600x2_permute false (fun k => Neon.X2.roundConstants.getD k 0) (fun c _ => by rw [Neon.X2.roundConstants_eq]) regs' s l).symm
    have e' := congrArg (fun v : Keccak.Lanes => v[i]) e
    simp only [laneOf, Vector.getElem_ofFn] at e'
    exact e'
  · rw [far (by omega), far (by omega)]

set_option Elab.async false in
/-- Not vacuous: KECCAK-f[1600] of the zero state begins with the published lanes `F1258F7940E1DDE7`, `84D5CCF933C0478A`, in both lanes of both versions. -/
example (sha3 : Bool) (regs : Nat → V2) (l : Fin 2) : f1600x2 sha3 (fun k => Neon.X2.roundConstants.getD k 0) regs (fun _ _ => 0) 0 l = 0xF1258F7940E1DDE7 ∧
    f1600x2 sha3 (fun k => Neon.X2.roundConstants.getD k 0) regs (fun _ _ => 0) 1 l = 0x84D5CCF933C0478A := by
  have h := f1600x2_permute sha3 (fun k => Neon.X2.roundConstants.getD k 0) (fun c _ => by rw [Neon.X2.roundConstants_eq]) regs (fun _ _ => 0) l
  have z : laneOf (fun _ _ => (0 : U64)) l = Vector.replicate 25 0 := by
    apply Vector.ext; intro i hi; unfold laneOf; rw [Vector.getElem_ofFn, Vector.getElem_replicate]
  rw [z] at h
  have e : ∀ i (hi : i < 25), f1600x2 sha3 (fun k => Neon.X2.roundConstants.getD k 0) regs (fun _ _ => 0) i l = (Keccak.permute (Vector.replicate 25 0))[i] := by
    intro i hi
    rw [← h]
    unfold laneOf
    rw [Vector.getElem_ofFn]
  have k : (Keccak.permute (Vector.replicate 25 0))[0] = 0xF1258F7940E1DDE7 ∧ (Keccak.permute (Vector.replicate 25 0))[1] = 0x84D5CCF933C0478A := by
    decide +kernel
  exact ⟨(e 0 (by omega)).trans k.1, (e 1 (by omega)).trans k.2⟩

/-! ## C110: fips202x2.c -/

open Verif.Neon.X2 in
open Verif.Avx2.X4 (bytesOf squeeze_bits128 squeeze_bits256 take_squeeze squeeze_split) in
/-- C110: `shake128x2` outputs SHAKE128 of each of the two inputs, for every input and output length, on either version of the permutation, whatever the registers, the uninitialised state
and the bytes behind the inputs are. -/
theorem C110_shake128x2 (K : Perm) (s : Nat → V2) (outlen : Nat) (inp : Fin 2 → Nat → UInt8) (inlen : Nat) :
    ∃ out, shake128x2 K s outlen inp inlen = some out ∧
      ∀ l, (out l).length = outlen ∧ bitsOf (out l) = SHAKE128 (bitsOf ((List.range inlen).map (inp l))) (8 * outlen) := by
  let O : Oob := ⟨fun _ _ => 0, fun s _ _ => s, fun _ _ => 0⟩
  obtain ⟨s', h1, h2⟩ := absorb128 O K s inp inlen
  obtain ⟨h3, h4⟩ := h2.step (by omega) (by omega) K (outlen / 168)
  obtain ⟨h5, _⟩ := h4.step (by omega) (by omega) K 1
  have hd : outlen / 168 * 168 + (outlen - outlen / 168 * 168) = outlen := by omega
  have hb : ∀ l, bytesOf (inp l) 0 inlen = (List.range inlen).map (inp l) := fun l => by unfold bytesOf; rw [List.range_eq_range']
  have key : ∀ l, (Dilithium.squeeze (fipsShake.shake128 (bytesOf (inp l) 0 inlen)) 0 outlen).length = outlen ∧
      bitsOf (Dilithium.squeeze (fipsShake.shake128 (bytesOf (inp l) 0 inlen)) 0 outlen) = SHAKE128 (bitsOf ((List.range inlen).map (inp l))) (8 * outlen) :=
    fun l => ⟨by simp [Dilithium.squeeze], by rw [squeeze_bits128, hb]⟩
  refine ⟨fun l => Dilithium.squeeze (fipsShake.shake128 (bytesOf (inp l) 0 inlen)) 0 outlen, ?_, key⟩
  unfold shake128x2 shake128x2SqueezeBlocks
  rw [h1, Option.bind_eq_bind, Option.bind_some]
  dsimp only
  split
  · refine congrArg some (funext fun l => ?_)
    rw [h3, h5, Nat.zero_add, Nat.zero_mul, take_squeeze _ _ _ _ (by omega), ← squeeze_split _ 0 _ _ hd, Nat.zero_add]
  · rename_i h
    refine congrArg some (funext fun l => ?_)
    rw [h3, Nat.zero_mul, show outlen / 168 * 168 = outlen by omega]

open Verif.Neon.X2 in
open Verif.Avx2.X4 (bytesOf squeeze_bits128 squeeze_bits256 take_squeeze squeeze_split) in
/-- C110: the same for `shake256x2`. -/
theorem C110_shake256x2 (K : Perm) (s : Nat → V2) (outlen : Nat) (inp : Fin 2 → Nat → UInt8) (inlen : Nat) :
    ∃ out, shake256x2 K s outlen inp inlen = some out ∧
      ∀ l, (out l).length = outlen ∧ bitsOf (out l) = SHAKE256 (bitsOf ((List.range inlen).map (inp l))) (8 * outlen) := by
  let O : Oob := ⟨fun _ _ => 0, fun s _ _ => s, fun _ _ => 0⟩
  obtain ⟨s', h1, h2⟩ := absorb256 O K s inp inlen
  obtain ⟨h3, h4⟩ := h2.step (by omega) (by omega) K (outlen / 136)
  obtain ⟨h5, _⟩ := h4.step (by omega) (by omega) K 1
  have hd : outlen / 136 * 136 + (outlen - outlen / 136 * 136) = outlen := by omega
  have hb : ∀ l, bytesOf (inp l) 0 inlen = (List.range inlen).map (inp l) := fun l => by unfold bytesOf; rw [List.range_eq_range']
  have key : ∀ l, (Dilithium.squeeze (fipsShake.shake256 (bytesOf (inp l) 0 inlen)) 0 outlen).length = outlen ∧
      bitsOf (Dilithium.squeeze (fipsShake.shake256 (bytesOf (inp l) 0 inlen)) 0 outlen) = SHAKE256 (bitsOf ((List.range inlen).map (inp l))) (8 * outlen) :=
    fun l => ⟨by simp [Dilithium.squeeze], by rw [squeeze_bits256, hb]⟩
  refine ⟨fun l => Dilithium.squeeze (fipsShake.shake256 (bytesOf (inp l) 0 inlen)) 0 outlen, ?_, key⟩
  unfold shake256x2 shake256x2SqueezeBlocks
  rw [h1, Option.bind_eq_bind, Option.bind_some]
  dsimp only
  split
  · refine congrArg some (funext fun l => ?_)
    rw [h3, h5, Nat.zero_add, Nat.zero_mul, take_squeeze _ _ _ _ (by omega), ← squeeze_split _ 0 _ _ hd, Nat.zero_add]
  · rename_i h
    refine congrArg some (funext fun l => ?_)
    rw [h3, Nat.zero_mul, show outlen / 136 * 136 = outlen by omega]

/-- The outputs of consecutive `squeezeblocks` calls for the numbers of blocks `ns`, joined, for each of the two lanes. -/
def squeezes2 (sq : Nat → (Nat → V2) → (Fin 2 → Bytes) × (Nat → V2)) : List Nat → (Nat → V2) → Fin 2 → Bytes
  | [], _ => fun _ => []
  | n :: ns, s => fun l => (sq n s).1 l ++ squeezes2 sq ns (sq n s).2 l

open Verif.Neon.X2 in
open Verif.Avx2.X4 (bytesOf squeeze_bits128 squeeze_bits256 take_squeeze squeeze_split) in
private theorem squeezes2_eq (O : Oob) (K : Perm) (r : Nat) (hr : r % 32 = 8) (hr2 : r ≤ 200) (st : Fin 2 → Nat → UInt8) (ns : List Nat) :
    ∀ b s, Reads2 O r st b s → ∀ l, squeezes2 (squeezeBlocks K r) ns s l = Dilithium.squeeze (st l) (b * r) (ns.sum * r) := by
  induction ns with
  | nil => intro b s _ l; simp [squeezes2, Dilithium.squeeze]
  | cons n ns ih =>
    intro b s h l
    obtain ⟨h1, h2⟩ := h.step hr hr2 K n
    show (squeezeBlocks K r n s).1 l ++ squeezes2 (squeezeBlocks K r) ns (squeezeBlocks K r n s).2 l = _
    rw [h1, ih _ _ h2, List.sum_cons, Nat.add_mul b n r, squeeze_split _ _ _ _ (Nat.add_mul n ns.sum r).symm]

open Verif.Neon.X2 in
open Verif.Avx2.X4 (bytesOf squeeze_bits128 squeeze_bits256 take_squeeze squeeze_split) in
/-- C110: after `shake128x2_absorb`, the blocks of any sequence of `shake128x2_squeezeblocks` calls are SHAKE128 of the two inputs. -/
theorem C110_shake128x2_blocks (K : Perm) (s : Nat → V2) (inp : Fin 2 → Nat → UInt8) (inlen : Nat) (ns : List Nat) :
    ∃ s', shake128x2Absorb K s inp inlen = some s' ∧ ∀ l, bitsOf (squeezes2 (shake128x2SqueezeBlocks K) ns s' l) =
      SHAKE128 (bitsOf ((List.range inlen).map (inp l))) (8 * (168 * ns.sum)) := by
  let O : Oob := ⟨fun _ _ => 0, fun s _ _ => s, fun _ _ => 0⟩
  obtain ⟨s', h1, h2⟩ := absorb128 O K s inp inlen
  refine ⟨s', h1, fun l => ?_⟩
  have e := squeezes2_eq O K 168 (by omega) (by omega) _ ns 0 s' h2 l
  have hb : bytesOf (inp l) 0 inlen = (List.range inlen).map (inp l) := by unfold bytesOf; rw [List.range_eq_range']
  rw [Nat.zero_mul] at e
  show bitsOf (squeezes2 (squeezeBlocks K 168) ns s' l) = _
  rw [e, squeeze_bits128, hb, Nat.mul_comm 168]

open Verif.Neon.X2 in
open Verif.Avx2.X4 (bytesOf squeeze_bits128 squeeze_bits256 take_squeeze squeeze_split) in
/-- C110: the same for SHAKE256. -/
theorem C110_shake256x2_blocks (K : Perm) (s : Nat → V2) (inp : Fin 2 → Nat → UInt8) (inlen : Nat) (ns : List Nat) :
    ∃ s', shake256x2Absorb K s inp inlen = some s' ∧ ∀ l, bitsOf (squeezes2 (shake256x2SqueezeBlocks K) ns s' l) =
      SHAKE256 (bitsOf ((List.range inlen).map (inp l))) (8 * (136 * ns.sum)) := by
  let O : Oob := ⟨fun _ _ => 0, fun s _ _ => s, fun _ _ => 0⟩
  obtain ⟨s', h1, h2⟩ := absorb256 O K s inp inlen
  refine ⟨s', h1, fun l => ?_⟩
  have e := squeezes2_eq O K 136 (by omega) (by omega) _ ns 0 s' h2 l
  have hb : bytesOf (inp l) 0 inlen = (List.range inlen).map (inp l) := by unfold bytesOf; rw [List.range_eq_range']
  rw [Nat.zero_mul] at e
  show bitsOf (squeezes2 (squeezeBlocks K 136) ns s' l) = _
  rw [e, squeeze_bits256, hb, Nat.mul_comm 136]

end Verif.Props
