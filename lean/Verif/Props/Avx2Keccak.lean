import Verif.Avx2.SampleLinkedLemmas

/-!
# Properties C96, C97, C98: the four-way Keccak of dilithium2/avx2

The assembly routine f1600x4.S as a list of instructions (`Verif/Avx2/F1600Asm.lean`, semantics in `Verif/Avx2/F1600.lean`), fips202x4.c
(`Verif/Avx2/Fips202x4.lean`) and the four-way samplers of poly.c on top of it (`Verif/Avx2/SampleLinked.lean`).
-/

namespace Verif.Props

open Verif.Keccak (U64 Oob)
open Verif.Fips202
open Verif.Avx2.F1600
open Verif.Avx2 (VPoly Junk ti ofP)

/-! ## C96: the assembly routine -/

/-- Quadword `l` of the 25 vectors at `rdi` as a FIPS 202 state array: lane `(x, y)` is in vector `5 y + x`. -/
def state4 (s : Nat → Q4) (l : Fin 4) : State := fun x y z => (s (32 * (5 * y.1 + x.1)) l).getLsbD z.1

private theorem state4_eq (s : Nat → Q4) (l : Fin 4) : state4 s l = Keccak.abs (laneOf s l) := by
  funext x y z
  unfold state4 Keccak.abs laneOf
  rw [Vector.getElem_ofFn]

/-- C96: with the round constants of fips202x4.c at `rsi`, `f1600x4` applies KECCAK-f[1600] to each of the four states, whatever the registers
hold at the call. -/
theorem C96_permutation (regs : Nat → Q4) (s : Nat → Q4) (l : Fin 4) :
    state4 (f1600x4 (fun k => Avx2.X4.roundConstants.getD k 0) regs s) l = keccakF (state4 s l) := by
  rw [state4_eq, state4_eq]
  exact f1600x4_abs _ (fun c _ => by rw [Avx2.X4.roundConstants_eq]) _ _ _

/-- An instruction writes no memory outside the 25 vectors. -/
private def storesInside : Ins → Bool
  | .store _ off => Nat.blt off 800 && Nat.beq (off % 32) 0
  | _ => true

private theorem body_inside : body.all storesInside = true := by decide +kernel

private theorem step_inside (rc : Nat → U64) (m : Q4) (s : St Q4) (i : Ins) (hi : storesInside i = true) (off : Nat) (h : 800 ≤ off ∨ off % 32 ≠ 0) :
    (step rc m s i).mem off = s.mem off := by
  cases i with
  | store r o =>
    simp only [storesInside, Bool.and_eq_true] at hi
    have h1 : o < 800 := Nat.le_of_ble_eq_true hi.1
    have h2 : o % 32 = 0 := Nat.eq_of_beq_eq_true hi.2
    simp only [step]
    unfold upd
    have : Nat.beq off o = false := by
      cases e : Nat.beq off o with
      | false => rfl
      | true => have := Nat.eq_of_beq_eq_true e; omega
    rw [this]; rfl
  | _ => rfl

private theorem run_inside (rc : Nat → U64) (m : Q4) (code : List Ins) (hc : code.all storesInside = true) (off : Nat) (h : 800 ≤ off ∨ off % 32 ≠ 0) :
    ∀ s : St Q4, (run rc m code s).mem off = s.mem off := by
  induction code with
  | nil => intro s; rfl
  | cons i code ih =>
    intro s
    rw [List.all_cons, Bool.and_eq_true] at hc
    show (run rc m code (step rc m s i)).mem off = _
    rw [ih hc.2, step_inside rc m s i hc.1 off h]

private theorem loop_inside (rc : Nat → U64) (off : Nat) (h : 800 ≤ off ∨ off % 32 ≠ 0) (n : Nat) : ∀ (k : Nat) (s : St Q4),
    (loop rc n k s).mem off = s.mem off := by
  induction n with
  | zero => intro k s; rfl
  | succ n ih =>
    intro k s
    show (loop rc n (k + 4) (run _ _ body s)).mem off = _
    rw [ih, run_inside _ _ _ body_inside off h]

/-- C96: all its stores are aligned accesses to the 800 bytes of the state. -/
theorem C96_inside (rc : Nat → U64) (regs : Nat → Q4) (s : Nat → Q4) (off : Nat) (h : 800 ≤ off ∨ off % 32 ≠ 0) : f1600x4 rc regs s off = s off := by
  unfold f1600x4; rw [loop_inside rc off h]

set_option Elab.async false in
/-- Not vacuous: KECCAK-f[1600] of the zero state begins with the published lanes `F1258F7940E1DDE7`, `84D5CCF933C0478A`, in every quadword. -/
example (regs : Nat → Q4) (l : Fin 4) : f1600x4 (fun k => Avx2.X4.roundConstants.getD k 0) regs (fun _ _ => 0) 0 l = 0xF1258F7940E1DDE7 ∧
    f1600x4 (fun k => Avx2.X4.roundConstants.getD k 0) regs (fun _ _ => 0) 32 l = 0x84D5CCF933C0478A := by
  have h := f1600x4_permute (fun k => Avx2.X4.roundConstants.getD k 0) (fun c _ => by rw [Avx2.X4.roundConstants_eq]) regs (fun _ _ => 0) l
  have z : laneOf (fun _ _ => (0 : U64)) l = Vector.replicate 25 0 := by
    apply Vector.ext; intro i hi; unfold laneOf; rw [Vector.getElem_ofFn, Vector.getElem_replicate]
  rw [z] at h
  have e : ∀ i (hi : i < 25), f1600x4 (fun k => Avx2.X4.roundConstants.getD k 0) regs (fun _ _ => 0) (32 * i) l = (Keccak.permute (Vector.replicate 25 0))[i] := by
    intro i hi
    rw [← h]
    unfold laneOf
    rw [Vector.getElem_ofFn]
  have k : (Keccak.permute (Vector.replicate 25 0))[0] = 0xF1258F7940E1DDE7 ∧ (Keccak.permute (Vector.replicate 25 0))[1] = 0x84D5CCF933C0478A := by
    decide +kernel
  exact ⟨(e 0 (by omega)).trans k.1, (e 1 (by omega)).trans k.2⟩

/-! ## C97: fips202x4.c -/

open Verif.Avx2.X4 in
/-- C97: `shake128x4` outputs SHAKE128 of each of the four inputs, for every input and output length, whatever the registers, the uninitialised state
and the bytes behind the inputs are. -/
theorem C97_shake128x4 (R : Regs) (s : Nat → Q4) (outlen : Nat) (inp : Fin 4 → Nat → UInt8) (inlen : Nat) :
    ∃ out, shake128x4 R s outlen inp inlen = some out ∧
      ∀ l, (out l).length = outlen ∧ bitsOf (out l) = SHAKE128 (bitsOf ((List.range inlen).map (inp l))) (8 * outlen) := by
  let O : Oob := ⟨fun _ _ => 0, fun s _ _ => s, fun _ _ => 0⟩
  obtain ⟨s', h1, h2⟩ := absorb128 O R s inp inlen
  obtain ⟨h3, h4⟩ := h2.step (by omega) (by omega) R (outlen / 168)
  obtain ⟨h5, _⟩ := h4.step (by omega) (by omega) R 1
  have hd : outlen / 168 * 168 + (outlen - outlen / 168 * 168) = outlen := by omega
  have hb : ∀ l, bytesOf (inp l) 0 inlen = (List.range inlen).map (inp l) := fun l => by unfold bytesOf; rw [List.range_eq_range']
  have key : ∀ l, (Dilithium.squeeze (fipsShake.shake128 (bytesOf (inp l) 0 inlen)) 0 outlen).length = outlen ∧
      bitsOf (Dilithium.squeeze (fipsShake.shake128 (bytesOf (inp l) 0 inlen)) 0 outlen) = SHAKE128 (bitsOf ((List.range inlen).map (inp l))) (8 * outlen) :=
    fun l => ⟨by simp [Dilithium.squeeze], by rw [squeeze_bits128, hb]⟩
  refine ⟨fun l => Dilithium.squeeze (fipsShake.shake128 (bytesOf (inp l) 0 inlen)) 0 outlen, ?_, key⟩
  unfold shake128x4 shake128x4SqueezeBlocks
  rw [h1, Option.bind_eq_bind, Option.bind_some]
  dsimp only
  split
  · refine congrArg some (funext fun l => ?_)
    rw [h3, h5, Nat.zero_add, Nat.zero_mul, take_squeeze _ _ _ _ (by omega), ← squeeze_split _ 0 _ _ hd, Nat.zero_add]
  · rename_i h
    refine congrArg some (funext fun l => ?_)
    rw [h3, Nat.zero_mul, show outlen / 168 * 168 = outlen by omega]

open Verif.Avx2.X4 in
/-- C97: the same for `shake256x4`. -/
theorem C97_shake256x4 (R : Regs) (s : Nat → Q4) (outlen : Nat) (inp : Fin 4 → Nat → UInt8) (inlen : Nat) :
    ∃ out, shake256x4 R s outlen inp inlen = some out ∧
      ∀ l, (out l).length = outlen ∧ bitsOf (out l) = SHAKE256 (bitsOf ((List.range inlen).map (inp l))) (8 * outlen) := by
  let O : Oob := ⟨fun _ _ => 0, fun s _ _ => s, fun _ _ => 0⟩
  obtain ⟨s', h1, h2⟩ := absorb256 O R s inp inlen
  obtain ⟨h3, h4⟩ := h2.step (by omega) (by omega) R (outlen / 136)
  obtain ⟨h5, _⟩ := h4.step (by omega) (by omega) R 1
  have hd : outlen / 136 * 136 + (outlen - outlen / 136 * 136) = outlen := by omega
  have hb : ∀ l, bytesOf (inp l) 0 inlen = (List.range inlen).map (inp l) := fun l => by unfold bytesOf; rw [List.range_eq_range']
  have key : ∀ l, (Dilithium.squeeze (fipsShake.shake256 (bytesOf (inp l) 0 inlen)) 0 outlen).length = outlen ∧
      bitsOf (Dilithium.squeeze (fipsShake.shake256 (bytesOf (inp l) 0 inlen)) 0 outlen) = SHAKE256 (bitsOf ((List.range inlen).map (inp l))) (8 * outlen) :=
    fun l => ⟨by simp [Dilithium.squeeze], by rw [squeeze_bits256, hb]⟩
  refine ⟨fun l => Dilithium.squeeze (fipsShake.shake256 (bytesOf (inp l) 0 inlen)) 0 outlen, ?_, key⟩
  unfold shake256x4 shake256x4SqueezeBlocks
  rw [h1, Option.bind_eq_bind, Option.bind_some]
  dsimp only
  split
  · refine congrArg some (funext fun l => ?_)
    rw [h3, h5, Nat.zero_add, Nat.zero_mul, take_squeeze _ _ _ _ (by omega), ← squeeze_split _ 0 _ _ hd, Nat.zero_add]
  · rename_i h
    refine congrArg some (funext fun l => ?_)
    rw [h3, Nat.zero_mul, show outlen / 136 * 136 = outlen by omega]

/-- The outputs of consecutive `squeezeblocks` calls for the numbers of blocks `ns`, joined, for each of the four lanes. -/
def squeezes4 (sq : Nat → (Nat → Q4) → (Fin 4 → Bytes) × (Nat → Q4)) : List Nat → (Nat → Q4) → Fin 4 → Bytes
  | [], _ => fun _ => []
  | n :: ns, s => fun l => (sq n s).1 l ++ squeezes4 sq ns (sq n s).2 l

open Verif.Avx2.X4 in
private theorem squeezes4_eq (O : Oob) (R : Regs) (r : Nat) (hr8 : r % 8 = 0) (hr2 : r ≤ 200) (st : Fin 4 → Nat → UInt8) (ns : List Nat) :
    ∀ b s, Reads4 O r st b s → ∀ l, squeezes4 (squeezeBlocks R r) ns s l = Dilithium.squeeze (st l) (b * r) (ns.sum * r) := by
  induction ns with
  | nil => intro b s _ l; simp [squeezes4, Dilithium.squeeze]
  | cons n ns ih =>
    intro b s h l
    obtain ⟨h1, h2⟩ := h.step hr8 hr2 R n
    show (squeezeBlocks R r n s).1 l ++ squeezes4 (squeezeBlocks R r) ns (squeezeBlocks R r n s).2 l = _
    rw [h1, ih _ _ h2, List.sum_cons, Nat.add_mul b n r, squeeze_split _ _ _ _ (Nat.add_mul n ns.sum r).symm]

open Verif.Avx2.X4 in
/-- C97: after `shake128x4_absorb_once`, the blocks of any sequence of `shake128x4_squeezeblocks` calls are SHAKE128 of the four inputs. -/
theorem C97_shake128x4_blocks (R : Regs) (s : Nat → Q4) (inp : Fin 4 → Nat → UInt8) (inlen : Nat) (ns : List Nat) :
    ∃ s', shake128x4AbsorbOnce R s inp inlen = some s' ∧ ∀ l, bitsOf (squeezes4 (shake128x4SqueezeBlocks R) ns s' l) =
      SHAKE128 (bitsOf ((List.range inlen).map (inp l))) (8 * (168 * ns.sum)) := by
  let O : Oob := ⟨fun _ _ => 0, fun s _ _ => s, fun _ _ => 0⟩
  obtain ⟨s', h1, h2⟩ := absorb128 O R s inp inlen
  refine ⟨s', h1, fun l => ?_⟩
  have e := squeezes4_eq O R 168 (by omega) (by omega) _ ns 0 s' h2 l
  have hb : bytesOf (inp l) 0 inlen = (List.range inlen).map (inp l) := by unfold bytesOf; rw [List.range_eq_range']
  rw [Nat.zero_mul] at e
  show bitsOf (squeezes4 (squeezeBlocks R 168) ns s' l) = _
  rw [e, squeeze_bits128, hb, Nat.mul_comm 168]

open Verif.Avx2.X4 in
/-- C97: the same for SHAKE256. -/
theorem C97_shake256x4_blocks (R : Regs) (s : Nat → Q4) (inp : Fin 4 → Nat → UInt8) (inlen : Nat) (ns : List Nat) :
    ∃ s', shake256x4AbsorbOnce R s inp inlen = some s' ∧ ∀ l, bitsOf (squeezes4 (shake256x4SqueezeBlocks R) ns s' l) =
      SHAKE256 (bitsOf ((List.range inlen).map (inp l))) (8 * (136 * ns.sum)) := by
  let O : Oob := ⟨fun _ _ => 0, fun s _ _ => s, fun _ _ => 0⟩
  obtain ⟨s', h1, h2⟩ := absorb256 O R s inp inlen
  refine ⟨s', h1, fun l => ?_⟩
  have e := squeezes4_eq O R 136 (by omega) (by omega) _ ns 0 s' h2 l
  have hb : bytesOf (inp l) 0 inlen = (List.range inlen).map (inp l) := by unfold bytesOf; rw [List.range_eq_range']
  rw [Nat.zero_mul] at e
  show bitsOf (squeezes4 (squeezeBlocks R 136) ns s' l) = _
  rw [e, squeeze_bits256, hb, Nat.mul_comm 136]

/-! ## C98: the four-way samplers on the four-way Keccak -/

/-- C98: `poly_uniform_4x`, down to the assembly of the permutation, returns the four polynomials of the portable `poly_uniform`, down to the portable
Keccak; it ends exactly when those four calls do. -/
theorem C98_uniform (C : Dilithium.CSem) (O : Oob) (R : Avx2.X4.Regs) (s : Nat → Q4) (J : Junk) (seed : Bytes) (hs : seed.length = 32) (nonce : Fin 4 → UInt16) :
    Avx2.X4.polyUniform4x R s J seed nonce = (Dilithium.forVec fun k => Dilithium.Linked.polyUniform C O seed (nonce k)).map fun v k => ofP (v k) := by
  rw [Avx2.X4.polyUniform4x_model R s J seed hs, Avx2.polyUniform4x_eq (C := C) fipsShake J seed hs]
  simp only [Dilithium.Linked.polyUniform_eq C O seed hs]

/-- C98: the same for `poly_uniform_eta_4x`. -/
theorem C98_uniform_eta (C : Dilithium.CSem) (O : Oob) (R : Avx2.X4.Regs) (s : Nat → Q4) (J : Junk) (seed : Bytes) (hs : seed.length = 64)
    (nonce : Fin 4 → UInt16) : Avx2.X4.polyUniformEta4x R s J seed nonce =
      (Dilithium.forVec fun k => Dilithium.Linked.polyUniformEta C O seed (nonce k)).map fun v k => ofP (v k) := by
  rw [Avx2.X4.polyUniformEta4x_model R s J seed hs, Avx2.polyUniformEta4x_eq (C := C) fipsShake J seed hs]
  simp only [Dilithium.Linked.polyUniformEta_eq C O seed hs]

/-- C98: the same for `poly_uniform_gamma1_4x`, which always ends. -/
theorem C98_uniform_gamma1 (C : Dilithium.CSem) (O : Oob) (R : Avx2.X4.Regs) (s : Nat → Q4) (J : Junk) (seed : Bytes) (hs : seed.length = 64)
    (nonce : Fin 4 → UInt16) : ∃ v, Avx2.X4.polyUniformGamma14x R s J seed nonce = some v ∧
      ∀ k, Dilithium.Linked.polyUniformGamma1 C O seed (nonce k) = some (ti (v k)) := by
  refine ⟨_, Avx2.X4.polyUniformGamma14x_model R s J seed hs nonce, fun k => ?_⟩
  rw [Avx2.polyUniformGamma14x_eq (C := C) fipsShake J seed hs, Dilithium.Linked.polyUniformGamma1_eq C O seed hs]

end Verif.Props
