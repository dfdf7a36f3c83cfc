import Verif.Neon.SampleLinked
import Verif.Neon.Fips202x2Lemmas
import Verif.Avx2.SampleLinkedLemmas

/-! # The two-way samplers on fips202x2.c compute what they compute on the SHAKE streams -/

namespace Verif.Neon.X2

open Verif.Keccak (Lanes Oob streamSlice streamByte)
open Verif.Neon.F1600 (V2)
open Verif.Props (fipsShake slices)
open Verif.Dilithium (CSem squeeze nonceBytes rejUniform stream128 stream256)
open Verif.Avx2.X4 (bytesOf squeeze_bits128 squeeze_bits256 bytesOf_inBuf)

/-- The state from which further blocks continue the streams `st` at block `b`. -/
def Reads2 (O : Oob) (r : Nat) (st : Fin 2 → Nat → UInt8) (b : Nat) (s : Nat → V2) : Prop :=
  ∃ s0, After s0 b s ∧ ∀ l i, streamByte O r (s0 l) i = st l i

theorem Reads2.step {O : Oob} {r : Nat} {st : Fin 2 → Nat → UInt8} {b : Nat} {s : Nat → V2} (h : Reads2 O r st b s) (hr : r % 32 = 8) (hr2 : r ≤ 200)
    (K : Perm) (n : Nat) : (∀ l, (squeezeBlocks K r n s).1 l = squeeze (st l) (b * r) (n * r)) ∧ Reads2 O r st (b + n) (squeezeBlocks K r n s).2 := by
  obtain ⟨s0, h1, h2⟩ := h
  obtain ⟨h3, h4⟩ := h1.squeeze O K r hr hr2 n
  refine ⟨fun l => ?_, s0, h4, h2⟩
  rw [h3]
  apply List.ext_getElem
  · simp [streamSlice, squeeze]
  · intro i _ _
    simp only [streamSlice, squeeze, List.getElem_map, List.getElem_range', List.getElem_range, Nat.one_mul, h2]

theorem reads2_of_bits (O : Oob) (r : Nat) (st : Fin 2 → Nat → UInt8) (s0 : Fin 2 → Lanes) (s : Nat → V2) (h : After s0 0 s)
    (hb : ∀ l n, Fips202.bitsOf (streamSlice O r (s0 l) 0 n) = Fips202.bitsOf (squeeze (st l) 0 n)) : Reads2 O r st 0 s := by
  refine ⟨s0, h, fun l i => ?_⟩
  have e := Keccak.bitsOf_inj (hb l (i + 1))
  have e1 : (streamSlice O r (s0 l) 0 (i + 1))[i]? = (squeeze (st l) 0 (i + 1))[i]? := by rw [e]
  have l1 : i < (streamSlice O r (s0 l) 0 (i + 1)).length := by simp [streamSlice]
  have l2 : i < (squeeze (st l) 0 (i + 1)).length := by simp [squeeze]
  rw [List.getElem?_eq_getElem l1, List.getElem?_eq_getElem l2, Option.some.injEq] at e1
  simpa [streamSlice, squeeze] using e1

theorem absorb128 (O : Oob) (K : Perm) (s : Nat → V2) (inp : Fin 2 → Nat → UInt8) (inlen : Nat) :
    ∃ s', shake128x2Absorb K s inp inlen = some s' ∧ Reads2 O 168 (fun l => fipsShake.shake128 (bytesOf (inp l) 0 inlen)) 0 s' := by
  obtain ⟨s', s0, h1, h2, h3⟩ := streams_spec O Keccak.domain_shake K s 168 (by omega) (by omega) inp inlen
  exact ⟨s', h1, reads2_of_bits O 168 _ s0 s' h2 fun l n => by rw [h3, squeeze_bits128]; rfl⟩

theorem absorb256 (O : Oob) (K : Perm) (s : Nat → V2) (inp : Fin 2 → Nat → UInt8) (inlen : Nat) :
    ∃ s', shake256x2Absorb K s inp inlen = some s' ∧ Reads2 O 136 (fun l => fipsShake.shake256 (bytesOf (inp l) 0 inlen)) 0 s' := by
  obtain ⟨s', s0, h1, h2, h3⟩ := streams_spec O Keccak.domain_shake K s 136 (by omega) (by omega) inp inlen
  exact ⟨s', h1, reads2_of_bits O 136 _ s0 s' h2 fun l n => by rw [h3, squeeze_bits256]; rfl⟩

theorem init128 (O : Oob) (E : KJ) (seed : Bytes) (hs : seed.length = 32) (nonce : Fin 2 → UInt16) :
    ∃ s', stream128x2Init E seed nonce = some s' ∧ Reads2 O 168 (fun l => stream128 fipsShake seed (nonce l)) 0 s' := by
  obtain ⟨s', h1, h2⟩ := absorb128 O E.K E.s (extseed E 32 seed nonce) (32 + 2)
  have e : (fun l => fipsShake.shake128 (bytesOf (extseed E 32 seed nonce l) 0 (32 + 2))) = fun l => stream128 fipsShake seed (nonce l) := by
    funext l
    unfold extseed
    rw [bytesOf_inBuf _ _ _ hs, List.take_of_length_le (by omega)]; rfl
  rw [e] at h2
  exact ⟨s', h1, h2⟩

theorem init256 (O : Oob) (E : KJ) (seed : Bytes) (hs : seed.length = 64) (nonce : Fin 2 → UInt16) :
    ∃ s', stream256x2Init E seed nonce = some s' ∧ Reads2 O 136 (fun l => stream256 fipsShake seed (nonce l)) 0 s' := by
  obtain ⟨s', h1, h2⟩ := absorb256 O E.K E.s (extseed E 64 seed nonce) (64 + 2)
  have e : (fun l => fipsShake.shake256 (bytesOf (extseed E 64 seed nonce l) 0 (64 + 2))) = fun l => stream256 fipsShake seed (nonce l) := by
    funext l
    unfold extseed
    rw [bytesOf_inBuf _ _ _ hs, List.take_of_length_le (by omega)]; rfl
  rw [e] at h2
  exact ⟨s', h1, h2⟩

theorem uniformLoop_eq (O : Oob) (K : Perm) (strm : Fin 2 → Nat → UInt8) (acc : Fin 2 → List Int) (buf : Fin 2 → Bytes) (b : Nat) (s : Nat → V2)
    (h : Reads2 O 168 strm b s) : uniformLoop K acc buf s = uniformLoop2 strm acc buf (b * 168) := by
  apply Dilithium.Linked.opt_ext
  · intro x hx
    refine uniformLoop.partial_correctness K (motive := fun acc buf s x => ∀ b, Reads2 O 168 strm b s →
      uniformLoop2 strm acc buf (b * 168) = some x) ?_ acc buf s x hx b h
    intro loop ih acc buf s x hx b h
    obtain ⟨h1, h2⟩ := h.step (by omega) (by omega) K 1
    rw [Nat.one_mul] at h1
    rw [uniformLoop2]
    split at hx
    · rename_i hl
      rw [if_pos hl]
      have e := ih _ _ _ _ hx (b + 1) h2
      rw [Nat.add_mul, Nat.one_mul] at e
      unfold shake128x2SqueezeBlocks at e
      simp only [h1] at e
      exact e
    · rename_i hl
      rw [if_neg hl]; exact hx
  · intro x hx
    refine uniformLoop2.partial_correctness strm (motive := fun acc buf pos x => ∀ b s, pos = b * 168 →
      Reads2 O 168 strm b s → uniformLoop K acc buf s = some x) ?_ acc buf (b * 168) x hx b s rfl h
    intro loop ih acc buf pos x hx b s hpos h
    obtain ⟨h1, h2⟩ := h.step (by omega) (by omega) K 1
    rw [Nat.one_mul] at h1
    rw [uniformLoop]
    split at hx
    · rename_i hl
      rw [if_pos hl]
      unfold shake128x2SqueezeBlocks
      dsimp only
      simp only [h1]
      rw [← hpos]
      exact ih _ _ _ _ hx (b + 1) _ (by rw [hpos, Nat.add_mul, Nat.one_mul]) h2
    · rename_i hl
      rw [if_neg hl]; exact hx

theorem streams2 (f : UInt16 → Nat → UInt8) (a b : UInt16) : (fun l : Fin 2 => f ((![a, b] : Fin 2 → UInt16) l)) = ![f a, f b] := by
  funext l
  match l with
  | 0 => rfl
  | 1 => rfl

theorem polyUniformX2_model (C : CSem) (E : KJ) (seed : Bytes) (hs : seed.length = 32) (n0 n1 : UInt16) :
    polyUniformX2 C E seed n0 n1 = Neon.polyUniformX2 C fipsShake seed n0 n1 := by
  obtain ⟨s', h1, h2⟩ := init128 anyOob E seed hs ![n0, n1]
  rw [streams2] at h2
  obtain ⟨h3, h4⟩ := h2.step (by omega) (by omega) E.K 5
  rw [Nat.zero_mul] at h3
  unfold polyUniformX2 Neon.polyUniformX2 shake128x2SqueezeBlocks
  dsimp only
  rw [h1, Option.bind_eq_bind, Option.bind_some, uniformLoop_eq anyOob E.K _ _ _ _ _ h4]
  rw [show (squeezeBlocks E.K 168 5 s').1 = fun k => squeeze ((![stream128 fipsShake seed n0, stream128 fipsShake seed n1] : Fin 2 → _) k) 0 840 from funext h3]
  generalize uniformLoop2 _ _ _ _ = o
  cases o <;> rfl

theorem polyUniformGamma1X2_model (C : CSem) (E : KJ) (seed : Bytes) (hs : seed.length = 64) (n0 n1 : UInt16) :
    polyUniformGamma1X2 C E seed n0 n1 = some (Neon.polyUniformGamma1X2 C fipsShake seed n0 n1) := by
  obtain ⟨s', h1, h2⟩ := init256 anyOob E seed hs ![n0, n1]
  rw [streams2] at h2
  obtain ⟨h3, h4⟩ := h2.step (by omega) (by omega) E.K 5
  rw [Nat.zero_mul] at h3
  have e0 := h3 0
  have e1 := h3 1
  rw [Matrix.cons_val_zero] at e0
  rw [Matrix.cons_val_one] at e1
  unfold polyUniformGamma1X2 Neon.polyUniformGamma1X2 shake256x2SqueezeBlocks
  dsimp only
  rw [h1, Option.bind_eq_bind, Option.bind_some, e0, e1]
  rfl

end Verif.Neon.X2
