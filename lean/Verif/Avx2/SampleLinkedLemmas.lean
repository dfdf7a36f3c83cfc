import Verif.Avx2.SampleLinked
import Verif.Avx2.Fips202x4Lemmas
import Verif.Avx2.SampleLemmas
import Verif.Dilithium.LinkedLemmas

/-! # The four-way samplers on fips202x4.c compute what they compute on the SHAKE streams -/

namespace Verif.Avx2.X4

open Verif.Keccak (Lanes Oob streamSlice streamByte)
open Verif.Avx2.F1600 (Q4)

open Verif.Props (fipsShake slices)
open Verif.Dilithium (squeeze nonceBytes rejUniform rejEta stream128 stream256)

theorem squeeze_bits128 (M : Bytes) (n : Nat) : Fips202.bitsOf (squeeze (fipsShake.shake128 M) 0 n) = Fips202.SHAKE128 (Fips202.bitsOf M) (8 * n) := by
  let O : Oob := ⟨fun _ _ => 0, fun s _ _ => s, fun _ _ => 0⟩
  obtain ⟨outs, h1, _, h2⟩ := Props.C83_shake128_incremental O [M] [n]
  rw [Props.C84_shake128_inc_is_model, Option.some.injEq] at h1
  subst h1
  simpa [slices] using h2

theorem squeeze_bits256 (M : Bytes) (n : Nat) : Fips202.bitsOf (squeeze (fipsShake.shake256 M) 0 n) = Fips202.SHAKE256 (Fips202.bitsOf M) (8 * n) := by
  let O : Oob := ⟨fun _ _ => 0, fun s _ _ => s, fun _ _ => 0⟩
  obtain ⟨outs, h1, _, h2⟩ := Props.C83_shake256_incremental O [M] [n]
  rw [Props.C84_shake256_inc_is_model, Option.some.injEq] at h1
  subst h1
  simpa [slices] using h2

/-- The state from which further blocks continue the streams `st` at block `b`. -/
def Reads4 (O : Oob) (r : Nat) (st : Fin 4 → Nat → UInt8) (b : Nat) (s : Nat → Q4) : Prop :=
  ∃ s0, After s0 b s ∧ ∀ l i, streamByte O r (s0 l) i = st l i

theorem Reads4.step {O : Oob} {r : Nat} {st : Fin 4 → Nat → UInt8} {b : Nat} {s : Nat → Q4} (h : Reads4 O r st b s) (hr8 : r % 8 = 0) (hr2 : r ≤ 200)
    (R : Regs) (n : Nat) : (∀ l, (squeezeBlocks R r n s).1 l = squeeze (st l) (b * r) (n * r)) ∧ Reads4 O r st (b + n) (squeezeBlocks R r n s).2 := by
  obtain ⟨s0, h1, h2⟩ := h
  obtain ⟨h3, h4⟩ := h1.squeeze O R r hr8 hr2 n
  refine ⟨fun l => ?_, s0, h4, h2⟩
  rw [h3]
  apply List.ext_getElem
  · simp [streamSlice, squeeze]
  · intro i _ _
    simp only [streamSlice, squeeze, List.getElem_map, List.getElem_range', List.getElem_range, Nat.one_mul, h2]

theorem reads4_of_bits (O : Oob) (r : Nat) (st : Fin 4 → Nat → UInt8) (s0 : Fin 4 → Lanes) (s : Nat → Q4) (h : After s0 0 s)
    (hb : ∀ l n, Fips202.bitsOf (streamSlice O r (s0 l) 0 n) = Fips202.bitsOf (squeeze (st l) 0 n)) : Reads4 O r st 0 s := by
  refine ⟨s0, h, fun l i => ?_⟩
  have e := Keccak.bitsOf_inj (hb l (i + 1))
  have e1 : (streamSlice O r (s0 l) 0 (i + 1))[i]? = (squeeze (st l) 0 (i + 1))[i]? := by rw [e]
  have l1 : i < (streamSlice O r (s0 l) 0 (i + 1)).length := by simp [streamSlice]
  have l2 : i < (squeeze (st l) 0 (i + 1)).length := by simp [squeeze]
  rw [List.getElem?_eq_getElem l1, List.getElem?_eq_getElem l2, Option.some.injEq] at e1
  simpa [streamSlice, squeeze] using e1

theorem absorb128 (O : Oob) (R : Regs) (s : Nat → Q4) (inp : Fin 4 → Nat → UInt8) (inlen : Nat) :
    ∃ s', shake128x4AbsorbOnce R s inp inlen = some s' ∧ Reads4 O 168 (fun l => fipsShake.shake128 (bytesOf (inp l) 0 inlen)) 0 s' := by
  obtain ⟨s', s0, h1, h2, h3⟩ := streams_spec O Keccak.domain_shake R s 168 (by omega) (by omega) (by omega) inp inlen
  exact ⟨s', h1, reads4_of_bits O 168 _ s0 s' h2 fun l n => by rw [h3, squeeze_bits128]; rfl⟩

theorem absorb256 (O : Oob) (R : Regs) (s : Nat → Q4) (inp : Fin 4 → Nat → UInt8) (inlen : Nat) :
    ∃ s', shake256x4AbsorbOnce R s inp inlen = some s' ∧ Reads4 O 136 (fun l => fipsShake.shake256 (bytesOf (inp l) 0 inlen)) 0 s' := by
  obtain ⟨s', s0, h1, h2, h3⟩ := streams_spec O Keccak.domain_shake R s 136 (by omega) (by omega) (by omega) inp inlen
  exact ⟨s', h1, reads4_of_bits O 136 _ s0 s' h2 fun l n => by rw [h3, squeeze_bits256]; rfl⟩

theorem bytesOf_inBuf (m : Nat → UInt8) (n : Nat) (seed : Bytes) (hs : seed.length = n) (nonce : UInt16) :
    bytesOf (inBuf m n seed nonce) 0 (n + 2) = seed.take n ++ nonceBytes nonce := by
  have hn : (nonceBytes nonce).length = 2 := rfl
  apply List.ext_getElem
  · rw [bytesOf_length, List.length_append, hn, List.length_take]; omega
  · intro i h1 h2
    rw [bytesOf_length] at h1
    simp only [bytesOf, List.getElem_map, List.getElem_range', Nat.zero_add, Nat.one_mul]
    unfold inBuf writeAt
    by_cases h : i < n
    · rw [dif_neg (by omega), dif_pos ⟨by omega, by rw [List.length_take]; omega⟩, List.getElem_append_left (by rw [List.length_take]; omega)]
      rfl
    · rw [dif_pos ⟨by omega, by rw [hn]; omega⟩, List.getElem_append_right (by rw [List.length_take]; omega)]
      simp only [List.length_take, hs, Nat.min_self]

theorem writeAt_filled (J : Junk) (n : Nat) (seed : Bytes) (hs : seed.length = n) (nonce : UInt16) (st : Nat → UInt8) (k : Nat) (hk : n + 2 ≤ k) :
    writeAt (inBuf J.bytes n seed nonce) 0 (squeeze st 0 k) = filled J st k := by
  have hn : (nonceBytes nonce).length = 2 := rfl
  funext i
  unfold filled writeAt
  have hl : (squeeze st 0 k).length = k := by simp [squeeze]
  by_cases h : i < k
  · rw [dif_pos ⟨by omega, by omega⟩, if_pos h]
    simp [squeeze]
  · rw [dif_neg (by omega), if_neg h]
    unfold inBuf writeAt
    rw [dif_neg (by omega), dif_neg (by rw [List.length_take]; omega)]

theorem squeeze_writeAt (m : Nat → UInt8) (l : Bytes) (k : Nat) (hl : l.length = k) : squeeze (writeAt m 0 l) 0 k = l := by
  apply List.ext_getElem
  · simp [squeeze, hl]
  · intro i h1 h2
    simp only [squeeze, List.getElem_map, List.getElem_range, Nat.zero_add]
    unfold writeAt
    rw [dif_pos ⟨by omega, by omega⟩]
    rfl

theorem lockLoop_eq (O : Oob) (R : Regs) (r : Nat) (hr8 : r % 8 = 0) (hr2 : r ≤ 200) (strm : Fin 4 → Nat → UInt8) (rej : Nat → Bytes → List Int)
    (st : Fin 4 → (Nat → W32) × Nat) (buf : Fin 4 → Nat → UInt8) (b : Nat) (s : Nat → Q4) (h : Reads4 O r strm b s) :
    lockLoop (squeezeBlocks R r 1) (fun buf len => rej len (squeeze buf 0 r)) st buf s =
      Avx2.lockLoop (fun k pos len => rej len (squeeze (strm k) pos r)) r st (b * r) := by
  apply Dilithium.Linked.opt_ext
  · intro x hx
    refine lockLoop.partial_correctness (squeezeBlocks R r 1) (fun buf len => rej len (squeeze buf 0 r)) (motive := fun st buf s x => ∀ b, Reads4 O r strm b s →
      Avx2.lockLoop (fun k pos len => rej len (squeeze (strm k) pos r)) r st (b * r) = some x) ?_ st buf s x hx b h
    intro loop ih st buf s x hx b h
    obtain ⟨h1, h2⟩ := h.step hr8 hr2 R 1
    rw [Nat.one_mul] at h1
    rw [Avx2.lockLoop]
    split at hx
    · rename_i hl
      rw [if_pos hl]
      have e := ih _ _ _ _ hx (b + 1) h2
      rw [Nat.add_mul, Nat.one_mul] at e
      simp only [h1, squeeze_writeAt _ (squeeze _ _ r) r (by simp [squeeze])] at e
      exact e
    · rename_i hl
      rw [if_neg hl]; exact hx
  · intro x hx
    refine Avx2.lockLoop.partial_correctness (fun k pos len => rej len (squeeze (strm k) pos r)) r (motive := fun st pos x => ∀ b s buf, pos = b * r →
      Reads4 O r strm b s → lockLoop (squeezeBlocks R r 1) (fun buf len => rej len (squeeze buf 0 r)) st buf s = some x) ?_ st (b * r) x hx b s buf rfl h
    intro loop ih st pos x hx b s buf hpos h
    obtain ⟨h1, h2⟩ := h.step hr8 hr2 R 1
    rw [Nat.one_mul] at h1
    rw [lockLoop]
    split at hx
    · rename_i hl
      rw [if_pos hl]
      dsimp only
      simp only [h1, squeeze_writeAt _ (squeeze _ _ r) r (by simp [squeeze])]
      rw [← hpos]
      exact ih _ _ _ hx (b + 1) _ _ (by rw [hpos, Nat.add_mul, Nat.one_mul]) h2
    · rename_i hl
      rw [if_neg hl]; exact hx

theorem polyUniform4x_model (R : Regs) (s : Nat → Q4) (J : Junk) (seed : Bytes) (hs : seed.length = 32) (nonce : Fin 4 → UInt16) :
    polyUniform4x R s J seed nonce = Avx2.polyUniform4x fipsShake J seed nonce := by
  let O : Oob := ⟨fun _ _ => 0, fun s _ _ => s, fun _ _ => 0⟩
  obtain ⟨s', h1, h2⟩ := absorb128 O R s (fun k => inBuf J.bytes 32 seed (nonce k)) (32 + 2)
  have e : (fun l => fipsShake.shake128 (bytesOf (inBuf J.bytes 32 seed (nonce l)) 0 (32 + 2))) = fun l => stream128 fipsShake (seed.take 32) (nonce l) := by
    funext l; rw [bytesOf_inBuf _ _ _ hs]; rfl
  rw [e] at h2
  obtain ⟨h3, h4⟩ := h2.step (by omega) (by omega) R 5
  rw [Nat.zero_mul] at h3
  unfold polyUniform4x Avx2.polyUniform4x shake128x4SqueezeBlocks
  dsimp only
  rw [h1, Option.bind_eq_bind, Option.bind_some]
  rw [lockLoop_eq O R 168 (by omega) (by omega) _ (fun len b => rejUniform len b) _ _ _ _ h4]
  simp only [h3, writeAt_filled J 32 seed hs _ _ (5 * 168) (by omega)]

theorem polyUniformEta4x_model (R : Regs) (s : Nat → Q4) (J : Junk) (seed : Bytes) (hs : seed.length = 64) (nonce : Fin 4 → UInt16) :
    polyUniformEta4x R s J seed nonce = Avx2.polyUniformEta4x fipsShake J seed nonce := by
  let O : Oob := ⟨fun _ _ => 0, fun s _ _ => s, fun _ _ => 0⟩
  obtain ⟨s', h1, h2⟩ := absorb256 O R s (fun k => inBuf J.bytes 64 seed (nonce k)) 66
  have e : (fun l => fipsShake.shake256 (bytesOf (inBuf J.bytes 64 seed (nonce l)) 0 66)) = fun l => stream256 fipsShake (seed.take 64) (nonce l) := by
    funext l; rw [show 66 = 64 + 2 from rfl, bytesOf_inBuf _ _ _ hs]; rfl
  rw [e] at h2
  obtain ⟨h3, h4⟩ := h2.step (by omega) (by omega) R 1
  rw [Nat.zero_mul] at h3
  unfold polyUniformEta4x Avx2.polyUniformEta4x shake256x4SqueezeBlocks
  dsimp only
  rw [h1, Option.bind_eq_bind, Option.bind_some]
  rw [lockLoop_eq O R 136 (by omega) (by omega) _ (fun len b => rejEta len b) _ _ _ _ h4]
  simp only [h3, writeAt_filled J 64 seed hs _ _ (1 * 136) (by omega)]

theorem polyUniformGamma14x_model (R : Regs) (s : Nat → Q4) (J : Junk) (seed : Bytes) (hs : seed.length = 64) (nonce : Fin 4 → UInt16) :
    polyUniformGamma14x R s J seed nonce = some (Avx2.polyUniformGamma14x fipsShake J seed nonce) := by
  let O : Oob := ⟨fun _ _ => 0, fun s _ _ => s, fun _ _ => 0⟩
  obtain ⟨s', h1, h2⟩ := absorb256 O R s (fun k => inBuf J.bytes 64 seed (nonce k)) 66
  have e : (fun l => fipsShake.shake256 (bytesOf (inBuf J.bytes 64 seed (nonce l)) 0 66)) = fun l => stream256 fipsShake (seed.take 64) (nonce l) := by
    funext l; rw [show 66 = 64 + 2 from rfl, bytesOf_inBuf _ _ _ hs]; rfl
  rw [e] at h2
  obtain ⟨h3, _⟩ := h2.step (by omega) (by omega) R 5
  rw [Nat.zero_mul] at h3
  unfold polyUniformGamma14x Avx2.polyUniformGamma14x shake256x4SqueezeBlocks
  dsimp only
  rw [h1, Option.bind_eq_bind, Option.bind_some]
  simp only [h3, writeAt_filled J 64 seed hs _ _ (5 * 136) (by omega)]
  rfl

theorem take_squeeze (st : Nat → UInt8) (pos n k : Nat) (h : k ≤ n) : (squeeze st pos n).take k = squeeze st pos k := by
  unfold squeeze; rw [← List.map_take, List.take_range, Nat.min_eq_left h]

theorem squeeze_split (st : Nat → UInt8) (pos a n : Nat) {b : Nat} (h : a + b = n) : squeeze st pos a ++ squeeze st (pos + a) b = squeeze st pos n := by
  subst h
  unfold squeeze
  rw [List.range_add, List.map_append, List.map_map]
  refine congrArg _ (List.map_congr_left fun i _ => ?_)
  simp only [Function.comp, Nat.add_assoc]

end Verif.Avx2.X4
