import Verif.Keccak.Hash
import Verif.Dilithium.Poly

/-! # C81–C84: the Keccak code of `fips202.c` is FIPS 202

`Verif/Keccak/Spec.lean` is the standard, bit by bit.  `O` says what an access outside an array would do; since the results do not depend on it, there
is none. -/

namespace Verif.Props
open Verif Verif.Keccak Verif.Fips202

/-- C81: the unrolled permutation computes KECCAK-f[1600] on the state array whose lane `(x, y)` is word `5y + x`. -/
theorem C81_permutation (s : Lanes) (x y : Fin 5) (z : Fin 64) :
    ((permute s)[5 * y.1 + x.1]'(by omega)).getLsbD z.1 = keccakF (fun x y z => (s[5 * y.1 + x.1]'(by omega)).getLsbD z.1) x y z :=
  congrFun (congrFun (congrFun (abs_permute s) x) y) z

/-- C82: `shake128` writes the first `n` bytes of SHAKE128 of the input. -/
theorem C82_shake128 (O : Oob) (n : Nat) (inp : Bytes) :
    ∃ out, Keccak.shake128 O n inp = some out ∧ out.length = n ∧ bitsOf out = SHAKE128 (bitsOf inp) (8 * n) := by
  obtain ⟨s, h1, h2, h3, h4⟩ := oneShot_spec O domain_shake 168 (by omega) (by omega) (by omega) inp
  have hd := Nat.div_add_mod n 168
  refine ⟨streamSlice O 168 s 0 n, ?_, streamSlice_length _ _ _ _ _, h4 n⟩
  unfold Keccak.shake128 shake128Rate
  rw [h1]
  simp only [Option.bind_eq_bind, Option.bind_some, h2, h3]
  split
  · rw [take_streamSlice _ _ _ _ _ _ (by omega)]
    have e : n = n / 168 * 168 + (n - n / 168 * 168) := by omega
    conv_rhs => rw [e, streamSlice_add, Nat.zero_add]
    rfl
  · rw [show n / 168 * 168 = n by omega]; rfl

/-- C82: `shake256` writes the first `n` bytes of SHAKE256 of the input. -/
theorem C82_shake256 (O : Oob) (n : Nat) (inp : Bytes) :
    ∃ out, Keccak.shake256 O n inp = some out ∧ out.length = n ∧ bitsOf out = SHAKE256 (bitsOf inp) (8 * n) := by
  obtain ⟨s, h1, h2, h3, h4⟩ := oneShot_spec O domain_shake 136 (by omega) (by omega) (by omega) inp
  have hd := Nat.div_add_mod n 136
  refine ⟨streamSlice O 136 s 0 n, ?_, streamSlice_length _ _ _ _ _, h4 n⟩
  unfold Keccak.shake256 shake256Rate
  rw [h1]
  simp only [Option.bind_eq_bind, Option.bind_some, h2, h3]
  split
  · rw [take_streamSlice _ _ _ _ _ _ (by omega)]
    have e : n = n / 136 * 136 + (n - n / 136 * 136) := by omega
    conv_rhs => rw [e, streamSlice_add, Nat.zero_add]
    rfl
  · rw [show n / 136 * 136 = n by omega]; rfl

/-- C82: `sha3_256` is SHA3-256. -/
theorem C82_sha3_256 (O : Oob) (inp : Bytes) : ∃ out, sha3_256 O inp = some out ∧ out.length = 32 ∧ bitsOf out = SHA3_256 (bitsOf inp) := by
  obtain ⟨s, h1, h2, -, h4⟩ := oneShot_spec O domain_sha3 136 (by omega) (by omega) (by omega) inp
  refine ⟨streamSlice O 136 s 0 32, ?_, streamSlice_length _ _ _ _ _, h4 32⟩
  unfold sha3_256 sha3_256Rate
  rw [h1]
  simp only [Option.bind_eq_bind, Option.bind_some, h2]
  rw [take_streamSlice _ _ _ _ _ _ (by omega)]; rfl

/-- C82: `sha3_384` is SHA3-384. -/
theorem C82_sha3_384 (O : Oob) (inp : Bytes) : ∃ out, sha3_384 O inp = some out ∧ out.length = 48 ∧ bitsOf out = SHA3_384 (bitsOf inp) := by
  obtain ⟨s, h1, h2, -, h4⟩ := oneShot_spec O domain_sha3 104 (by omega) (by omega) (by omega) inp
  refine ⟨streamSlice O 104 s 0 48, ?_, streamSlice_length _ _ _ _ _, h4 48⟩
  unfold sha3_384 sha3_384Rate
  rw [h1]
  simp only [Option.bind_eq_bind, Option.bind_some, h2]
  rw [take_streamSlice _ _ _ _ _ _ (by omega)]; rfl

/-- C82: `sha3_512` is SHA3-512. -/
theorem C82_sha3_512 (O : Oob) (inp : Bytes) : ∃ out, sha3_512 O inp = some out ∧ out.length = 64 ∧ bitsOf out = SHA3_512 (bitsOf inp) := by
  obtain ⟨s, h1, h2, -, h4⟩ := oneShot_spec O domain_sha3 72 (by omega) (by omega) (by omega) inp
  refine ⟨streamSlice O 72 s 0 64, ?_, streamSlice_length _ _ _ _ _, h4 64⟩
  unfold sha3_512 sha3_512Rate
  rw [h1]
  simp only [Option.bind_eq_bind, Option.bind_some, h2]
  rw [take_streamSlice _ _ _ _ _ _ (by omega)]; rfl

/-- C83: however the input is cut into `absorb` calls and the output into `squeeze` calls, the incremental SHAKE128 functions output SHAKE128 of the
concatenated input, each call the number of bytes asked for. -/
theorem C83_shake128_incremental (O : Oob) (ms : List Bytes) (ns : List Nat) :
    ∃ outs, runInc shake128IncInit (shake128IncAbsorb O) (shake128IncFinalize O) (shake128IncSqueeze O) ms ns = some outs ∧
      outs.map List.length = ns ∧ bitsOf outs.flatten = SHAKE128 (bitsOf ms.flatten) (8 * ns.sum) := by
  obtain ⟨hs, h1, h2, h3⟩ := runInc_spec O domain_shake 168 (by omega) (by omega) ms ns
  exact ⟨hs, h1, h3, h2⟩

/-- C83: the same for SHAKE256. -/
theorem C83_shake256_incremental (O : Oob) (ms : List Bytes) (ns : List Nat) :
    ∃ outs, runInc shake256IncInit (shake256IncAbsorb O) (shake256IncFinalize O) (shake256IncSqueeze O) ms ns = some outs ∧
      outs.map List.length = ns ∧ bitsOf outs.flatten = SHAKE256 (bitsOf ms.flatten) (8 * ns.sum) := by
  obtain ⟨hs, h1, h2, h3⟩ := runInc_spec O domain_shake 136 (by omega) (by omega) ms ns
  exact ⟨hs, h1, h3, h2⟩

/-- C83: the incremental SHA3-256 functions, for any cutting of the input. -/
theorem C83_sha3_256_incremental (O : Oob) (ms : List Bytes) : ∃ c, ms.foldlM (sha3_256IncAbsorb O) incInit = some c ∧
    bitsOf (sha3_256IncFinalize O c) = SHA3_256 (bitsOf ms.flatten) :=
  incBlock_spec O domain_sha3 136 (by omega) (by omega) (by omega) ms 32 (by omega)

/-- C83: the incremental SHA3-384 functions. -/
theorem C83_sha3_384_incremental (O : Oob) (ms : List Bytes) : ∃ c, ms.foldlM (sha3_384IncAbsorb O) incInit = some c ∧
    bitsOf (sha3_384IncFinalize O c) = SHA3_384 (bitsOf ms.flatten) :=
  incBlock_spec O domain_sha3 104 (by omega) (by omega) (by omega) ms 48 (by omega)

/-- C83: the incremental SHA3-512 functions. -/
theorem C83_sha3_512_incremental (O : Oob) (ms : List Bytes) : ∃ c, ms.foldlM (sha3_512IncAbsorb O) incInit = some c ∧
    bitsOf (sha3_512IncFinalize O c) = SHA3_512 (bitsOf ms.flatten) :=
  incBlock_spec O domain_sha3 72 (by omega) (by omega) (by omega) ms 64 (by omega)

/-! ## C84: the hash functions of the Dilithium model -/

/-- The byte with the given bits, least significant first. -/
def byteOfBits (l : List Bool) : UInt8 := UInt8.ofNat (l.foldr (fun b n => b.toNat + 2 * n) 0)

/-- FIPS 202 as output streams: byte `i` consists of output bits `8 i` to `8 i + 7`. -/
def fipsShake : Dilithium.Shake where
  shake128 M i := byteOfBits ((SHAKE128 (bitsOf M) (8 * (i + 1))).drop (8 * i))
  shake256 M i := byteOfBits ((SHAKE256 (bitsOf M) (8 * (i + 1))).drop (8 * i))

private theorem byteOfBits_bits (x : UInt8) : byteOfBits (bitsOf [x]) = x := by
  have h : ∀ n : Fin 256, byteOfBits (bitsOf [UInt8.ofNat n.1]) = UInt8.ofNat n.1 := by decide +kernel
  have hx := h ⟨x.toNat, x.toNat_lt⟩
  rwa [UInt8.ofNat_toNat] at hx

private theorem stream_of_bits (N : List Bool) (r : Nat) (out : Bytes) (h : bitsOf out = sponge r N (8 * out.length)) (i : Nat) (hi : i < out.length) :
    out[i] = byteOfBits ((sponge r N (8 * (i + 1))).drop (8 * i)) := by
  rw [← sponge_take r N (8 * (i + 1)) (8 * out.length) (by omega), ← h, ← bitsOf_take, ← bitsOf_drop, List.take_succ_eq_append_getElem hi,
    List.drop_append, List.length_take, Nat.min_eq_left (by omega), Nat.sub_self, List.drop_of_length_le (by rw [List.length_take]; omega),
    List.nil_append, List.drop_zero, byteOfBits_bits]

private theorem slice_of_bits (N : List Bool) (r : Nat) (st : Nat → UInt8) (hst : ∀ i, st i = byteOfBits ((sponge r N (8 * (i + 1))).drop (8 * i)))
    (out : Bytes) (h : bitsOf out = sponge r N (8 * out.length)) : out = Dilithium.squeeze st 0 out.length := by
  apply List.ext_getElem
  · simp [Dilithium.squeeze]
  · intro i h1 h2
    rw [stream_of_bits N r out h i h1]
    simp only [Dilithium.squeeze, List.getElem_map, List.getElem_range, Nat.zero_add, hst]

/-- What a list of `squeeze` calls returns when the stream is `st`. -/
def slices (st : Nat → UInt8) : Nat → List Nat → List Bytes
  | _, [] => []
  | pos, n :: ns => Dilithium.squeeze st pos n :: slices st (pos + n) ns

private theorem squeeze_append (st : Nat → UInt8) (pos n m : Nat) :
    Dilithium.squeeze st pos (n + m) = Dilithium.squeeze st pos n ++ Dilithium.squeeze st (pos + n) m := by
  unfold Dilithium.squeeze
  rw [List.range_add, List.map_append, List.map_map]
  congr 1
  apply List.map_congr_left
  intro i _
  simp only [Function.comp, Nat.add_assoc]

private theorem slices_unique (st : Nat → UInt8) (ns : List Nat) (pos : Nat) (outs : List Bytes) (hl : outs.map List.length = ns)
    (h : outs.flatten = Dilithium.squeeze st pos ns.sum) : outs = slices st pos ns := by
  induction ns generalizing pos outs with
  | nil =>
    cases outs with
    | nil => rfl
    | cons => simp at hl
  | cons n ns ih =>
    cases outs with
    | nil => simp at hl
    | cons o outs =>
      rw [List.map_cons, List.cons.injEq] at hl
      rw [List.flatten_cons, List.sum_cons, squeeze_append] at h
      obtain ⟨h1, h2⟩ := List.append_inj h (by rw [hl.1]; simp [Dilithium.squeeze])
      rw [h1, ih (pos + n) outs hl.2 h2]
      rfl

/-- C84: what the Dilithium model writes `shake256 H n inp` is, for `H = fipsShake`, what the C function `shake256` outputs. -/
theorem C84_shake256_is_model (O : Oob) (n : Nat) (inp : Bytes) : Keccak.shake256 O n inp = some (Dilithium.shake256 fipsShake n inp) := by
  obtain ⟨out, h1, h2, h3⟩ := C82_shake256 O n inp
  subst h2
  rw [h1, slice_of_bits _ _ (fipsShake.shake256 inp) (fun _ => rfl) out h3]
  simp [Dilithium.shake256, Dilithium.squeeze]

/-- C84: what the model writes `squeeze (H.shake256 M) pos n` is what a `shake256_inc_squeeze` call for `n` bytes returns after `pos` bytes have been
squeezed from a context into which `M` was absorbed in any pieces. -/
theorem C84_shake256_inc_is_model (O : Oob) (ms : List Bytes) (ns : List Nat) :
    runInc shake256IncInit (shake256IncAbsorb O) (shake256IncFinalize O) (shake256IncSqueeze O) ms ns = some (slices (fipsShake.shake256 ms.flatten) 0 ns) := by
  obtain ⟨outs, h1, h2, h3⟩ := C83_shake256_incremental O ms ns
  have hlen : outs.flatten.length = ns.sum := by rw [List.length_flatten, h2]
  have := slice_of_bits _ _ (fipsShake.shake256 ms.flatten) (fun _ => rfl) outs.flatten (by rw [hlen]; exact h3)
  rw [hlen] at this
  rw [h1, slices_unique _ ns 0 outs h2 this]

/-- C84: the same for SHAKE128. -/
theorem C84_shake128_inc_is_model (O : Oob) (ms : List Bytes) (ns : List Nat) :
    runInc shake128IncInit (shake128IncAbsorb O) (shake128IncFinalize O) (shake128IncSqueeze O) ms ns = some (slices (fipsShake.shake128 ms.flatten) 0 ns) := by
  obtain ⟨outs, h1, h2, h3⟩ := C83_shake128_incremental O ms ns
  have hlen : outs.flatten.length = ns.sum := by rw [List.length_flatten, h2]
  have := slice_of_bits _ _ (fipsShake.shake128 ms.flatten) (fun _ => rfl) outs.flatten (by rw [hlen]; exact h3)
  rw [hlen] at this
  rw [h1, slices_unique _ ns 0 outs h2 this]

/-! ## Published test vectors

The kernel evaluates the model of the C code; with C82 these also test `Verif/Keccak/Spec.lean`. -/

/-- Some behaviour outside the arrays, for evaluation. -/
def someOob : Oob := ⟨fun _ _ => 0, fun s _ _ => s, fun _ _ => 0⟩

/-- SHA3-256 of the empty string and of "abc". -/
example : sha3_256 someOob [] = some [0xa7, 0xff, 0xc6, 0xf8, 0xbf, 0x1e, 0xd7, 0x66, 0x51, 0xc1, 0x47, 0x56, 0xa0, 0x61, 0xd6, 0x62,
      0xf5, 0x80, 0xff, 0x4d, 0xe4, 0x3b, 0x49, 0xfa, 0x82, 0xd8, 0x0a, 0x4b, 0x80, 0xf8, 0x43, 0x4a] ∧
    sha3_256 someOob [0x61, 0x62, 0x63] = some [0x3a, 0x98, 0x5d, 0xa7, 0x4f, 0xe2, 0x25, 0xb2, 0x04, 0x5c, 0x17, 0x2d, 0x6b, 0xd3, 0x90, 0xbd,
      0x85, 0x5f, 0x08, 0x6e, 0x3e, 0x9d, 0x52, 0x5b, 0x46, 0xbf, 0xe2, 0x45, 0x11, 0x43, 0x15, 0x32] := by
  decide +kernel

/-- SHAKE128 and SHAKE256 of the empty string, 32 bytes; the second also by two `squeeze` calls. -/
example : Keccak.shake128 someOob 32 [] = some [0x7f, 0x9c, 0x2b, 0xa4, 0xe8, 0x8f, 0x82, 0x7d, 0x61, 0x60, 0x45, 0x50, 0x76, 0x05, 0x85, 0x3e,
      0xd7, 0x3b, 0x80, 0x93, 0xf6, 0xef, 0xbc, 0x88, 0xeb, 0x1a, 0x6e, 0xac, 0xfa, 0x66, 0xef, 0x26] ∧
    runInc shake256IncInit (shake256IncAbsorb someOob) (shake256IncFinalize someOob) (shake256IncSqueeze someOob) [[], []] [16, 0, 16] =
      some [[0x46, 0xb9, 0xdd, 0x2b, 0x0b, 0xa8, 0x8d, 0x13, 0x23, 0x3b, 0x3f, 0xeb, 0x74, 0x3e, 0xeb, 0x24], [],
        [0x3f, 0xcd, 0x52, 0xea, 0x62, 0xb8, 0x1b, 0x82, 0xb5, 0x0c, 0x27, 0x64, 0x6e, 0xd5, 0x76, 0x2f]] := by
  decide +kernel

end Verif.Props
