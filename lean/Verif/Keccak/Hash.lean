import Verif.Keccak.Sponge

/-! # Padding, squeezing, and the functions of `fips202.c` against FIPS 202 -/

namespace Verif.Keccak
open Verif.Fips202

/-! ## Padding -/

/-- The last bytes of the padded message when `n` bytes of the block are free: `p`, zeros, and bit 7 of the last byte. -/
def padBytes (p : UInt8) (n : Nat) : Bytes := if n = 1 then [p ||| 128] else p :: (List.replicate (n - 2) 0 ++ [128])

theorem padBytes_length (p : UInt8) (n : Nat) (h : 0 < n) : (padBytes p n).length = n := by
  unfold padBytes
  split
  · simp; omega
  · simp; omega

theorem bitsOf_replicate_zero (n : Nat) : bitsOf (List.replicate n 0) = List.replicate (8 * n) false := by
  induction n with
  | zero => rfl
  | succ n ih =>
    rw [List.replicate_succ, bitsOf_cons, ih, show 8 * (n + 1) = 8 + 8 * n by omega, List.replicate_add]
    rfl

/-- The domain byte `p` carries the suffix `suf` and the first bit of the padding. -/
structure Domain (p : UInt8) (suf : List Bool) : Prop where
  len : suf.length ≤ 6
  bits : bitsOf [p] = suf ++ true :: List.replicate (7 - suf.length) false
  last : bitsOf [p ||| 128] = suf ++ true :: (List.replicate (6 - suf.length) false ++ [true])
  small : p.toNat < 128

theorem domain_shake : Domain 0x1F [true, true, true, true] := ⟨by decide, by decide, by decide, by decide⟩
theorem domain_sha3 : Domain 0x06 [false, true] := ⟨by decide, by decide, by decide, by decide⟩

theorem padBytes_bits {p : UInt8} {suf : List Bool} (hp : Domain p suf) (r l : Nat) (hr : 0 < r) :
    bitsOf (padBytes p (r - l % r)) = suf ++ pad (8 * r) (8 * l + suf.length) := by
  have hlt := Nat.mod_lt l hr
  have hlen := hp.len
  have hj : ((-((8 * l + suf.length : Nat) : Int) - 2) % ((8 * r : Nat) : Int)).toNat = 8 * (r - l % r) - suf.length - 2 := by
    have hd := Nat.div_add_mod l r
    have e : (-((8 * l + suf.length : Nat) : Int) - 2) = ((8 * (r - l % r) - suf.length - 2 : Nat) : Int) + ((8 * r : Nat) : Int) * (-((l / r : Nat) : Int) - 1) := by
      have h1 : ((8 * (r - l % r) - suf.length - 2 : Nat) : Int) = 8 * ((r : Int) - (l % r : Nat)) - suf.length - 2 := by omega
      rw [h1]
      have h2 : (l : Int) = (r : Int) * ((l / r : Nat) : Int) + ((l % r : Nat) : Int) := by exact_mod_cast hd.symm
      have h3 : ((8 * r : Nat) : Int) * (-((l / r : Nat) : Int) - 1) = - (8 * ((r : Int) * ((l / r : Nat) : Int))) - 8 * (r : Int) := by
        rw [Int.mul_sub, Int.mul_neg, Int.mul_one]; push_cast; rw [Int.mul_assoc]
      rw [h3]
      omega
    rw [e, Int.add_mul_emod_self_left, Int.emod_eq_of_lt (by omega) (by omega)]
    simp
  unfold pad
  rw [hj]
  unfold padBytes
  split
  · rename_i h1
    rw [hp.last, h1, show 8 * 1 - suf.length - 2 = 6 - suf.length by omega]
    simp
  · rename_i h1
    rw [show p :: (List.replicate (r - l % r - 2) 0 ++ [128]) = [p] ++ (List.replicate (r - l % r - 2) 0 ++ [128]) from rfl, bitsOf_append, bitsOf_append,
      hp.bits, bitsOf_replicate_zero,
      show 8 * (r - l % r) - suf.length - 2 = (7 - suf.length) + (8 * (r - l % r - 2) + 7) by omega, List.replicate_add, List.replicate_add,
      show bitsOf [128] = List.replicate 7 false ++ [true] by decide]
    simp

/-- Absorbing whole blocks is the absorbing phase of the sponge. -/
theorem feed_blocks (r : Nat) (hr : 0 < r) (n : Nat) (Q : Bytes) (hQ : Q.length = n * r) (A : State) :
    Q.foldl (feed r) (A, 0) =
      ((List.range n).foldl (fun S i => keccakF (xorString S (((bitsOf Q).drop (i * (8 * r))).take (8 * r)))) A, 0) := by
  have : ∀ k ≤ n, (Q.take (k * r)).foldl (feed r) (A, 0) =
      ((List.range k).foldl (fun S i => keccakF (xorString S (((bitsOf Q).drop (i * (8 * r))).take (8 * r)))) A, 0) := by
    intro k
    induction k with
    | zero => intro _; rw [Nat.zero_mul, List.take_zero]; rfl
    | succ k ih =>
      intro hk
      have hle : k * r + r ≤ n * r := by
        have := Nat.mul_le_mul_right r hk
        rwa [Nat.add_mul, Nat.one_mul] at this
      rw [Nat.add_mul, Nat.one_mul, List.take_add, List.foldl_append, ih (by omega), List.range_succ, List.foldl_append, List.foldl_cons, List.foldl_nil]
      have hl : ((Q.drop (k * r)).take r).length = r := by rw [List.length_take, List.length_drop]; omega
      rw [feed_block r _ _ _ (by intro h0; rw [h0, List.length_nil] at hl; omega) (by rw [hl]; omega), ← xorString_bitsOf, bitsOf_take, bitsOf_drop,
        show 8 * (k * r) = k * (8 * r) by rw [Nat.mul_left_comm]]
  have h := this n (Nat.le_refl n)
  rwa [← hQ, List.take_length] at h

/-- The state of a sponge with rate `r` bytes after absorbing the bytes `M`, the suffix bits and the padding. -/
theorem absorbed_eq {p : UInt8} {suf : List Bool} (hp : Domain p suf) (r : Nat) (hr : 0 < r) (M : Bytes) :
    (absorbed (8 * r) (bitsOf M ++ suf), 0) = (M ++ padBytes p (r - M.length % r)).foldl (feed r) (zero, 0) := by
  have hlt := Nat.mod_lt M.length hr
  have hd := Nat.div_add_mod M.length r
  have hQ : (M ++ padBytes p (r - M.length % r)).length = (M.length / r + 1) * r := by
    rw [List.length_append, padBytes_length _ _ (by omega), Nat.add_mul, Nat.one_mul, Nat.mul_comm (M.length / r) r]; omega
  rw [feed_blocks r hr _ _ hQ]
  unfold absorbed
  dsimp only
  rw [List.length_append, bitsOf_length, List.append_assoc, ← padBytes_bits hp r M.length hr, ← bitsOf_append, bitsOf_length, hQ,
    show 8 * ((M.length / r + 1) * r) = (M.length / r + 1) * (8 * r) by rw [Nat.mul_left_comm], Nat.mul_div_cancel _ (by omega)]
  rfl

theorem foldl_feed_cnt (r : Nat) (hr : 0 < r) (M : Bytes) (A : State) : (M.foldl (feed r) (A, 0)).2 = M.length % r := by
  have hd := Nat.div_add_mod M.length r
  have hlt := Nat.mod_lt M.length hr
  conv_lhs => rw [← List.take_append_drop (M.length / r * r) M, List.foldl_append]
  have h1 : (M.take (M.length / r * r)).length = M.length / r * r := by
    rw [List.length_take]
    exact Nat.min_eq_left (Nat.div_mul_le_self _ _)
  have h2 : (M.drop (M.length / r * r)).length = M.length % r := by rw [List.length_drop, Nat.mul_comm]; omega
  rw [feed_blocks r hr _ _ h1, feed_lt r _ _ _ (by rw [h2]; omega), h2]
  exact Nat.zero_add _

/-! ## Finalizing -/

theorem xorStr_zero_bytes (A : State) (p n : Nat) : xorStr A p (List.replicate n 0) = A := by
  funext x y z
  unfold xorStr
  rw [bitsOf_replicate_zero]
  split
  · simp
  · simp

theorem xor_or_128 (p : UInt8) (h : p.toNat < 128) (k : Nat) : (p ||| 128).toNat.testBit k = (p.toNat.testBit k ^^ (128 : UInt8).toNat.testBit k) := by
  rw [UInt8.toNat_or, Nat.testBit_or]
  by_cases hk : k = 7
  · subst hk
    rw [Nat.testBit_lt_two_pow (x := p.toNat) (i := 7) (by omega)]; rfl
  · have : (128 : UInt8).toNat.testBit k = false := by
      show Nat.testBit (2 ^ 7) k = false
      rw [Nat.testBit_two_pow]; simp; omega
    rw [this]; simp

theorem xorStr_or (A : State) (q : Nat) (p : UInt8) (h : p.toNat < 128) : xorStr A q [p ||| 128] = xorStr (xorStr A q [p]) q [128] := by
  funext x y z
  unfold xorStr
  rw [Bool.xor_assoc]
  congr 1
  split
  · rw [bitsOf_getD, bitsOf_getD, bitsOf_getD]
    generalize ix x y z - 8 * q = i
    by_cases hi : i / 8 = 0
    · rw [hi]
      simp only [List.getD_cons_zero]
      exact xor_or_128 p h _
    · rw [show i / 8 = i / 8 - 1 + 1 by omega]
      simp
  · simp

theorem xorStr_padBytes (A : State) (c r : Nat) (p : UInt8) (h : p.toNat < 128) (hc : c < r) :
    xorStr A c (padBytes p (r - c)) = xorStr (xorStr A c [p]) (r - 1) [128] := by
  unfold padBytes
  split
  · rw [xorStr_or _ _ _ h, show r - 1 = c by omega]
  · rw [show p :: (List.replicate (r - c - 2) 0 ++ [128]) = [p] ++ (List.replicate (r - c - 2) 0 ++ [128]) from rfl, xorStr_append, xorStr_append,
      xorStr_zero_bytes, List.length_replicate, List.length_singleton, show c + 1 + (r - c - 2) = r - 1 by omega]

/-- Absorbing `M` from the zero state and finalizing: one permutation before the sponge's absorbed state. -/
theorem final_absorbed {p : UInt8} {suf : List Bool} (hp : Domain p suf) (r : Nat) (hr : 0 < r) (M : Bytes) (A : State) (c : Nat)
    (h : (A, c) = M.foldl (feed r) (zero, 0)) :
    keccakF (xorStr (xorStr A c [p]) (r - 1) [128]) = absorbed (8 * r) (bitsOf M ++ suf) := by
  have hc : c = M.length % r := by
    have := foldl_feed_cnt r hr M zero
    rw [← h] at this
    exact this
  have hlt := Nat.mod_lt M.length hr
  have e := absorbed_eq hp r hr M
  rw [List.foldl_append, ← h, ← hc] at e
  have hl := padBytes_length p (r - c) (by omega)
  rw [feed_block r _ _ _ (by intro h0; rw [h0, List.length_nil] at hl; omega) (by rw [hl]; omega), xorStr_padBytes _ _ _ _ hp.small (by omega)] at e
  exact (Prod.ext_iff.mp e).1.symm

theorem incFinalize_abs (O : Oob) (r : Nat) (hr : 0 < r) (hr2 : r ≤ 200) (p : UInt8) (c : Inc) (hc : c.cnt < r) :
    abs (incFinalize O r p c).s = xorStr (xorStr (abs c.s) c.cnt [p]) (r - 1) [128] ∧ (incFinalize O r p c).cnt = 0 := by
  refine ⟨?_, rfl⟩
  unfold incFinalize
  dsimp only
  have : (128 : U64) = toU64 128 := by decide
  rw [this, xorByte_abs O _ _ (by omega), xorByte_abs O _ _ (by omega)]

theorem lastBlock_eq (O : Oob) (r : Nat) (m : Bytes) (p : UInt8) (hm : m.length < r) : lastBlock O r m p = m ++ padBytes p (r - m.length) := by
  have hb : ((List.range r).map fun i => if i < m.length then rdByte O m i else 0) = m ++ List.replicate (r - m.length) 0 := by
    apply List.ext_getElem
    · simp; omega
    · intro i h1 h2
      rw [List.getElem_map, List.getElem_range]
      split
      · rename_i h
        rw [rdByte_lt O m i h, List.getElem_append_left h]
      · rename_i h
        rw [List.getElem_append_right (by omega), List.getElem_replicate]
  unfold lastBlock
  dsimp only
  rw [hb]
  have hs : (m ++ List.replicate (r - m.length) 0).set m.length p = m ++ p :: List.replicate (r - m.length - 1) 0 := by
    rw [List.set_append_right _ _ (by omega), Nat.sub_self, show r - m.length = r - m.length - 1 + 1 by omega, List.replicate_succ, List.set_cons_zero]
    rfl
  rw [hs]
  unfold padBytes
  split
  · rename_i h
    have e0 : r - m.length - 1 = 0 := by omega
    have e : r - 1 = m.length := by omega
    rw [e0, List.replicate_zero, rdByte_lt _ _ _ (by simp; omega)]
    simp only [e]
    rw [List.getElem_append_right (by omega), List.set_append_right _ _ (by omega)]
    simp
  · rename_i h
    have e : r - m.length - 1 = r - m.length - 2 + 1 := by omega
    have e2 : p :: List.replicate (r - m.length - 1) 0 = (p :: List.replicate (r - m.length - 2) 0) ++ [0] := by
      rw [e, List.replicate_succ']; rfl
    have el : r - 1 = (m ++ (p :: List.replicate (r - m.length - 2) 0)).length := by simp; omega
    rw [e2, ← List.append_assoc, rdByte_lt _ _ _ (by rw [List.length_append, ← el]; simp)]
    simp only [el]
    rw [List.getElem_append_right (Nat.le_refl _), List.set_append_right _ _ (Nat.le_refl _)]
    simp

theorem absorb_spec (O : Oob) {p : UInt8} {suf : List Bool} (hp : Domain p suf) (r : Nat) (hr : 0 < r) (hr8 : r % 8 = 0) (hr2 : r ≤ 200) (M : Bytes) :
    ∃ s, absorb O r M p = some s ∧ keccakF (abs s) = absorbed (8 * r) (bitsOf M ++ suf) := by
  obtain ⟨s, m, h1, h2, h3⟩ := absorbLoop_spec O r hr hr8 hr2 (M.length + 1) (Vector.replicate 25 0) M (Nat.le_refl _)
  unfold absorb
  rw [h1]
  refine ⟨_, rfl, ?_⟩
  rw [abs_zero] at h2
  have hl := padBytes_length p (r - m.length) (by omega)
  rw [lastBlock_eq O r m p h3, xorWords_abs O r hr8 hr2 _ _ (by rw [List.length_append, hl]; omega),
    List.take_of_length_le (by rw [List.length_append, hl]; omega), xorStr_append, Nat.zero_add, xorStr_padBytes _ _ _ _ hp.small h3]
  exact final_absorbed hp r hr M _ _ h2

/-! ## Squeezing -/

theorem rd_lt (O : Oob) (s : Lanes) (i : Nat) (h : i < 25) : rd O s i = s[i] := by unfold rd; rw [dif_pos h]

theorem toU8_bit (w : U64) (j : Nat) (h : j < 8) : (toU8 w).toNat.testBit j = w.getLsbD j := by
  have : (toU8 w).toNat.testBit j = (w.setWidth 8).getLsbD j := rfl
  rw [this, BitVec.getLsbD_setWidth]; simp [h]

theorem byteOf_bit (O : Oob) (s : Lanes) (i : Nat) (h : i < 200) (j : Nat) (hj : j < 8) : (byteOf O s i).toNat.testBit j = bit (abs s) (8 * i + j) := by
  unfold byteOf
  rw [toU8_bit _ _ hj, rd_lt O s _ (by omega), BitVec.getLsbD_ushiftRight]
  unfold bit abs
  have e : 5 * (Fin.ofNat 5 ((8 * i + j) / 64 / 5)).1 + (Fin.ofNat 5 ((8 * i + j) / 64)).1 = i / 8 := by simp only [Fin.ofNat]; omega
  have e2 : (Fin.ofNat 64 (8 * i + j)).1 = 8 * (i % 8) + j := by simp only [Fin.ofNat]; omega
  simp only [e, e2]

theorem abs_iterate (s : Lanes) (n : Nat) : abs (permute^[n] s) = keccakF^[n] (abs s) := by
  induction n generalizing s with
  | zero => rfl
  | succ n ih => rw [Function.iterate_succ_apply, Function.iterate_succ_apply, ih, abs_permute]

/-- Byte `i` of the output stream of a sponge with rate `r` bytes from the lanes `s` (before the first permutation of the squeezing phase). -/
def streamByte (O : Oob) (r : Nat) (s : Lanes) (i : Nat) : UInt8 := byteOf O (permute^[i / r + 1] s) (i % r)

/-- The bytes `pos .. pos + n - 1` of the stream. -/
def streamSlice (O : Oob) (r : Nat) (s : Lanes) (pos n : Nat) : Bytes := (List.range' pos n).map (streamByte O r s)

theorem streamSlice_add (O : Oob) (r : Nat) (s : Lanes) (pos n m : Nat) :
    streamSlice O r s pos (n + m) = streamSlice O r s pos n ++ streamSlice O r s (pos + n) m := by
  unfold streamSlice; rw [← List.range'_append_1, List.map_append]

theorem streamSlice_length (O : Oob) (r : Nat) (s : Lanes) (pos n : Nat) : (streamSlice O r s pos n).length = n := by
  unfold streamSlice; simp

theorem streamSlice_block (O : Oob) (r : Nat) (s : Lanes) (b off n : Nat) (h : off + n ≤ r) :
    (List.range n).map (fun i => byteOf O (permute^[b + 1] s) (off + i)) = streamSlice O r s (b * r + off) n := by
  unfold streamSlice
  rw [List.range_eq_range', List.range'_eq_map_range, List.range'_eq_map_range, List.map_map, List.map_map]
  apply List.map_congr_left
  intro i hi
  rw [List.mem_range] at hi
  simp only [Function.comp, streamByte]
  have h1 : (b * r + off + i) / r = b := by
    rw [Nat.add_assoc, Nat.mul_comm, Nat.mul_add_div (by omega), Nat.div_eq_of_lt (by omega), Nat.add_zero]
  have h2 : (b * r + off + i) % r = off + i := by
    rw [Nat.add_assoc, Nat.mul_comm, Nat.mul_add_mod, Nat.mod_eq_of_lt (by omega)]
  rw [h1, h2, Nat.zero_add]

/-- What a context that has output `pos` bytes looks like. -/
def SqInv (r : Nat) (s : Lanes) (pos : Nat) (c : Inc) : Prop := ∃ n, c.s = permute^[n] s ∧ pos + c.cnt = n * r ∧ c.cnt < r

theorem incSqueezeLoop_spec (O : Oob) (r : Nat) (hr : 0 < r) (s : Lanes) (fuel outlen pos : Nat) (c : Inc) (hf : outlen + 1 ≤ fuel)
    (hc : SqInv r s pos c) (h0 : c.cnt = 0 ∨ outlen = 0) :
    ∃ c', incSqueezeLoop O r fuel outlen c = some (streamSlice O r s pos outlen, c') ∧ SqInv r s (pos + outlen) c' := by
  induction fuel generalizing outlen pos c with
  | zero => omega
  | succ fuel ih =>
    unfold incSqueezeLoop
    by_cases ho : outlen > 0
    · rw [if_pos ho]
      obtain ⟨n, h1, h2, h3⟩ := hc
      have hcnt : c.cnt = 0 := by omega
      obtain ⟨c', g1, g2⟩ := ih (outlen - min outlen r) (pos + min outlen r) ⟨permute c.s, r - min outlen r⟩ (by omega)
        ⟨n + 1, by dsimp only; rw [h1, ← Function.iterate_succ_apply' (f := permute)],
          by dsimp only; rw [Nat.add_mul, Nat.one_mul]; omega, by dsimp only; omega⟩
        (by dsimp only; omega)
      dsimp only
      rw [g1]
      refine ⟨c', ?_, by rw [show pos + outlen = pos + min outlen r + (outlen - min outlen r) by omega]; exact g2⟩
      have hb := streamSlice_block O r s n 0 (min outlen r) (by omega)
      have e : n * r + 0 = pos := by omega
      rw [e] at hb
      have e2 : permute c.s = permute^[n + 1] s := by rw [h1, ← Function.iterate_succ_apply' (f := permute)]
      have hb2 : (List.range (min outlen r)).map (byteOf O (permute c.s)) = streamSlice O r s pos (min outlen r) := by
        rw [← hb, e2]
        simp
      rw [hb2]
      conv_rhs => rw [show outlen = min outlen r + (outlen - min outlen r) by omega, streamSlice_add]
      rfl
    · rw [if_neg ho]
      have : outlen = 0 := by omega
      subst this
      exact ⟨c, rfl, hc⟩

theorem incSqueeze_spec (O : Oob) (r : Nat) (hr : 0 < r) (s : Lanes) (outlen pos : Nat) (c : Inc) (hc : SqInv r s pos c) :
    ∃ c', incSqueeze O r outlen c = some (streamSlice O r s pos outlen, c') ∧ SqInv r s (pos + outlen) c' := by
  unfold incSqueeze
  have hc' := hc
  obtain ⟨n, h1, h2, h3⟩ := hc
  obtain ⟨c', g1, g2⟩ := incSqueezeLoop_spec O r hr s (outlen + 1) (outlen - min outlen c.cnt) (pos + min outlen c.cnt)
    { c with cnt := c.cnt - min outlen c.cnt } (by omega) ⟨n, h1, by dsimp only; omega, by dsimp only; omega⟩ (by dsimp only; omega)
  dsimp only
  rw [g1]
  refine ⟨c', ?_, by rw [show pos + outlen = pos + min outlen c.cnt + (outlen - min outlen c.cnt) by omega]; exact g2⟩
  have hb : (List.range (min outlen c.cnt)).map (fun i => byteOf O c.s (r - c.cnt + i)) = streamSlice O r s pos (min outlen c.cnt) := by
    by_cases hz : c.cnt = 0
    · rw [hz, Nat.min_zero]; rfl
    · cases n with
      | zero => omega
      | succ n =>
        have := streamSlice_block O r s n (r - c.cnt) (min outlen c.cnt) (by omega)
        rw [Nat.add_mul, Nat.one_mul] at h2
        rw [h1, this, show n * r + (r - c.cnt) = pos by omega]
  rw [hb]
  conv_rhs => rw [show outlen = min outlen c.cnt + (outlen - min outlen c.cnt) by omega, streamSlice_add]
  rfl

theorem store64_eq (O : Oob) (s : Lanes) (k : Nat) : (List.range k).flatMap (fun i => store64 (rd O s i)) = (List.range (8 * k)).map (byteOf O s) := by
  induction k with
  | zero => rfl
  | succ k ih =>
    rw [List.range_succ, List.flatMap_append, ih, show 8 * (k + 1) = 8 * k + 8 by omega, List.range_add, List.map_append, List.flatMap_singleton]
    congr 1
    unfold store64
    rw [List.map_map]
    apply List.map_congr_left
    intro i hi
    rw [List.mem_range] at hi
    simp only [Function.comp, byteOf]
    rw [show (8 * k + i) / 8 = k by omega, show (8 * k + i) % 8 = i by omega]

theorem squeezeBlocks_spec (O : Oob) (r : Nat) (hr8 : r % 8 = 0) (s : Lanes) (n b : Nat) :
    squeezeBlocks O r n (permute^[b] s) = (streamSlice O r s (b * r) (n * r), permute^[b + n] s) := by
  induction n generalizing b with
  | zero => rw [Nat.zero_mul]; rfl
  | succ n ih =>
    unfold squeezeBlocks
    dsimp only
    rw [store64_eq, show 8 * (r / 8) = r by omega, ← Function.iterate_succ_apply' (f := permute), ih (b + 1)]
    have hb := streamSlice_block O r s b 0 r (by omega)
    have hb2 : (List.range r).map (byteOf O (permute^[b + 1] s)) = streamSlice O r s (b * r) r := by
      rw [show b * r = b * r + 0 by omega, ← hb]; simp
    rw [hb2, Nat.add_mul b, Nat.one_mul, ← streamSlice_add, Nat.add_mul n, Nat.one_mul, Nat.add_comm r, show b + 1 + n = b + (n + 1) by omega]

/-- The stream is the output of the sponge. -/
theorem streamSlice_sponge (O : Oob) (r : Nat) (hr : 0 < r) (hr2 : r ≤ 200) (s : Lanes) (N : List Bool) (h : keccakF (abs s) = absorbed (8 * r) N) (n : Nat) :
    bitsOf (streamSlice O r s 0 n) = sponge (8 * r) N (8 * n) := by
  apply List.ext_getElem
  · rw [bitsOf_length, streamSlice_length]; simp [sponge]
  · intro k h1 h2
    rw [bitsOf_length, streamSlice_length] at h1
    have := bitsOf_getD (streamSlice O r s 0 n) k
    rw [List.getD_eq_getElem _ _ (by rw [bitsOf_length, streamSlice_length]; exact h1)] at this
    rw [this, List.getD_eq_getElem _ _ (by rw [streamSlice_length]; omega)]
    have hm := Nat.mod_lt (k / 8) hr
    have e1 : (streamSlice O r s 0 n)[k / 8]'(by rw [streamSlice_length]; omega) = streamByte O r s (k / 8) := by
      unfold streamSlice
      simp
    have e2 : (sponge (8 * r) N (8 * n))[k] = bit (keccakF^[k / (8 * r)] (absorbed (8 * r) N)) (k % (8 * r)) := by
      simp only [sponge, List.getElem_map, List.getElem_range]
    rw [e1, e2]
    unfold streamByte
    rw [byteOf_bit O _ _ (by omega) _ (by omega), abs_iterate, Function.iterate_succ_apply, h, Nat.div_div_eq_div_mul]
    congr 1
    have := Nat.mod_mul_right_div_self k 8 r
    have e := Nat.div_add_mod (k % (8 * r)) 8
    have e2 : k % (8 * r) % 8 = k % 8 := Nat.mod_mul_right_mod k 8 r
    omega

/-! ## The two ways of using the functions -/

/-- The squeeze calls of a user that asks for `n` bytes for every `n` in the list. -/
def squeezes (squeeze : Nat → Inc → Option (Bytes × Inc)) : Inc → List Nat → Option (List Bytes)
  | _, [] => some []
  | c, n :: ns => do
    let (h, c) ← squeeze n c
    let hs ← squeezes squeeze c ns
    return h :: hs

/-- A user of the incremental functions: `init`, any number of `absorb` calls, `finalize`, any number of `squeeze` calls. -/
def runInc (init : Inc) (absorb : Inc → Bytes → Option Inc) (finalize : Inc → Inc) (squeeze : Nat → Inc → Option (Bytes × Inc))
    (ms : List Bytes) (ns : List Nat) : Option (List Bytes) := do
  let c ← ms.foldlM absorb init
  squeezes squeeze (finalize c) ns

theorem absorbs_spec (O : Oob) (r : Nat) (hr : 0 < r) (hr2 : r ≤ 200) (ms : List Bytes) (c : Inc) (hc : c.cnt < r) :
    ∃ c', ms.foldlM (incAbsorb O r) c = some c' ∧ (abs c'.s, c'.cnt) = ms.flatten.foldl (feed r) (abs c.s, c.cnt) ∧ c'.cnt < r := by
  induction ms generalizing c with
  | nil => exact ⟨c, rfl, rfl, hc⟩
  | cons m ms ih =>
    obtain ⟨c1, h1, h2, h3⟩ := incAbsorb_spec O r hr hr2 c m hc
    obtain ⟨c2, g1, g2, g3⟩ := ih c1 h3
    refine ⟨c2, ?_, ?_, g3⟩
    · rw [List.foldlM_cons, h1]; exact g1
    · rw [g2, h2, List.flatten_cons, List.foldl_append]

theorem out_spec (O : Oob) (r : Nat) (hr : 0 < r) (s : Lanes) (ns : List Nat) (pos : Nat) (c : Inc) (hc : SqInv r s pos c) :
    ∃ hs, squeezes (incSqueeze O r) c ns = some hs ∧ hs.flatten = streamSlice O r s pos ns.sum ∧ hs.map List.length = ns := by
  induction ns generalizing pos c with
  | nil => exact ⟨[], rfl, rfl, rfl⟩
  | cons n ns ih =>
    obtain ⟨c', h1, h2⟩ := incSqueeze_spec O r hr s n pos c hc
    obtain ⟨hs, g1, g2, g3⟩ := ih (pos + n) c' h2
    refine ⟨streamSlice O r s pos n :: hs, ?_, ?_, ?_⟩
    · unfold squeezes
      rw [h1]
      dsimp only [Option.bind_eq_bind, Option.bind_some]
      rw [g1]; rfl
    · rw [List.flatten_cons, g2, List.sum_cons, streamSlice_add]
    · rw [List.map_cons, g3, streamSlice_length]

theorem runInc_spec (O : Oob) {p : UInt8} {suf : List Bool} (hp : Domain p suf) (r : Nat) (hr : 0 < r) (hr2 : r ≤ 200) (ms : List Bytes) (ns : List Nat) :
    ∃ hs, runInc incInit (incAbsorb O r) (incFinalize O r p) (incSqueeze O r) ms ns = some hs ∧ bitsOf hs.flatten = sponge (8 * r) (bitsOf ms.flatten ++ suf) (8 * ns.sum) ∧ hs.map List.length = ns := by
  obtain ⟨c, h1, h2, h3⟩ := absorbs_spec O r hr hr2 ms incInit hr
  obtain ⟨f1, f2⟩ := incFinalize_abs O r hr hr2 p c h3
  have hz : abs incInit.s = zero := abs_zero
  rw [hz] at h2
  obtain ⟨hs, g1, g2, g3⟩ := out_spec O r hr (incFinalize O r p c).s ns 0 (incFinalize O r p c) ⟨0, rfl, by rw [f2]; omega, by rw [f2]; exact hr⟩
  refine ⟨hs, ?_, ?_, g3⟩
  · unfold runInc
    rw [h1]; exact g1
  · rw [g2]
    refine streamSlice_sponge O r hr hr2 _ _ ?_ _
    rw [f1]
    exact final_absorbed hp r hr ms.flatten _ _ h2

/-- `absorb`, `squeezeblocks` of the full blocks and a partial last block. -/
theorem oneShot_spec (O : Oob) {p : UInt8} {suf : List Bool} (hp : Domain p suf) (r : Nat) (hr : 0 < r) (hr8 : r % 8 = 0) (hr2 : r ≤ 200) (M : Bytes) :
    ∃ s, absorb O r M p = some s ∧
      (∀ n, squeezeBlocks O r n s = (streamSlice O r s 0 (n * r), permute^[n] s)) ∧
      (∀ b n, squeezeBlocks O r n (permute^[b] s) = (streamSlice O r s (b * r) (n * r), permute^[b + n] s)) ∧
      ∀ n, bitsOf (streamSlice O r s 0 n) = sponge (8 * r) (bitsOf M ++ suf) (8 * n) := by
  obtain ⟨s, h1, h2⟩ := absorb_spec O hp r hr hr8 hr2 M
  refine ⟨s, h1, fun n => ?_, fun b n => squeezeBlocks_spec O r hr8 s n b, fun n => streamSlice_sponge O r hr hr2 s _ h2 n⟩
  have := squeezeBlocks_spec O r hr8 s n 0
  rw [Nat.zero_mul, Nat.zero_add] at this
  exact this

theorem take_streamSlice (O : Oob) (r : Nat) (s : Lanes) (pos n k : Nat) (h : k ≤ n) :
    (List.range k).map (rdByte O (streamSlice O r s pos n)) = streamSlice O r s pos k := by
  apply List.ext_getElem
  · rw [streamSlice_length]; simp
  · intro i h1 h2
    rw [List.getElem_map, List.getElem_range]
    rw [streamSlice_length] at h2
    rw [rdByte_lt O _ _ (by rw [streamSlice_length]; omega)]
    simp only [streamSlice, List.getElem_map, List.getElem_range']

/-- `init`, absorbs, `finalize`, and one block squeezed from the lanes. -/
theorem incBlock_spec (O : Oob) {p : UInt8} {suf : List Bool} (hp : Domain p suf) (r : Nat) (hr : 0 < r) (hr8 : r % 8 = 0) (hr2 : r ≤ 200) (ms : List Bytes)
    (k : Nat) (hk : k ≤ r) :
    ∃ c, ms.foldlM (incAbsorb O r) incInit = some c ∧
      bitsOf ((List.range k).map (rdByte O (squeezeBlocks O r 1 (incFinalize O r p c).s).1)) = sponge (8 * r) (bitsOf ms.flatten ++ suf) (8 * k) := by
  obtain ⟨c, h1, h2, h3⟩ := absorbs_spec O r hr hr2 ms incInit hr
  obtain ⟨f1, f2⟩ := incFinalize_abs O r hr hr2 p c h3
  have hz : abs incInit.s = zero := abs_zero
  rw [hz] at h2
  refine ⟨c, h1, ?_⟩
  have hq := squeezeBlocks_spec O r hr8 (incFinalize O r p c).s 1 0
  rw [Nat.zero_mul, Nat.one_mul] at hq
  have hq' : (squeezeBlocks O r 1 (incFinalize O r p c).s).1 = streamSlice O r (incFinalize O r p c).s 0 r := congrArg Prod.fst hq
  rw [hq', take_streamSlice _ _ _ _ _ _ hk]
  refine streamSlice_sponge O r hr hr2 _ _ ?_ _
  rw [f1]
  exact final_absorbed hp r hr ms.flatten _ _ h2

theorem bitsOf_inj {a b : Bytes} (h : bitsOf a = bitsOf b) : a = b := by
  have hl : a.length = b.length := by
    have := congrArg List.length h
    rw [bitsOf_length, bitsOf_length] at this
    omega
  apply List.ext_getElem hl
  intro i h1 h2
  apply UInt8.toNat_inj.mp
  apply Nat.eq_of_testBit_eq
  intro j
  by_cases hj : j < 8
  · have ha := bitsOf_getD a (8 * i + j)
    have hb := bitsOf_getD b (8 * i + j)
    rw [h, hb, show (8 * i + j) / 8 = i by omega, show (8 * i + j) % 8 = j by omega, List.getD_eq_getElem _ _ h1, List.getD_eq_getElem _ _ h2] at ha
    exact ha.symm
  · rw [testBit_ge _ _ (by omega), testBit_ge _ _ (by omega)]

theorem sponge_take (r : Nat) (N : List Bool) (n m : Nat) (h : n ≤ m) : (sponge r N m).take n = sponge r N n := by
  unfold sponge
  rw [← List.map_take, List.take_range, Nat.min_eq_left h]

end Verif.Keccak
