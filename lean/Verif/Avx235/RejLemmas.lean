import Verif.Avx235.Poly
import Verif.Avx2.RejLemmas
import Verif.Dilithium35.Sample

/-! # What `rej_eta_avx` of dilithium3 returns -/

namespace Verif.Avx235

open Verif.Avx2 Verif.Dilithium
open Verif.Dilithium35 (accEta4 rejEta4_squeeze accEta4_append)

/-- One dword of `etaPart4` from the byte `4 - nibble`. -/
def etaLane4 (x : BitVec 8) : Avx2.W32 := x.signExtend 32

theorem eta4_table : ∀ t : Fin 16, (((BitVec.ofNat 8 t.1 - 9#8).msb = decide (t.1 < 9)) ∧
    (t.1 < 9 → etaLane4 (4#8 - BitVec.ofNat 8 t.1) = BitVec.ofInt 32 (4 - (t.1 : Int)))) := by decide +kernel

theorem accEta4_eight (s : Nat → UInt8) (p : Nat) : accEta4 s p 8 = (((List.range 8).map fun j => nib s (p + j)).filter fun t => decide (t < 9)).map
    fun t : Nat => 4 - (t : Int) := by
  unfold accEta4
  rw [List.range'_eq_map_range, List.map_map]
  rfl

/-- One part: eight nibbles, in the low half of `g0`. -/
theorem eta4_part (buf : Nat → UInt8) (r0 : Nat → Avx2.W32) (st : (Nat → Avx2.W32) × Nat) (p : Nat) (L : List Int) (g0 : Xmm) (good : Nat) (hc : st.2 ≤ 248)
    (hg : good < 256) (hb : ∀ j : Fin 8, good.testBit j.1 = decide (nib buf (p + j.1) < 9))
    (h0 : ∀ j, j < 8 → byteX g0 j = 4#8 - BitVec.ofNat 8 (nib buf (p + j))) (H : Holds r0 st.1 st.2 L) :
    Holds r0 (etaPart4 g0 good st).1 (etaPart4 g0 good st).2 (L ++ accEta4 buf p 8) ∧ (etaPart4 g0 good st).2 ≤ 256 := by
  obtain ⟨r, ctr⟩ := st
  simp only at hc H
  have hacc : (bitsOf good).map (fun j => 4 - (nib buf (p + j) : Int)) = accEta4 buf p 8 := by
    rw [accEta4_eight, ← range8_filter_map (fun j => nib buf (p + j)) (fun t => decide (t < 9)) good hb, List.map_map]
    rfl
  refine ⟨?_, by have := popcnt_le good hg; show ctr + popcnt good ≤ 256; omega⟩
  show Holds r0 (store8 r ctr _) (ctr + popcnt good) _
  have hfull : ∀ k (hk : k < 8), cvtepi8Epi32 (shuffleX g0 (lutX good)) ⟨k, hk⟩
      = etaLane4 (4#8 - BitVec.ofNat 8 (nib buf (p + lutAt good k))) := by
    intro k hk
    have hl := (lut_spec ⟨good, hg⟩).2.1 ⟨k, hk⟩
    simp only at hl
    have e : byteX (shuffleX g0 (lutX good)) k = 4#8 - BitVec.ofNat 8 (nib buf (p + lutAt good k)) := by
      unfold shuffleX
      rw [byteX_ofByteX _ _ (by omega)]
      have el : byteX (lutX good) k = BitVec.ofNat 8 (lutAt good k) := by
        unfold lutX
        rw [byteX_ofByteX _ _ (by omega), if_pos hk]
      rw [el, BitVec.toNat_ofNat, show lutAt good k % 2 ^ 8 % 16 = lutAt good k by omega, h0 _ hl, if_neg]
      rw [BitVec.msb_eq_decide, BitVec.toNat_ofNat]
      simp only [decide_eq_true_eq]
      omega
    rw [← e]
    rfl
  have hcell : ∀ k, k < 8 → store8 r ctr (cvtepi8Epi32 (shuffleX g0 (lutX good)))
      (ctr + k) = (fun j => etaLane4 (4#8 - BitVec.ofNat 8 (nib buf (p + j)))) (lutAt good k) := by
    intro k hk
    rw [store8_get _ _ _ _ hk]
    exact hfull k hk
  obtain ⟨c1, c2⟩ := compact good hg (fun j => etaLane4 (4#8 - BitVec.ofNat 8 (nib buf (p + j)))) r _ ctr (enc L) (by rw [enc_length]; exact H.len) H.get hcell
    (fun n hn => store8_out _ _ _ _ (Or.inl hn))
  have e : enc L ++ (bitsOf good).map (fun j => etaLane4 (4#8 - BitVec.ofNat 8 (nib buf (p + j)))) = enc (L ++ accEta4 buf p 8) := by
    rw [enc_append, ← hacc]
    congr 1
    rw [enc, List.map_map]
    apply List.map_congr_left
    intro j hj
    rw [bitsOf, List.mem_filter, List.mem_range] at hj
    have hj2 : nib buf (p + j) < 9 := by
      obtain ⟨hj1, hj2⟩ := hj
      have := (hb ⟨j, hj1⟩).symm.trans hj2
      simpa using this
    exact (eta4_table ⟨nib buf (p + j), nib_lt _ _⟩).2 hj2
  rw [e] at c1
  refine ⟨by rw [← enc_length]; exact c1, ?_, fun n hn => ?_⟩
  · intro k hk
    have := c2 k (by rw [e]; exact hk)
    rw [this]
    simp only [e]
  · rw [store8_out _ _ _ _ (Or.inr (by omega))]
    exact H.frame n hn

theorem accEta4_append' (s : Nat → UInt8) (p n m : Nat) (h : p = n) : accEta4 s 0 n ++ accEta4 s p m = accEta4 s 0 (n + m) := by
  rw [h, accEta4_append]

theorem rejEta4Simd_spec (buf : Nat → UInt8) (r0 : Nat → Avx2.W32) (d : Nat) : ∀ (r : Nat → Avx2.W32) (ctr pos : Nat), 272 ≤ pos + 16 * d → pos ≤ 272 → ctr ≤ 256 →
    Holds r0 r ctr (accEta4 buf 0 (2 * pos)) → (rejEta4Simd buf r ctr pos).2.2 ≤ 272 ∧ (rejEta4Simd buf r ctr pos).2.1 ≤ 256 ∧
      Holds r0 (rejEta4Simd buf r ctr pos).1 (rejEta4Simd buf r ctr pos).2.1 (accEta4 buf 0 (2 * (rejEta4Simd buf r ctr pos).2.2)) := by
  induction d with
  | zero =>
    intro r ctr pos h1 h2 hc H
    rw [rejEta4Simd, if_neg (by omega)]
    exact ⟨h2, hc, H⟩
  | succ d ih =>
    intro r ctr pos h1 h2 hc H
    rw [rejEta4Simd]
    by_cases h : ctr ≤ 256 - 8 ∧ pos ≤ 272 - 16
    · rw [if_pos h]
      dsimp only
      generalize hm : movemaskEpi8 (subEpi8 (nibV buf pos) (set1b 9)) = good
      have hbit : ∀ k, k < 32 → good.testBit k = decide (nib buf (2 * pos + k) < 9) := by
        intro k hk
        rw [← hm, movemaskEpi8_testBit _ _ hk]
        unfold subEpi8
        rw [byteOf_onBytes _ _ _ _ hk, nibV_byte _ _ _ hk, byteY_set1b]
        exact (eta4_table ⟨nib buf (2 * pos + k), nib_lt _ _⟩).1
      have hval : ∀ k, k < 32 → byteY (subEpi8 (set1b 4) (nibV buf pos)) k = 4#8 - BitVec.ofNat 8 (nib buf (2 * pos + k)) := by
        intro k hk
        unfold subEpi8
        rw [byteOf_onBytes _ _ _ _ hk, nibV_byte _ _ _ hk, byteY_set1b]
      have hlt : good < 2 ^ 32 := by rw [← hm]; exact movemaskEpi8_lt _
      generalize subEpi8 (set1b 4) (nibV buf pos) = f0 at *
      obtain ⟨A1, A2⟩ := eta4_part buf r0 (r, ctr) (2 * pos) _ (castSi128 f0) (good &&& 0xFF) (by show ctr ≤ 248; omega) (and255_lt _)
        (fun j => by rw [and255_testBit _ _ j.2, hbit _ (by omega)]) (fun j hj => by rw [byteX_cast _ _ (by omega), hval _ (by omega)]) H
      rw [accEta4_append' _ _ _ _ rfl] at A1
      generalize etaPart4 (castSi128 f0) (good &&& 0xFF) (r, ctr) = s1 at *
      split
      · refine ⟨by show pos + 4 ≤ 272; omega, A2, ?_⟩
        show Holds r0 s1.1 s1.2 (accEta4 buf 0 (2 * (pos + 4)))
        rw [show 2 * (pos + 4) = 2 * pos + 8 by omega]
        exact A1
      obtain ⟨B1, B2⟩ := eta4_part buf r0 s1 (2 * pos + 8) _ (bsrli8 (castSi128 f0)) (good >>> 8 &&& 0xFF) (by omega) (and255_lt _)
        (fun j => by rw [and255_testBit _ _ j.2, Nat.testBit_shiftRight, hbit _ (by omega), show 2 * pos + (8 + j.1) = 2 * pos + 8 + j.1 by omega])
        (fun j hj => by rw [byteX_bsrli _ _ hj, byteX_cast _ _ (by omega), hval _ (by omega), show 2 * pos + (8 + j) = 2 * pos + 8 + j by omega]) A1
      rw [accEta4_append' _ _ _ _ rfl] at B1
      generalize etaPart4 (bsrli8 (castSi128 f0)) (good >>> 8 &&& 0xFF) s1 = s2 at *
      split
      · refine ⟨by show pos + 8 ≤ 272; omega, B2, ?_⟩
        show Holds r0 s2.1 s2.2 (accEta4 buf 0 (2 * (pos + 8)))
        rw [show 2 * (pos + 8) = 2 * pos + 8 + 8 by omega]
        exact B1
      obtain ⟨C1, C2⟩ := eta4_part buf r0 s2 (2 * pos + 8 + 8) _ (extractHi f0) (good >>> 8 >>> 8 &&& 0xFF) (by omega) (and255_lt _)
        (fun j => by rw [and255_testBit _ _ j.2, Nat.testBit_shiftRight, Nat.testBit_shiftRight, hbit _ (by omega), show 2 * pos + (8 + (8 + j.1)) = 2 * pos + 8 + 8 + j.1 by omega])
        (fun j hj => by rw [byteX_hi _ _ (by omega), hval _ (by omega), show 2 * pos + (16 + j) = 2 * pos + 8 + 8 + j by omega]) B1
      rw [accEta4_append' _ _ _ _ rfl] at C1
      generalize etaPart4 (extractHi f0) (good >>> 8 >>> 8 &&& 0xFF) s2 = s3 at *
      split
      · refine ⟨by show pos + 12 ≤ 272; omega, C2, ?_⟩
        show Holds r0 s3.1 s3.2 (accEta4 buf 0 (2 * (pos + 12)))
        rw [show 2 * (pos + 12) = 2 * pos + 8 + 8 + 8 by omega]
        exact C1
      obtain ⟨D1, D2⟩ := eta4_part buf r0 s3 (2 * pos + 8 + 8 + 8) _ (bsrli8 (extractHi f0)) (good >>> 8 >>> 8 >>> 8) (by omega)
        (by simp only [Nat.shiftRight_eq_div_pow]; omega)
        (fun j => by rw [Nat.testBit_shiftRight, Nat.testBit_shiftRight, Nat.testBit_shiftRight, hbit _ (by omega), show 2 * pos + (8 + (8 + (8 + j.1))) = 2 * pos + 8 + 8 + 8 + j.1 by omega])
        (fun j hj => by rw [byteX_bsrli _ _ hj, byteX_hi _ _ (by omega), hval _ (by omega), show 2 * pos + (16 + (8 + j)) = 2 * pos + 8 + 8 + 8 + j by omega]) C1
      rw [accEta4_append' _ _ _ _ rfl] at D1
      exact ih _ _ (pos + 16) (by omega) (by omega) D2 (by rw [show 2 * (pos + 16) = 2 * pos + 8 + 8 + 8 + 8 by omega]; exact D1)
    · rw [if_neg h]
      exact ⟨h2, hc, H⟩

/-- `rej_eta_avx` leaves in the array the values of the first 256 (or all, if fewer) accepted nibbles of the 272 bytes, in order, and returns
their number; it writes no cell from 256 on. -/
theorem rejEta4Avx_spec (buf : Nat → UInt8) (r : Nat → Avx2.W32) :
    Holds r (rejEta4Avx buf r).1 (rejEta4Avx buf r).2 ((accEta4 buf 0 544).take 256) := by
  obtain ⟨hp, hc, H⟩ := rejEta4Simd_spec buf r 17 r 0 0 (by omega) (by omega) (by omega)
    ⟨rfl, fun k h => absurd h (by simp [enc, accEta4]), fun _ _ => rfl⟩
  unfold rejEta4Avx
  generalize rejEta4Simd buf r 0 0 = st at *
  obtain ⟨r', ctr, pos⟩ := st
  simp only at *
  rw [rejEta4_squeeze]
  have e : (accEta4 buf 0 544).take 256 = accEta4 buf 0 (2 * pos) ++ (accEta4 buf (2 * pos) (2 * (272 - pos))).take (256 - ctr) := by
    have := accEta4_append buf (2 * pos) (2 * (272 - pos))
    rw [show 2 * pos + 2 * (272 - pos) = 544 by omega] at this
    rw [this, List.take_append, H.len, List.take_of_length_le (by rw [H.len]; exact hc)]
  rw [e]
  exact writeAt_holds _ _ _ _ _ (by have := take_length_le (accEta4 buf (2 * pos) (2 * (272 - pos))) (256 - ctr); omega) H

end Verif.Avx235
