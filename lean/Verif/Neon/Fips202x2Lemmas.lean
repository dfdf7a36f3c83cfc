import Verif.Neon.Fips202x2
import Verif.Neon.F1600Lemmas
import Verif.Avx2.Fips202x4Lemmas

/-! # Lemmas about fips202x2.c: each lane is the sponge of its input -/

namespace Verif.Neon.X2

open Verif.Keccak (U64 Lanes Oob toU64 store64 xorAt abs permute xorStr ix byteOf rd streamSlice feed)
open Verif.Neon.F1600
open Verif.Avx2.X4 (le64 le64_bit mask_bit xorBits_abs bytesOf bytesOf_length bytesOf_add)
open Verif.Fips202 (bitsOf keccakF State)

theorem roundConstants_eq : roundConstants = Keccak.roundConstants := by decide +kernel

theorem laneOf_f1600 (K : Perm) (s : Nat → V2) (l : Fin 2) : laneOf (f1600 K s) l = permute (laneOf s l) := by
  unfold f1600
  exact f1600x2_permute _ _ (fun c _ => by rw [roundConstants_eq]) _ _ _

theorem laneOf_xorV (O : Oob) (s : Nat → V2) (i : Nat) (hi : i < 25) (t : V2) (l : Fin 2) :
    laneOf (xorV s i t) l = xorAt O (laneOf s l) i (t l) := by
  apply Vector.ext
  intro j hj
  unfold laneOf xorV xorAt
  rw [dif_pos hi, Vector.getElem_ofFn]
  by_cases h : j = i
  · subst h
    rw [Vector.getElem_set_self, Vector.getElem_ofFn, if_pos rfl]
  · rw [Vector.getElem_set_ne _ _ (by omega), Vector.getElem_ofFn, if_neg h]

/-- Some out-of-bounds behaviour, to state lemmas that do not depend on it. -/
def anyOob : Oob := ⟨fun _ _ => 0, fun s _ _ => s, fun _ _ => 0⟩

theorem zip1_at (inp : Fin 2 → Nat → UInt8) (pos : Nat) (l : Fin 2) : zip1 (vld1q (inp 0) pos) (vld1q (inp 1) pos) l = le64 (inp l) pos := by
  match l with
  | 0 => rfl
  | 1 => rfl
theorem zip2_at (inp : Fin 2 → Nat → UInt8) (pos : Nat) (l : Fin 2) : zip2 (vld1q (inp 0) pos) (vld1q (inp 1) pos) l = le64 (inp l) (pos + 8) := by
  match l with
  | 0 => rfl
  | 1 => rfl
theorem combine_at (inp : Fin 2 → Nat → UInt8) (pos : Nat) (l : Fin 2) : combine inp pos l = le64 (inp l) pos := by
  match l with
  | 0 => rfl
  | 1 => rfl

/-- A word of the input. -/
theorem word_abs (inp : Fin 2 → Nat → UInt8) (s : Nat → V2) (i pos : Nat) (hi : i < 25) (t : V2) (l : Fin 2) (ht : t l = le64 (inp l) pos) :
    abs (laneOf (xorV s i t) l) = xorStr (abs (laneOf s l)) (8 * i) (bytesOf (inp l) pos 8) := by
  rw [laneOf_xorV anyOob _ _ hi, ht]
  exact xorBits_abs anyOob _ i hi _ (inp l) pos 8 (by omega) fun k hk => by rw [if_pos (by omega)]; exact le64_bit _ _ _ hk

theorem xor4_abs (inp : Fin 2 → Nat → UInt8) (s : Nat → V2) (i pos : Nat) (hi : i + 3 < 25) (l : Fin 2) :
    abs (laneOf (xor4 inp s i pos) l) = xorStr (abs (laneOf s l)) (8 * i) (bytesOf (inp l) pos 32) := by
  unfold xor4
  dsimp only
  rw [word_abs inp _ (i + 3) (pos + 24) (by omega) _ l (zip2_at inp (pos + 16) l), word_abs inp _ (i + 2) (pos + 16) (by omega) _ l (zip1_at inp (pos + 16) l),
    word_abs inp _ (i + 1) (pos + 8) (by omega) _ l (zip2_at inp pos l), word_abs inp _ (i + 0) pos (by omega) _ l (zip1_at inp pos l),
    show (32 : Nat) = 8 + 8 + 8 + 8 from rfl, bytesOf_add, bytesOf_add, bytesOf_add, Keccak.xorStr_append, Keccak.xorStr_append, Keccak.xorStr_append]
  simp only [List.length_append, bytesOf_length]
  rw [show 8 * (i + 0) = 8 * i by omega, show 8 * (i + 1) = 8 * i + 8 by omega, show 8 * (i + 2) = 8 * i + (8 + 8) by omega,
    show 8 * (i + 3) = 8 * i + (8 + 8 + 8) by omega, show pos + 16 = pos + (8 + 8) by omega, show pos + 24 = pos + (8 + 8 + 8) by omega]

theorem quads_abs (inp : Fin 2 → Nat → UInt8) (s : Nat → V2) (pos n : Nat) (hn : 4 * n ≤ 24) (l : Fin 2) :
    abs (laneOf ((List.range n).foldl (fun s j => xor4 inp s (4 * j) (pos + 32 * j)) s) l) = xorStr (abs (laneOf s l)) 0 (bytesOf (inp l) pos (32 * n)) := by
  induction n with
  | zero => exact (Keccak.xorStr_nil _ _).symm
  | succ n ih =>
    rw [List.range_succ, List.foldl_append, List.foldl_cons, List.foldl_nil, xor4_abs inp _ _ _ (by omega), ih (by omega), Nat.mul_succ, bytesOf_add,
      Keccak.xorStr_append, bytesOf_length, Nat.zero_add, show 8 * (4 * n) = 32 * n by omega]

theorem xorBlock_abs (r : Nat) (hr : r % 32 = 8) (hr2 : r ≤ 200) (inp : Fin 2 → Nat → UInt8) (s : Nat → V2) (pos : Nat) (l : Fin 2) :
    abs (laneOf (xorBlock r inp s pos) l) = xorStr (abs (laneOf s l)) 0 (bytesOf (inp l) pos r) ∧ 32 * quads r + 8 = r := by
  have hq : 32 * quads r + 8 = r := by unfold quads; omega
  refine ⟨?_, hq⟩
  unfold xorBlock
  dsimp only
  rw [word_abs inp _ (r / 8 - 1) (pos + 32 * quads r) (by omega) _ l (combine_at inp _ l), quads_abs inp s pos _ (by omega)]
  conv_rhs => rw [← hq]
  rw [bytesOf_add, Keccak.xorStr_append, bytesOf_length, Nat.zero_add, show 8 * (r / 8 - 1) = 32 * quads r by omega]

theorem abs_clear (s : Nat → V2) (l : Fin 2) : abs (laneOf (clear s) l) = Keccak.zero := by
  rw [← Keccak.abs_zero]
  refine congrArg abs ?_
  have : ∀ n j, (List.range n).foldl (fun (s : Nat → V2) i => fun j => if j = i then fun _ => (0 : U64) else s j) s j = if j < n then (fun _ => 0) else s j := by
    intro n j
    induction n with
    | zero => simp
    | succ n ih =>
      rw [List.range_succ, List.foldl_append, List.foldl_cons, List.foldl_nil]
      by_cases h : j = n
      · rw [if_pos h, if_pos (by omega)]
      · rw [if_neg h, ih]
        by_cases h2 : j < n
        · rw [if_pos h2, if_pos (by omega)]
        · rw [if_neg h2, if_neg (by omega)]
  apply Vector.ext
  intro j hj
  unfold laneOf clear
  rw [Vector.getElem_ofFn, Vector.getElem_replicate, this, if_pos hj]

theorem absorbLoop_spec (K : Perm) (r : Nat) (hr : r % 32 = 8) (hr2 : r ≤ 200) (inp : Fin 2 → Nat → UInt8) (inlen : Nat) :
    ∀ (s : Nat → V2) (pos : Nat), ∃ s' pos' inlen', absorbLoop K r inp s pos inlen = some (s', pos', inlen') ∧ inlen' < r ∧
      ∀ l, (xorStr (abs (laneOf s' l)) 0 (bytesOf (inp l) pos' inlen'), inlen') = (bytesOf (inp l) pos inlen).foldl (feed r) (abs (laneOf s l), 0) := by
  induction inlen using Nat.strongRecOn with
  | _ inlen ih =>
    intro s pos
    rw [absorbLoop]
    by_cases h : inlen ≥ r
    · rw [if_pos h]
      obtain ⟨s', pos', inlen', h1, h2, h3⟩ := ih (inlen - r) (by omega) (f1600 K (xorBlock r inp s pos)) (pos + 32 * quads r + 8)
      refine ⟨s', pos', inlen', h1, h2, fun l => ?_⟩
      obtain ⟨e1, e8⟩ := xorBlock_abs r hr hr2 inp s pos l
      rw [h3, laneOf_f1600, Keccak.abs_permute, e1, show pos + 32 * quads r + 8 = pos + r by omega]
      conv_rhs => rw [show inlen = r + (inlen - r) by omega, bytesOf_add, List.foldl_append]
      rw [Keccak.feed_block r (bytesOf (inp l) pos r) _ _ (by
        intro h0
        have := congrArg List.length h0
        rw [bytesOf_length, List.length_nil] at this
        omega) (by rw [bytesOf_length, Nat.zero_add])]
    · rw [if_neg h]
      refine ⟨_, _, _, rfl, by omega, fun l => ?_⟩
      rw [Keccak.feed_lt r _ _ _ (by rw [bytesOf_length]; omega), bytesOf_length, Nat.zero_add]

theorem tailLoop_spec (inp : Fin 2 → Nat → UInt8) (inlen : Nat) : ∀ (s : Nat → V2) (i pos : Nat), 8 * i + inlen < 200 →
    ∃ s', tailLoop inp s i pos inlen = (s', i + 2 * (inlen / 16), pos + 16 * (inlen / 16), inlen % 16) ∧
      ∀ l, abs (laneOf s' l) = xorStr (abs (laneOf s l)) (8 * i) (bytesOf (inp l) pos (16 * (inlen / 16))) := by
  induction inlen using Nat.strongRecOn with
  | _ inlen ih =>
    intro s i pos h
    rw [tailLoop]
    by_cases h16 : inlen ≥ 16
    · rw [if_pos h16]
      dsimp only
      obtain ⟨s', e, hs⟩ := ih (inlen - 8 * 2) (by omega) (xorV (xorV s (i + 0) (zip1 (vld1q (inp 0) pos) (vld1q (inp 1) pos))) (i + 1)
        (zip2 (vld1q (inp 0) pos) (vld1q (inp 1) pos))) (i + 2) (pos + 8 * 2) (by omega)
      refine ⟨s', ?_, fun l => ?_⟩
      · rw [e]
        simp only [Prod.mk.injEq, true_and]
        refine ⟨by omega, by omega, by omega⟩
      · rw [hs, word_abs inp _ (i + 1) (pos + 8) (by omega) _ l (zip2_at inp pos l), word_abs inp _ (i + 0) pos (by omega) _ l (zip1_at inp pos l),
          show 16 * (inlen / 16) = 8 + (8 + 16 * ((inlen - 8 * 2) / 16)) by omega, bytesOf_add, bytesOf_add, Keccak.xorStr_append, Keccak.xorStr_append,
          bytesOf_length, bytesOf_length]
        rw [show 8 * (i + 0) = 8 * i by omega, show 8 * (i + 1) = 8 * i + 8 by omega, show 8 * (i + 2) = 8 * i + 8 + 8 by omega, show pos + 8 * 2 = pos + 8 + 8 by omega]
    · rw [if_neg h16]
      refine ⟨s, ?_, fun l => ?_⟩
      · rw [show inlen / 16 = 0 by omega, show inlen % 16 = inlen by omega]; rfl
      · rw [show inlen / 16 = 0 by omega]
        exact (Keccak.xorStr_nil _ _).symm

theorem tailWord_spec (inp : Fin 2 → Nat → UInt8) (s : Nat → V2) (i pos inlen : Nat) (h : 8 * i + inlen < 200) (h16 : inlen < 16) :
    ∃ s', tailWord inp s i pos inlen = (s', i + inlen / 8, pos + 8 * (inlen / 8), inlen % 8) ∧
      ∀ l, abs (laneOf s' l) = xorStr (abs (laneOf s l)) (8 * i) (bytesOf (inp l) pos (8 * (inlen / 8))) := by
  unfold tailWord
  by_cases h8 : inlen ≥ 8
  · rw [if_pos h8]
    refine ⟨xorV s i (combine inp pos), ?_, fun l => ?_⟩
    · rw [show inlen / 8 = 1 by omega, show inlen % 8 = inlen - 8 by omega]
    · rw [word_abs inp _ i pos (by omega) _ l (combine_at inp pos l), show 8 * (inlen / 8) = 8 by omega]
  · rw [if_neg h8]
    refine ⟨s, ?_, fun l => ?_⟩
    · rw [show inlen / 8 = 0 by omega, show inlen % 8 = inlen by omega]; rfl
    · rw [show inlen / 8 = 0 by omega]
      exact (Keccak.xorStr_nil _ _).symm

theorem tailEnd_abs (r : Nat) (hr : 0 < r) (hr8 : r % 8 = 0) (hr2 : r ≤ 200) (inp : Fin 2 → Nat → UInt8) (p : UInt8) (s : Nat → V2) (i pos inlen : Nat)
    (hin : inlen < 8) (hi : i < 25) (l : Fin 2) :
    abs (laneOf (tailEnd r inp p s i pos inlen) l) =
      xorStr (xorStr (xorStr (abs (laneOf s l)) (8 * i) (bytesOf (inp l) pos inlen)) (8 * i + inlen) [p]) (r - 1) [128] := by
  unfold tailEnd
  dsimp only
  have h1 : abs (laneOf (if inlen ≠ 0 then xorV s i fun l => combine inp pos l &&& (((1 : U64) <<< (8 * inlen)) - 1) else s) l) =
      xorStr (abs (laneOf s l)) (8 * i) (bytesOf (inp l) pos inlen) := by
    by_cases h : inlen ≠ 0
    · rw [if_pos h, laneOf_xorV anyOob _ _ hi,
        xorBits_abs anyOob _ _ hi _ (inp l) pos inlen (by omega) (fun k hk => by
          rw [BitVec.getLsbD_and, mask_bit _ hin _ hk, combine_at, le64_bit _ _ _ hk]
          split
          · rename_i h; rw [decide_eq_true h, Bool.and_true]
          · rename_i h; rw [decide_eq_false h, Bool.and_false])]
    · rw [if_neg h]
      simp only [ne_eq, Decidable.not_not] at h
      rw [h]
      exact (Keccak.xorStr_nil _ _).symm
  have h63 : (1 : U64) <<< 63 = toU64 128 <<< (8 * ((r - 1) % 8)) := by
    rw [show (r - 1) % 8 = 7 by omega]; decide
  have hp : i = (8 * i + inlen) / 8 := by omega
  have hq : inlen = (8 * i + inlen) % 8 := by omega
  rw [laneOf_xorV anyOob _ _ (by omega), laneOf_xorV anyOob _ _ hi, h63, show r / 8 - 1 = (r - 1) / 8 by omega, Keccak.xorByte_abs anyOob _ _ (by omega)]
  have key := fun x => Keccak.xorByte_abs anyOob (s := x) (8 * i + inlen) (by omega) p
  rw [← hp, ← hq] at key
  rw [key, h1]

theorem absorbTail_abs (r : Nat) (hr : 0 < r) (hr8 : r % 8 = 0) (hr2 : r ≤ 200) (inp : Fin 2 → Nat → UInt8) (p : UInt8) (s : Nat → V2) (pos inlen : Nat)
    (hin : inlen < r) (l : Fin 2) :
    abs (laneOf (absorbTail r inp p s pos inlen) l) =
      xorStr (xorStr (xorStr (abs (laneOf s l)) 0 (bytesOf (inp l) pos inlen)) inlen [p]) (r - 1) [128] := by
  unfold absorbTail
  obtain ⟨s1, e1, h1⟩ := tailLoop_spec inp inlen s 0 pos (by omega)
  obtain ⟨s2, e2, h2⟩ := tailWord_spec inp s1 (0 + 2 * (inlen / 16)) (pos + 16 * (inlen / 16)) (inlen % 16) (by omega) (by omega)
  rw [e1]
  dsimp only
  rw [e2]
  dsimp only
  rw [tailEnd_abs r hr hr8 hr2 inp p s2 _ _ _ (by omega) (by omega) l, h2, h1]
  conv_rhs => rw [show inlen = 16 * (inlen / 16) + (8 * (inlen % 16 / 8) + inlen % 16 % 8) by omega]
  rw [bytesOf_add, bytesOf_add, Keccak.xorStr_append, Keccak.xorStr_append, bytesOf_length, bytesOf_length]
  rw [show 8 * (0 + 2 * (inlen / 16)) = 0 + 16 * (inlen / 16) by omega, show 8 * (0 + 2 * (inlen / 16) + inlen % 16 / 8) = 0 + 16 * (inlen / 16) + 8 * (inlen % 16 / 8) by omega,
    show 8 * 0 = 0 from rfl, Nat.add_assoc (0 + _), Nat.zero_add]

/-- After absorbing, the next permutation gives FIPS 202's state for each of the two inputs. -/
theorem absorb_spec {p : UInt8} {suf : List Bool} (hp : Keccak.Domain p suf) (K : Perm) (s : Nat → V2) (r : Nat) (hr : r % 32 = 8)
    (hr2 : r ≤ 200) (inp : Fin 2 → Nat → UInt8) (inlen : Nat) :
    ∃ s', absorb K s r inp inlen p = some s' ∧
      ∀ l, keccakF (abs (laneOf s' l)) = Fips202.absorbed (8 * r) (bitsOf (bytesOf (inp l) 0 inlen) ++ suf) := by
  obtain ⟨s', pos', inlen', h1, h2, h3⟩ := absorbLoop_spec K r hr hr2 inp inlen (clear s) 0
  unfold absorb
  rw [h1]
  refine ⟨_, rfl, fun l => ?_⟩
  rw [absorbTail_abs r (by omega) (by omega) hr2 inp p s' pos' inlen' h2]
  refine Keccak.final_absorbed hp r (by omega) _ _ _ ?_
  rw [h3, abs_clear]

theorem vst1q_uzp1 (a b : V2) : vst1q (uzp1 a b) = store64 (a 0) ++ store64 (b 0) := rfl
theorem vst1q_uzp2 (a b : V2) : vst1q (uzp2 a b) = store64 (a 1) ++ store64 (b 1) := rfl
theorem vec2 {α} (a b : α) (P : Fin 2 → α) (h0 : a = P 0) (h1 : b = P 1) (l : Fin 2) : (![a, b] : Fin 2 → α) l = P l := by
  match l with
  | 0 => exact h0
  | 1 => exact h1

theorem blockOut_eq (O : Oob) (r : Nat) (hr : r % 32 = 8) (hr2 : r ≤ 200) (s : Nat → V2) (l : Fin 2) :
    blockOut r s l = (List.range (r / 8)).flatMap fun i => store64 (rd O (laneOf s l) i) := by
  have e : ∀ i < 25, rd O (laneOf s l) i = s i l := fun i hi => by
    rw [Keccak.rd_lt O _ _ hi]; unfold laneOf; rw [Vector.getElem_ofFn]
  have hq : r / 8 = 4 * quads r + 1 := by unfold quads; omega
  have h1 : blockOut r s l = ((List.range (quads r)).flatMap fun j => (store64 (s (4 * j) l) ++ store64 (s (4 * j + 1) l)) ++ (store64 (s (4 * j + 2) l) ++ store64 (s (4 * j + 3) l))) ++
      store64 (s (r / 8 - 1) l) := by
    unfold blockOut
    simp only [vst1q_uzp1, vst1q_uzp2]
    exact vec2 _ _ (fun l => ((List.range (quads r)).flatMap fun j => (store64 (s (4 * j) l) ++ store64 (s (4 * j + 1) l)) ++ (store64 (s (4 * j + 2) l) ++ store64 (s (4 * j + 3) l))) ++
      store64 (s (r / 8 - 1) l)) rfl rfl l
  have h2 : ∀ n, (List.range (4 * n)).flatMap (fun i => store64 (s i l)) =
      (List.range n).flatMap fun j => (store64 (s (4 * j) l) ++ store64 (s (4 * j + 1) l)) ++ (store64 (s (4 * j + 2) l) ++ store64 (s (4 * j + 3) l)) := by
    intro n
    induction n with
    | zero => rfl
    | succ n ih =>
      rw [show 4 * (n + 1) = 4 * n + 1 + 1 + 1 + 1 by omega, List.range_succ, List.range_succ, List.range_succ, List.range_succ, List.range_succ]
      simp only [List.flatMap_append, List.flatMap_cons, List.flatMap_nil, List.append_nil, ih, List.append_assoc]
  rw [h1, ← h2, hq, List.range_succ, List.flatMap_append, List.flatMap_cons, List.flatMap_nil, List.append_nil, e _ (by omega), Nat.add_sub_cancel]
  refine congrArg (· ++ _) (List.flatMap_congr fun i hi => ?_)
  rw [List.mem_range] at hi
  rw [e _ (by omega)]

theorem squeezeBlocks_eq (O : Oob) (K : Perm) (r : Nat) (hr : r % 32 = 8) (hr2 : r ≤ 200) (n : Nat) : ∀ s : Nat → V2, ∀ l,
    ((squeezeBlocks K r n s).1 l, laneOf (squeezeBlocks K r n s).2 l) = Keccak.squeezeBlocks O r n (laneOf s l) := by
  induction n with
  | zero => intro s l; rfl
  | succ n ih =>
    intro s l
    unfold squeezeBlocks Keccak.squeezeBlocks
    dsimp only
    rw [← laneOf_f1600 K, ← ih (f1600 K s) l, blockOut_eq O r hr hr2]

/-- A state from which `b` blocks have been squeezed since it was `s0`. -/
def After (s0 : Fin 2 → Lanes) (b : Nat) (s : Nat → V2) : Prop := ∀ l, laneOf s l = permute^[b] (s0 l)

theorem After.squeeze {s0 : Fin 2 → Lanes} {b : Nat} {s : Nat → V2} (h : After s0 b s) (O : Oob) (K : Perm) (r : Nat) (hr : r % 32 = 8) (hr2 : r ≤ 200)
    (n : Nat) : (∀ l, (squeezeBlocks K r n s).1 l = streamSlice O r (s0 l) (b * r) (n * r)) ∧ After s0 (b + n) (squeezeBlocks K r n s).2 := by
  have := fun l => squeezeBlocks_eq O K r hr hr2 n s l
  simp only [h _, Keccak.squeezeBlocks_spec O r (show r % 8 = 0 by omega), Prod.mk.injEq] at this
  exact ⟨fun l => (this l).1, fun l => (this l).2⟩

/-- The two streams that the calls of `squeezeblocks` after `absorb` produce. -/
theorem streams_spec (O : Oob) {p : UInt8} {suf : List Bool} (hp : Keccak.Domain p suf) (K : Perm) (s : Nat → V2) (r : Nat) (hr : r % 32 = 8)
    (hr2 : r ≤ 200) (inp : Fin 2 → Nat → UInt8) (inlen : Nat) :
    ∃ s' s0, absorb K s r inp inlen p = some s' ∧ After s0 0 s' ∧
      ∀ l n, bitsOf (streamSlice O r (s0 l) 0 n) = Fips202.sponge (8 * r) (bitsOf (bytesOf (inp l) 0 inlen) ++ suf) (8 * n) := by
  obtain ⟨s', h1, h2⟩ := absorb_spec hp K s r hr hr2 inp inlen
  exact ⟨s', laneOf s', h1, fun _ => rfl, fun l n => Keccak.streamSlice_sponge O r (by omega) hr2 _ _ (h2 l) n⟩

end Verif.Neon.X2
