import Verif.Neon.SignEq
import Verif.Neon.Own
import Verif.Neon.Frame
import Verif.Avx2.VerifyCor
import Verif.Props.Avx2Ntt
import Verif.Dilithium.Toy

/-!
# C105-C108: the aarch64 (NEON) code of Dilithium2

On aarch64 the Rust wrapper calls pqclean/crypto_sign/dilithium2/aarch64 (dilithium2.rs:214-220, 254-257, 297-300, 330-333, 370-374).  Its transforms and
coefficient-wise arithmetic are hand-written assembly (`Verif/Neon/Asm.lean`, run by `Verif/Neon/Simd.lean`).  `M : Mach` is the rest of the machine when a
routine is called: arbitrary registers and memory.  `ti a` are the coefficients read as signed integers.
-/

namespace Verif.Props
open Verif.Avx2 (VPoly ti ofP wq)
open Verif.Neon
open Verif.Dilithium hiding W32 toI32_id
open Verif.Dilithium.Spec (Rq toRq root)

variable {C : CSem} {H : Shake}

/-! ## C105: the assembly routines -/

/-- C105: the forward transform.  For coefficients of absolute value at most `B`, `B + 8q < 2^31`, the output lists the values of the polynomial at the odd
powers of 1753, in the order of the portable transform, and is at most `B + 8q`. -/
theorem C105_ntt (M : Neon.Mach) (a : VPoly) (B : Int) (hB : B + 8 * 8380417 < 2 ^ 31) (ha : ∀ i, -B ≤ ti a i ∧ ti a i ≤ B) (n : Fin 256) :
    evalAt (root n) (toRq (ti a)) = (ti (nttN M a) n : ZMod 8380417) ∧ |ti (nttN M a) n| ≤ B + 8 * 8380417 ∧
    (8380417 : Int) ∣ ti (nttN M a) n - polyNtt C (ti a) n := by
  have q := nttN_res M a B (by simp only [Q]; omega) ha
  have r := (polyNtt_res (C := C) (A := B) (a := ti a) ha (by simp only [Q]; omega)).1
  refine ⟨(isNtt_iff _ _).2 q.1.symm n, abs_le.2 (q.2 n), ?_⟩
  exact dvd_of_res (q.1.trans r.symm) n

/-- C105: the inverse transform.  If `P` lists (up to the Montgomery factor `2^-32`) the values of the polynomial `p` at the odd powers of 1753, the inverse
transform returns `p` modulo `q`, and every coefficient has absolute value at most `(q + 1) / 2`. -/
theorem C105_invntt (M : Neon.Mach) (P : VPoly) (p : Rq) (hP : ∀ i, -8380417 ≤ ti P i ∧ ti P i ≤ 8380417)
    (h : ∀ n, (ti P n : ZMod 8380417) * 2 ^ 32 = evalAt (root n) p) :
    toRq (ti (invnttN M P)) = p ∧ ∀ i, |ti (invnttN M P) i| ≤ 4190209 := by
  have hr : res (ti P) = Rinv • fNtt p := by
    funext n
    have hn := h n
    rw [← rho_eq_root, ← fNtt_eval] at hn
    show (ti P n : ZMod 8380417) = Rinv * fNtt p n
    rw [← hn]
    have := R_Rinv
    push_cast at this
    calc (ti P n : ZMod 8380417) = ti P n * (4294967296 * Rinv) := by rw [this, mul_one]
      _ = _ := by ring
  have c := invnttN_clean wrapSem wrapSem.oob M P hP
  have b := (invnttN_res M P hP).2
  obtain ⟨a, -⟩ := polyInvntt_res (C := wrapSem) hP hr
  refine ⟨fNtt_inj ?_, fun i => abs_le.2 (b i)⟩
  rw [← a]
  exact congrArg fNtt c

/-- C105: the product of two polynomials.  Transform, multiply pointwise, transform back: the negacyclic product modulo `q`. -/
theorem C105_product (M1 M2 M3 M4 : Neon.Mach) (a b : VPoly) (A B : Int) (ha : ∀ i, -A ≤ ti a i ∧ ti a i ≤ A) (hb : ∀ i, -B ≤ ti b i ∧ ti b i ≤ B)
    (hA : A + 8 * 8380417 < 2 ^ 31) (hB : B + 8 * 8380417 < 2 ^ 31) (hAB : (A + 8 * 8380417) * (B + 8 * 8380417) < 2 ^ 31 * 8380417) :
    toRq (ti (invnttN M4 (pointwiseN M3 (nttN M1 a) (nttN M2 b)))) = negaMul (toRq (ti a)) (toRq (ti b)) ∧
    ∀ i, |ti (invnttN M4 (pointwiseN M3 (nttN M1 a) (nttN M2 b))) i| ≤ 4190209 := by
  have n1 := nttN_res M1 a A (by simp only [Q]; omega) ha
  have n2 := nttN_res M2 b B (by simp only [Q]; omega) hb
  have p := polyPointwise_res (C := wrapSem) n1.2 n2.2 (by simp only [Q]; exact hAB)
  rw [n1.1, n2.1, ← pointwiseN_clean (C := wrapSem) M3] at p
  have c := invnttN_clean wrapSem wrapSem.oob M4 (pointwiseN M3 (nttN M1 a) (nttN M2 b)) p.2
  have bd := (invnttN_res M4 (pointwiseN M3 (nttN M1 a) (nttN M2 b)) p.2).2
  obtain ⟨s, -⟩ := polyInvntt_res (C := wrapSem) p.2 (X := fNtt (res (ti a)) * fNtt (res (ti b))) p.1
  refine ⟨fNtt_inj ?_, fun i => abs_le.2 (bd i)⟩
  have : fNtt (negaMul (toRq (ti a)) (toRq (ti b))) = fNtt (res (ti a)) * fNtt (res (ti b)) := fNtt_mul _ _
  rw [this, ← s]
  exact congrArg fNtt c

/-- C105: the coefficient-wise routines return, integer for integer, what the portable code returns: products and conditional addition on every input, the
reduction for coefficients up to `2^31 - 2^22 - 1`, the rounding on standard representatives, the unpacking on every string of 320 bytes. -/
theorem C105_coefficientwise (M : Neon.Mach) (a b : VPoly) (s : Bytes) :
    ti (pointwiseN M a b) = polyPointwise C (ti a) (ti b) ∧ ti (pointwiseN' M a b) = polyPointwise C (ti a) (ti b) ∧
    ti (caddqN M a) = polyCaddq C (ti a) ∧
    ((∀ i, ti a i ≤ 2 ^ 31 - 2 ^ 22 - 1) → ti (reduceN M a) = polyReduce C (ti a)) ∧
    ((∀ i, 0 ≤ ti a i ∧ ti a i < 8380417) → ti (power2roundN M a).1 = (polyPower2round C (ti a)).1 ∧ ti (power2roundN M a).2 = (polyPower2round C (ti a)).2) ∧
    (320 ≤ s.length → ti (t1UnpackN C M s) = polyt1Unpack C s) :=
  ⟨pointwiseN_clean M a b, by rw [pointwiseN'_eq']; exact pointwiseN_clean M a b, caddqN_int M a, fun h => reduceN_int M a fun i => by have := h i; omega,
    fun h => power2roundN_int M a h, fun h => t1UnpackN_int M s h⟩

/-- C105: the same, without reference to the portable code. -/
theorem C105_values (M : Neon.Mach) (a : VPoly) (i : Fin 256) :
    ((∀ k, ti a k ≤ 2 ^ 31 - 2 ^ 22 - 1) → (8380417 ∣ ti (reduceN M a) i - ti a i ∧ -6283009 ≤ ti (reduceN M a) i ∧ ti (reduceN M a) i ≤ 6283008)) ∧
    (ti (caddqN M a) i = if ti a i < 0 then ti a i + 8380417 else ti a i) ∧
    ((∀ k, 0 ≤ ti a k ∧ ti a k < 8380417) → (ti (power2roundN M a).1 i, ti (power2roundN M a).2 i) = Spec.power2Round (ti a i)) := by
  have hb := Avx2.toInt_bound32 (a i)
  refine ⟨fun h => ?_, ?_, fun h => ?_⟩
  · rw [reduceN_int (C := wrapSem) M a fun i => by have := h i; omega]
    obtain ⟨t, e, h1, h2, -⟩ := reduce32_spec (C := wrapSem) (ti a i) hb.1 (by have := h i; omega)
    show (8380417 : Int) ∣ reduce32 wrapSem (ti a i) - ti a i ∧ _ ≤ reduce32 wrapSem (ti a i) ∧ reduce32 wrapSem (ti a i) ≤ _
    refine ⟨⟨-t, by simp only [Q] at e; omega⟩, by omega, by omega⟩
  · rw [caddqN_int (C := wrapSem) M a]
    exact caddq_spec (C := wrapSem) (ti a i) hb.1 hb.2
  · obtain ⟨e1, e2⟩ := power2roundN_int (C := wrapSem) M a h
    rw [e1, e2]
    exact power2round_eq (C := wrapSem) (ti a i) (h i).1 (h i).2

/-- C105: the row-by-vector product (four products, one reduction at the end): `2^-32` times the sum of products modulo `q`, of absolute value at most `q`. -/
theorem C105_pointwise_acc (M : Neon.Mach) (u v : Fin 4 → VPoly) (A B : Int) (hu : ∀ k i, -A ≤ ti (u k) i ∧ ti (u k) i ≤ A)
    (hv : ∀ k i, -B ≤ ti (v k) i ∧ ti (v k) i ≤ B) (h : 4 * (A * B) < 2 ^ 31 * 8380417 - 8380417) (i : Fin 256) :
    (8380417 : Int) ∣ ti (pointwiseAccN M u v) i * 2 ^ 32 - ∑ k, ti (u k) i * ti (v k) i ∧ |ti (pointwiseAccN M u v) i| ≤ 8380417 := by
  rw [pointwiseAccN_avx M ⟨fun _ _ => 0, fun _ => 0⟩ u v]
  exact C89_pointwise_acc _ u v A B hu hv h i

/-- C105: the routines write only to their output (the first 256 words of memory, 512 for the two outputs of the rounding), whatever memory and registers
contain. -/
theorem C105_writes (M : Neon.Mach) (x : Nat) :
    (256 ≤ x → (call3 M nttTop).mem x = M.mem x ∧ (call3 M nttBot).mem x = M.mem x ∧ (call3 M inttTop).mem x = M.mem x ∧ (call3 M inttBot).mem x = M.mem x ∧
      (run (M.args [0, 256]) polyReduceAsm).mem x = M.mem x ∧ (run (M.args [0, 256]) polyCaddqAsm).mem x = M.mem x ∧
      (run (M.args [0, 256, 512, 768]) polyPointwiseAsm).mem x = M.mem x ∧ (run (M.args [0, 256, 0, 512]) polyPointwiseAsm).mem x = M.mem x ∧
      (run (M.args [0, 256, 1280, 2304]) pointwiseAccAsm).mem x = M.mem x ∧ (run (M.args [0, 256]) unpack10).mem x = M.mem x) ∧
    (512 ≤ x → (run (M.args [0, 256, 0]) polyPower2roundAsm).mem x = M.mem x) := by
  have c := fun p args hb => call_frame 256 p args hb M x
  unfold call3
  refine ⟨fun h => ⟨?_, ?_, ?_, ?_, ?_, ?_, ?_, ?_, ?_, ?_⟩, fun h => ?_⟩
  · exact c nttTop _ nttTop_stores h
  · exact c nttBot _ nttBot_stores h
  · exact c inttTop _ inttTop_stores h
  · exact c inttBot _ inttBot_stores h
  · exact c polyReduceAsm _ reduce_stores h
  · exact c polyCaddqAsm _ caddq_stores h
  · exact c polyPointwiseAsm _ pointwise_stores h
  · exact c polyPointwiseAsm _ pointwise'_stores h
  · exact c pointwiseAccAsm _ pointwiseAcc_stores h
  · exact c unpack10 _ unpack10_stores h
  · exact call_frame 512 polyPower2roundAsm _ power2round_stores M x h

-- The hypotheses hold for the inputs of the scheme; the product of `X` and `X^255` is `X^256 = -1`.
example (M : Neon.Mach) : toRq (ti (invnttN M (pointwiseN M (nttN M fun i => if i = 1 then 1 else 0) (nttN M fun i => if i = 255 then 1 else 0)))) 0 = -1 := by
  rw [(C105_product M M M M _ _ 1 1 (fun i => by unfold ti; by_cases h : i = 1 <;> simp [h]) (fun i => by unfold ti; by_cases h : i = 255 <;> simp [h]) (by decide) (by decide) (by decide)).1]
  unfold negaMul toRq ti
  rw [Finset.sum_eq_single (1 : Fin 256)]
  · rw [Finset.sum_eq_single (255 : Fin 256)]
    · simp
    · intro b _ hb; simp [hb]
    · simp
  · intro b _ hb; simp [hb]
  · simp
-- The bound of the forward transform is met by every polynomial of reduced coefficients, that of the row-by-vector product by a matrix row and a transformed mask.
example : (8380417 : Int) + 8 * 8380417 < 2 ^ 31 ∧ 4 * (8380417 * (131072 + 8 * 8380417)) < 2 ^ 31 * 8380417 - (8380417 : Int) := by decide
-- The rounding of `8192 + 3`.
example (M : Neon.Mach) : ti (power2roundN M fun _ => 8195).1 7 = 1 ∧ ti (power2roundN M fun _ => 8195).2 7 = 3 := by
  have e : ∀ k, ti (fun _ => 8195) k = 8195 := fun _ => show (8195 : Avx2.W32).toInt = 8195 by decide
  have := (C105_values M (fun _ => 8195) 7).2.2 fun k => by rw [e]; omega
  rw [e, show Spec.power2Round 8195 = (1, 3) by decide, Prod.mk.injEq] at this
  exact this

/-! ## C106: the two-way sampler -/

/-- The `k`-th candidate of a stream: 23 bits of its `k`-th group of three bytes. -/
def candidate (s : Nat → UInt8) (k : Nat) : Nat := ((s (3 * k)).toNat + 256 * (s (3 * k + 1)).toNat + 65536 * (s (3 * k + 2)).toNat) % 2 ^ 23

/-- At least 256 of the 336 candidates in the first six blocks (1008 bytes) of a stream are below `q`. -/
def SixBlocksEnough (s : Nat → UInt8) : Prop := 256 ≤ ((List.range 336).filter fun k => decide (candidate s k < 8380417)).length

theorem accepted_length (s : Nat → UInt8) (n : Nat) : ((List.range n).filter fun k => decide (candidate s k < 8380417)).length = (accUniform s 0 n).length := by
  unfold accUniform
  rw [List.filter_map, List.length_map, ← List.range_eq_range']
  have e : (fun k => decide (candidate s k < 8380417)) = (fun t => decide (t < Q)) ∘ cand s := by
    funext k
    have h : candidate s k < 8380417 ↔ cand s k < Q := by
      unfold candidate cand Q
      rw [show (2 : Nat) ^ 23 = 8388608 by norm_num]
      generalize (s (3 * k)).toNat + 256 * (s (3 * k + 1)).toNat + 65536 * (s (3 * k + 2)).toNat = w
      omega
    rw [Function.comp_apply]
    by_cases c : candidate s k < 8380417
    · rw [decide_eq_true c, decide_eq_true (h.1 c)]
    · rw [decide_eq_false c, decide_eq_false fun x => c (h.2 x)]
  rw [e]

theorem sixBlocks_iff (s : Nat → UInt8) : SixBlocksEnough s ↔ SixBlocks s := by
  unfold SixBlocksEnough SixBlocks
  rw [accepted_length]

/-- C106: the two matrix entries sampled together are those of the portable sampler, if six blocks of each stream contain enough candidates. -/
theorem C106_same_entries (seed : Bytes) (n0 n1 : UInt16) (h0 : SixBlocksEnough (stream128 H seed n0)) (h1 : SixBlocksEnough (stream128 H seed n1)) :
    ∃ p q, polyUniformX2 C H seed n0 n1 = some (p, q) ∧ polyUniform C H seed n0 = some p ∧ polyUniform C H seed n1 = some q :=
  polyUniformX2_eq ((sixBlocks_iff _).1 h0) ((sixBlocks_iff _).1 h1)

/-- C106: the masking vector is that of the portable code, always. -/
theorem C106_masks (seed : Bytes) (nonce : UInt16) : vecUniformGamma1N C H seed nonce = vecUniformGamma1 C H seed nonce := vecUniformGamma1N_eq seed nonce

/-- C106: otherwise the results can differ.  When six blocks are not enough, old blocks are read again (aarch64/poly.c:440-444): for the stream of 200
candidates 0, 136 unacceptable candidates and then candidates 1, the portable sampler returns 200 zeros and 56 ones, this one 256 zeros. -/
theorem C106_rereads (H : Shake) (seed : Bytes) (n0 n1 : UInt16) (h : ∀ n, stream128 H seed n = fun k => if k < 600 then 0 else if k < 1008 then 255 else if k % 3 = 0 then 1 else 0) :
    polyUniform C H seed n0 = some (fun i => if i.1 < 200 then 0 else 1) ∧ polyUniformX2 C H seed n0 n1 = some (fun _ => 0, fun _ => 0) := by
  have h' : ∀ n, stream128 H seed n = oddStream := h
  constructor
  · rw [polyUniform_iff]
    refine ⟨392, ?_⟩
    rw [h', odd_clean]
    decide +kernel
  · unfold polyUniformX2
    rw [h', h']
    have e : (![oddStream, oddStream] : Fin 2 → Nat → UInt8) = fun _ => oddStream := by
      funext k
      match k with
      | 0 => rfl
      | 1 => rfl
    dsimp only
    rw [e, odd_x2, Option.map_some]
    have z : polyOfList C (List.replicate 256 0) = fun _ => 0 := by
      funext i
      have := i.2
      unfold polyOfList
      rw [List.getD_eq_getElem?_getD, List.getElem?_replicate, if_pos this, Option.getD_some]
    rw [z]

/-- A hash whose every output begins with 200 candidates 0 and 136 unacceptable ones. -/
def oddH : Shake := ⟨fun _ => oddStream, fun _ _ => 0⟩

example (seed : Bytes) : ¬ SixBlocksEnough (stream128 oddH seed 3) ∧ ∃ p q r, polyUniform wrapSem oddH seed 3 = some p ∧ polyUniformX2 wrapSem oddH seed 3 4 = some (q, r) ∧ p ≠ q := by
  refine ⟨?_, _, _, _, (C106_rereads oddH seed 3 4 fun _ => rfl).1, (C106_rereads oddH seed 3 4 fun _ => rfl).2, fun h => absurd (congrFun h 255) (by decide)⟩
  rw [sixBlocks_iff]
  unfold SixBlocks
  show ¬ 256 ≤ (accUniform oddStream 0 336).length
  decide +kernel

/-! ## C107: keys, signatures and verification -/

/-- Six blocks contain enough candidates for each of the sixteen entries of the matrix of seed `rho`. -/
def MatrixEnough (H : Shake) (rho : Bytes) : Prop := ∀ i j : Fin 4, SixBlocksEnough (stream128 H rho (UInt16.ofNat (i.1 * 256 + j.1)))

theorem matrixEnough_iff (rho : Bytes) : MatrixEnough H rho ↔ SixBlocksMat H rho :=
  forall_congr' fun _ => forall_congr' fun _ => sixBlocks_iff _

/-- C107: the aarch64 code returns the keys, the signatures, the verdicts and the opened messages that the portable code returns, for all coins, messages, byte
strings as signature, and byte strings as secret or public key, if six blocks are enough for the matrix of the key. -/
theorem C107_same (M : Neon.Mach) :
    (∀ coins, MatrixEnough H ((shake256 H 128 (coins.take 32)).take 32) → keypairN C H M coins = keypairDet C H coins) ∧
    (∀ m sk, MatrixEnough H (sk.take 32) → signatureN C H M m sk = signature C H m sk ∧ cryptoSignN C H M m sk = cryptoSign C H m sk) ∧
    (∀ sig m pk, 1312 ≤ pk.length → MatrixEnough H (pk.take 32) → verifyN C H M sig m pk = verify C H sig m pk) ∧
    (∀ sm pk, 1312 ≤ pk.length → MatrixEnough H (pk.take 32) → cryptoOpenN C H M sm pk = cryptoOpen C H sm pk) :=
  ⟨fun coins h => keypairN_eq coins ((matrixEnough_iff _).1 h),
    fun m sk h => ⟨signatureN_eq m sk ((matrixEnough_iff _).1 h), cryptoSignN_eq m sk ((matrixEnough_iff _).1 h)⟩,
    fun sig m pk hp h => verifyN_eq sig m pk hp ((matrixEnough_iff _).1 h), fun sm pk hp h => cryptoOpenN_eq sm pk hp ((matrixEnough_iff _).1 h)⟩

theorem keypair_rho {coins pk sk : Bytes} (h : keypairDet C H coins = some (pk, sk)) :
    pk.take 32 = (shake256 H 128 (coins.take 32)).take 32 ∧ sk.take 32 = (shake256 H 128 (coins.take 32)).take 32 ∧ pk.length = 1312 := by
  have hl := (Avx2.keypairDet_len h).1
  have hs : (shake256 H 128 (coins.take 32)).length = 128 := shake256_len _ _
  unfold keypairDet at h
  generalize shake256 H 128 (coins.take 32) = sb at h hs ⊢
  simp only [Option.bind_eq_bind, Option.bind_eq_some_iff, Option.pure_def, Option.some.injEq, Prod.mk.injEq] at h
  obtain ⟨mat, hmat, s1, hs1, s2, hs2, rfl, rfl⟩ := h
  refine ⟨?_, ?_, hl⟩
  · unfold packPk
    rw [List.take_left' (by simp [hs])]
    simp
  · unfold packSk
    simp only [List.append_assoc]
    rw [List.take_left' (by simp [hs])]
    simp

/-- C107: keys made by the aarch64 or the portable code, a signature made by either under that key, verification by either: it is accepted, and the signed
message opens to the message. -/
theorem C107_honest (M1 M2 M3 : Neon.Mach) (coins pk sk m : Bytes) (h6 : MatrixEnough H ((shake256 H 128 (coins.take 32)).take 32))
    (hk : keypairN C H M1 coins = some (pk, sk) ∨ keypairDet C H coins = some (pk, sk)) :
    (∀ sig, signatureN C H M2 m sk = some sig ∨ signature C H m sk = some sig → verifyN C H M3 sig m pk = some true ∧ verify C H sig m pk = some true) ∧
    (∀ sm, cryptoSignN C H M2 m sk = some sm ∨ cryptoSign C H m sk = some sm → cryptoOpenN C H M3 sm pk = some (some m) ∧ cryptoOpen C H sm pk = some (some m)) := by
  rw [(C107_same M1).1 coins h6, or_self] at hk
  obtain ⟨e1, e2, e3⟩ := keypair_rho hk
  obtain ⟨a, b⟩ := (C107_same (C := C) (H := H) M2).2.1 m sk (by rw [e2]; exact h6)
  have v := fun sig => (C107_same (C := C) (H := H) M3).2.2.1 sig m pk e3.ge (by rw [e1]; exact h6)
  have o := fun sm => (C107_same (C := C) (H := H) M3).2.2.2 sm pk e3.ge (by rw [e1]; exact h6)
  refine ⟨fun sig hs => ?_, fun sm hs => ?_⟩
  · rw [a, or_self] at hs
    rw [v, and_self]
    exact (verify_signature hk hs).1
  · rw [b, or_self] at hs
    rw [o, and_self]
    exact open_sign hk hs

/-- C107: the aarch64 code with itself needs no condition: a signature it makes under a key it made is accepted by it, and the signed message opens to the
message. -/
theorem C107_own (M1 M2 M3 : Neon.Mach) (coins pk sk m : Bytes) (hk : keypairN C H M1 coins = some (pk, sk)) :
    (∀ sig, signatureN C H M2 m sk = some sig → verifyN C H M3 sig m pk = some true) ∧
    (∀ sm, cryptoSignN C H M2 m sk = some sm → cryptoOpenN C H M3 sm pk = some (some m)) := by
  obtain ⟨a, b⟩ := H
  have hl : ((shake256 ⟨a, b⟩ 128 (coins.take 32)).take 32).length = 32 := by
    rw [List.length_take, shake256_len]; rfl
  obtain ⟨mat, hm⟩ : ∃ mat, matrixExpandN C ⟨a, b⟩ ((shake256 ⟨a, b⟩ 128 (coins.take 32)).take 32) = some mat := by
    unfold keypairN at hk
    generalize shake256 ⟨a, b⟩ 128 (coins.take 32) = sb at hk ⊢
    dsimp only at hk
    rw [Option.bind_eq_bind, Option.bind_eq_some_iff] at hk
    exact ⟨hk.choose, hk.choose_spec.1⟩
  have hres := matrixExpandN_residues hm
  have hc : ∀ rho, rho = (shake256 ⟨a, b⟩ 128 (coins.take 32)).take 32 → matrixExpandN C ⟨(otherH ⟨a, b⟩ mat).shake128, b⟩ rho = matrixExpandN C ⟨a, b⟩ rho := by
    rintro rho rfl
    rw [hm]
    exact other_expand ⟨a, b⟩ mat hres _ hl
  rw [← keypairN_congr coins (hc _ rfl)] at hk
  have h6 : MatrixEnough ⟨(otherH ⟨a, b⟩ mat).shake128, b⟩ ((shake256 ⟨(otherH ⟨a, b⟩ mat).shake128, b⟩ 128 (coins.take 32)).take 32) :=
    (matrixEnough_iff _).2 (other_six ⟨a, b⟩ mat hres _ hl)
  obtain ⟨v, o⟩ := C107_honest M1 M2 M3 coins pk sk m h6 (Or.inl hk)
  have hk' := hk
  rw [(C107_same M1).1 coins h6] at hk'
  obtain ⟨e1, e2, -⟩ := keypair_rho hk'
  have e1' : pk.take 32 = (shake256 ⟨a, b⟩ 128 (coins.take 32)).take 32 := e1
  have e2' : sk.take 32 = (shake256 ⟨a, b⟩ 128 (coins.take 32)).take 32 := e2
  refine ⟨fun sig hs => ?_, fun sm hs => ?_⟩
  · rw [← signatureN_congr m sk (hc _ e2')] at hs
    rw [← verifyN_congr sig m pk (hc _ e1')]
    exact (v sig (Or.inl hs)).1
  · rw [← cryptoSignN_congr m sk (hc _ e2')] at hs
    rw [← cryptoOpenN_congr sm pk (hc _ e1')]
    exact (o sm (Or.inl hs)).1

theorem toy_enough (rho : Bytes) : MatrixEnough toyH rho := by
  intro i j
  rw [sixBlocks_iff]
  unfold SixBlocks
  show 256 ≤ (accUniform (fun n => if n % 3 = 0 then 1 else 0) 0 336).length
  decide +kernel

example (M : Neon.Mach) (coins m : Bytes) : ∃ pk sk sig, keypairN wrapSem toyH M coins = some (pk, sk) ∧ signatureN wrapSem toyH M m sk = some sig ∧
    verifyN wrapSem toyH M sig m pk = some true := by
  obtain ⟨pk, sk, hk⟩ := toy_keypair coins
  obtain ⟨sig, hs⟩ := toy_signs coins pk sk m hk
  refine ⟨pk, sk, sig, by rw [(C107_same M).1 coins (toy_enough _), hk], by rw [((C107_same M).2.1 m sk (toy_enough _)).1, hs], ?_⟩
  exact ((C107_honest M M M coins pk sk m (toy_enough _) (Or.inr hk)).1 sig (Or.inr hs)).1

/-! ## C108: `poly_freeze` -/

/-- C108: a finding.  `poly_freeze` of the aarch64 code rewrites 288 words, although a polynomial has 256: each of the 32 words after the polynomial is replaced
by its representative modulo `q` as well. -/
theorem C108_freeze_overrun (M : Neon.Mach) (f : Nat → Avx2.W32) (n : Nat) (hn : n < 288) (hf : (f n).toInt ≤ 2 ^ 31 - 2 ^ 22 - 1) :
    ((run (((M.arr 0 288 f).arr 288 4 mconst).args [0, 288]) polyFreezeAsm).mem n).toInt = (f n).toInt % 8380417 := by
  rw [freeze_overrun M f n hn]
  have hb := Avx2.toInt_bound32 (f n)
  obtain ⟨t, e, h1, h2, ht⟩ := reduce32_spec (C := wrapSem) (f n).toInt hb.1 (by omega)
  have r := red_word (f n)
  generalize f n - srs 23 (f n) * wq = y at r ⊢
  have c := congrFun (caddqN_int (C := wrapSem) M fun _ => y) 0
  rw [caddqN_eq] at c
  have c' : (y - y.sshiftRight 31 * wq).toInt = caddq wrapSem y.toInt := c
  have hy := Avx2.toInt_bound32 y
  rw [c', caddq_spec _ hy.1 hy.2]
  simp only [Q] at *
  split <;> omega

-- The word after the polynomial: `q + 5` becomes 5.
example (M : Neon.Mach) : ((run (((M.arr 0 288 fun _ => 8380422).arr 288 4 mconst).args [0, 288]) polyFreezeAsm).mem 256).toInt = 5 := by
  rw [C108_freeze_overrun M _ 256 (by decide) (by decide)]
  decide

end Verif.Props
