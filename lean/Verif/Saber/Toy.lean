import Verif.Props.SaberKem
import Verif.Saber.BitSpec

/-!
# LightSaber on the toy hash functions

The public key and a ciphertext, in bytes.
-/

namespace Verif.Saber
open Verif.Props (toyHashes)

/-- The polynomial 1. -/
def one : Poly := fun i => if i.1 = 0 then 1 else 0

theorem mul_one (x : Poly) : x.mul one = x := by
  funext k
  rw [Props.C50_poly_mul_coeff, Finset.sum_eq_single k]
  · rw [Finset.sum_eq_single 0]
    · simp [one]
    · intro j _ hj
      have : j.1 ≠ 0 := fun h => hj (Fin.ext h)
      simp [one, this]
    · intro h; exact absurd (Finset.mem_univ _) h
  · intro i _ hi
    have hi' : i.1 ≠ k.1 := fun h => hi (Fin.ext h)
    apply Finset.sum_eq_zero
    intro j _
    by_cases hj : j.1 = 0
    · have := i.2
      rw [if_neg (by omega), if_neg (by omega)]
    · simp [one, hj]
  · intro h; exact absurd (Finset.mem_univ _) h

theorem mul_zero (x : Poly) : x.mul Poly.default = Poly.default := by
  funext k
  rw [Props.C50_poly_mul_coeff]
  simp [Poly.default]

theorem zero_mul (x : Poly) : Poly.default.mul x = Poly.default := by
  rw [(Props.C50_poly_laws Poly.default x x).1, mul_zero]

/-- The toy matrix. -/
def toyM : Mat 2 := fun i j => if i.1 = 0 ∧ j.1 = 0 then one else Poly.default
/-- The toy secret. -/
def toyV : Vec 2 := fun k => if k.1 = 0 then one else Poly.default

/-- The matrix as sampled. -/
def toyG : Mat 2 := genMatrix toyHashes light (.rep 32 0)
/-- The secret as sampled. -/
def toyN : Vec 2 := genSecret toyHashes light (.rep 32 0)

theorem bitOf_bufOf {n : Nat} (f : Fin n → U8) (k : Nat) (h : k / 8 < n) : Spec.bitOf (bufOf f).1 k = (f ⟨k / 8, h⟩).toNat.testBit (k % 8) := by
  unfold Spec.bitOf bufOf
  rw [getElem!_pos _ _ (by rw [List.length_ofFn]; exact h), List.getElem_ofFn]
  rfl

theorem toyG_eq : ∀ (i j : Fin 2) (c : Fin 256), toyG i j c = toyM i j c := by
  intro i j c
  apply BitVec.eq_of_getLsbD_eq
  intro t ht
  show (Poly.fromBytes13 (bufOf fun n : Fin 416 => (toyHashes.shake128 (List.replicate 32 0) (416 * (2 * i.1 + j.1) + n.1)).toBitVec) c).getLsbD t = _
  rw [fromBytes13_bit]
  by_cases h13 : t < 13
  · have hk : (13 * c.1 + t) / 8 < 416 := by omega
    rw [bitOf_bufOf _ _ hk]
    simp only [toyHashes, toyM]
    by_cases h0 : 416 * (2 * i.1 + j.1) + (13 * c.1 + t) / 8 = 0
    · rw [if_pos h0, if_pos ⟨by omega, by omega⟩, show (1 : UInt8).toBitVec.toNat = 1 from rfl]
      by_cases hc : c.1 = 0
      · rw [one, if_pos hc, hc, Nat.mul_zero, Nat.zero_add]
        have : t < 8 := by omega
        rw [Nat.mod_eq_of_lt this]
        interval_cases t <;> rfl
      · rw [one, if_neg hc]
        have : (13 * c.1 + t) % 8 ≠ 0 := by omega
        obtain ⟨m, hm⟩ := Nat.exists_eq_succ_of_ne_zero this
        simp [hm, Nat.testBit_succ]
    · rw [if_neg h0]
      have hz : ((if i.1 = 0 ∧ j.1 = 0 then one else Poly.default) c).getLsbD t = false := by
        split
        · by_cases hc : c.1 = 0
          · have : t ≠ 0 := by omega
            rw [one, if_pos hc]
            simp [this]
          · rw [one, if_neg hc]
            simp
        · simp [Poly.default]
      rw [hz]
      simp
  · have hz : ∀ x : U16, x = 0 ∨ x = 1 → x.getLsbD t = false := by
      rintro x (rfl | rfl)
      · simp
      · have : t ≠ 0 := by omega
        simp [this]
    rw [decide_eq_false h13, Bool.false_and, hz]
    unfold toyM one
    split
    · dsimp only; split
      · exact Or.inr rfl
      · exact Or.inl rfl
    · exact Or.inl rfl

/-- The zero bytes are the zero polynomial. -/
theorem from10_zero (b : ByteArr 320) (h : ∀ i, byteAt b i = 0) : Poly.fromBytes10 b = Poly.default := by
  funext c
  apply BitVec.eq_of_getLsbD_eq
  intro t ht
  rw [fromBytes10_bit]
  by_cases h10 : t < 10
  · have hk : (10 * c.1 + t) / 8 < 320 := by omega
    have := h ⟨_, hk⟩
    unfold byteAt at this
    unfold Spec.bitOf
    rw [getElem!_pos _ _ (by rw [b.2]; exact hk), show (b.1[(10 * c.1 + t) / 8]'(by rw [b.2]; exact hk)).toNat = (0 : BitVec 8).toNat from congrArg BitVec.toNat this]
    simp [Poly.default]
  · simp [h10, Poly.default]

theorem toyN_eq : ∀ (i : Fin 2) (c : Fin 256), toyN i c = toyV i c := by decide +kernel

theorem toy_matrix (seed : ByteArr 32) : genMatrix toyHashes light seed = toyM := by
  rw [← show toyG = toyM from funext fun i => funext fun j => funext fun c => toyG_eq i j c]
  rfl

theorem toy_secret (seed : ByteArr 32) : genSecret toyHashes light seed = toyV := by
  rw [← show toyN = toyV from funext fun i => funext fun c => toyN_eq i c]
  rfl

/-- The rounded product vanishes. -/
theorem toy_round : (toyV.addU16 4).shr 3 = fun _ => Poly.default := by
  have h : ∀ (i : Fin 2) (c : Fin 256), (toyV.addU16 4).shr 3 i c = Poly.default c := by decide +kernel
  funext i c
  exact h i c

theorem toy_mul : toyM.mul toyV = toyV ∧ toyM.mulTranspose toyV = toyV ∧ Vec.mul (fun _ => Poly.default) toyV = Poly.default := by
  have l : List.finRange 2 = [0, 1] := by decide
  have z : ∀ x : Poly, Poly.default.add x = x := fun x => by funext i; simp [Poly.add, Poly.default]
  refine ⟨?_, ?_, ?_⟩
  · funext i
    show Vec.mul _ _ = _
    unfold Vec.mul
    rw [l]
    match i with
    | ⟨0, _⟩ => simp [mul_one, mul_zero, z, toyM, toyV]; funext c; simp [Poly.add, Poly.default]
    | ⟨1, _⟩ => simp [zero_mul, z, toyM, toyV]
  · funext i
    show List.foldl _ _ _ = _
    rw [l]
    match i with
    | ⟨0, _⟩ => simp [mul_one, mul_zero, z, toyM, toyV]; funext c; simp [Poly.add, Poly.default]
    | ⟨1, _⟩ => simp [zero_mul, z, toyM, toyV]
  · unfold Vec.mul
    rw [l]
    simp [zero_mul, z]

/-- The zero vector, decoded. -/
def toyZ : Vec 2 := Vec.fromBytesModP (K := 2) (.rep 640 0)

theorem toyZ_eq : toyZ = fun _ => Poly.default := by
  funext k
  apply from10_zero
  intro i
  unfold chunkOf
  rw [Poly.byteAt_bufOf]
  unfold byteAt
  exact congrArg UInt8.toBitVec (List.getElem_replicate (a := (0 : UInt8)) (n := 640) _)

theorem readZ : (Vec.readModP (K := 2) fun _ => Poly.default).1 = List.replicate 640 0 := by
  rw [← toyZ_eq]
  unfold toyZ
  rw [readModP_fromBytesModP]
  rfl

/-- The bytes of every toy public key: zeros, then the seed. -/
theorem toy_pk (seed ns : ByteArr 32) : ((lightKem toyHashes).pkToBytes ((lightKem toyHashes).keygen (seed, ns)).1).1 = List.replicate 640 0 ++ seed.1 := by
  show ((cpaKeypair toyHashes light seed ns).1.toBytes).1 = _
  have e : (cpaKeypair toyHashes light seed ns).1 = ⟨fun _ => Poly.default, seed⟩ := by
    unfold cpaKeypair
    rw [toy_matrix, toy_secret]
    dsimp only
    rw [show Mat.mul (K := light.K) toyM toyV = toyV from toy_mul.1]
    exact congrArg (fun v => (⟨v, seed⟩ : CpaPk light)) toy_round
  rw [e]
  show (Vec.readModP (K := 2) fun _ => Poly.default).1 ++ seed.1 = _
  rw [readZ]

/-- The zero message. -/
def toyE : Poly := (Poly.fromMsg (.rep 32 0)).add Poly.default

theorem reconZ : (reconDataGen light toyE).1 = List.replicate 96 0 := by decide +kernel

/-- The bytes of the ciphertext of the zero message under every toy public key: zeros. -/
theorem toy_ct (seed ns r : ByteArr 32) : ((lightKem toyHashes).encap (.rep 32 0, r) ((lightKem toyHashes).pkFromBytes
    ((lightKem toyHashes).pkToBytes ((lightKem toyHashes).keygen (seed, ns)).1))).2 = ByteArr.rep 736 0 := by
  apply Subtype.ext
  have hb : (lightKem toyHashes).pkToBytes ((lightKem toyHashes).keygen (seed, ns)).1 = cat (n := 640) (.rep 640 0) seed := Subtype.ext (toy_pk seed ns)
  rw [hb]
  show (cpaEnc toyHashes light (.rep 32 0) r (CpaPk.fromBytes (I := light) (cat (n := 640) (.rep 640 0) seed))).1 = _
  have hv : (CpaPk.fromBytes (I := light) (cat (n := 640) (.rep 640 0) seed)).vec = fun _ => Poly.default := by
    show Vec.fromBytesModP (K := 2) (fstPart (n := 640) (cat (n := 640) (.rep 640 0) seed)) = _
    have e : fstPart (n := 640) (cat (n := 640) (.rep 640 0) seed) = .rep 640 0 := by
      apply Subtype.ext
      show List.take 640 (List.replicate 640 0 ++ seed.1) = List.replicate 640 0
      rw [List.take_append_of_le_length (by rw [List.length_replicate]), List.take_of_length_le (by rw [List.length_replicate])]
    rw [e]
    exact toyZ_eq
  unfold cpaEnc
  rw [toy_matrix, toy_secret, hv]
  dsimp only
  rw [show Mat.mulTranspose (K := light.K) toyM toyV = toyV from toy_mul.2.1, show Vec.mul (K := light.K) (fun _ => Poly.default) toyV = Poly.default from toy_mul.2.2,
    show Vec.shr (K := light.K) (Vec.addU16 (K := light.K) toyV 4) 3 = fun _ => Poly.default from toy_round]
  show (Vec.readModP (K := 2) fun _ => Poly.default).1 ++ (reconDataGen light toyE).1 = List.replicate (640 + 96) 0
  rw [readZ, reconZ, List.replicate_append_replicate]

end Verif.Saber
