import Verif.Saber.NoiseLemmas

/-! Decryption of one message bit, and the three parameter sets' reconciliation data. -/

namespace Verif.Saber

open Finset Poly

variable (H : Hashes) (I : Impl)

theorem fromMsg_toNat (m : ByteArr 32) (i : Fin 256) : (fromMsg m i).toNat = 512 * (msgBit m i).toNat := by
  unfold fromMsg msgBit
  have : ∀ (x : U8) (j : Fin 8), (ext ((x >>> j.1) &&& 0x01) <<< 9).toNat = 512 * (x.getLsbD j.1).toNat := by decide +kernel
  exact this _ ⟨i.1 % 8, by omega⟩

/-- One bit of `dec (enc m)`, given the gap between the masked value and the reconciliation value received. -/
theorem dec_bit (seed ns m r : ByteArr 32) (pk : CpaPk I) (hseed : pk.seed = seed)
    (hpk : ∀ k i, (pk.vec k i).toNat % 1024 = ((cpaKeypair H I seed ns).1.vec k i).toNat % 1024)
    (i : Fin 256) (lo hi : ℤ)
    (hrec : ∀ p : Poly, lo ≤ (((p i).toNat % 1024 : Nat) : ℤ) - (I.recFrom (reconDataGen I p) i <<< (10 - I.reconSize - 1)).toNat ∧
      (((p i).toNat % 1024 : Nat) : ℤ) - (I.recFrom (reconDataGen I p) i <<< (10 - I.reconSize - 1)).toNat ≤ hi)
    (c1 : ℤ) (hc1 : ((BitVec.ofNat 16 ((1 <<< (10 - 2)) - (1 <<< (10 - 2 - I.reconSize))) : U16).toNat : ℤ) = c1)
    (h0 : noise (genMatrix H I seed) (genSecret H I ns) (genSecret H I r) i ≤ 8 * (lo + c1))
    (h1 : 8 * (hi + c1 - 511) ≤ noise (genMatrix H I seed) (genSecret H I ns) (genSecret H I r) i) :
    msgBit (cpaDec I (cpaKeypair H I seed ns).2 (cpaEnc H I m r pk)) i = msgBit m i := by
  subst hseed
  unfold cpaDec cpaEnc
  dsimp only
  rw [sndPart_cat, fstPart_cat, msgBit_readBytesMsg _ (recon_lt_two I _ _)]
  set A := genMatrix H I pk.seed with hA
  set s := genSecret H I ns
  set t := genSecret H I r
  obtain ⟨e, he, hmod⟩ := noise_eq A s t (Vec.fromBytesModP (K := I.K) ((A.mulTranspose t).addU16 4 |>.shr 3).readModP)
    (by
      intro k j
      rw [fromBytesModP_readModP, toNat_and_1023, Nat.mod_mod, matMulT_eq]
      rfl) pk.vec
    (by
      intro k j
      rw [hpk k j]
      unfold cpaKeypair
      dsimp only
      rw [matMul_eq]
      rfl) i
  have hb : (msgBit m i).toNat < 2 := Bool.toNat_lt _
  have hr := hrec ((fromMsg m).add (pk.vec.mul t))
  have hmp : ((((fromMsg m).add (pk.vec.mul t) i).toNat : ℤ) - (512 * (msgBit m i).toNat + (inner pk.vec t i).toNat)) % 1024 = 0 := by
    rw [vecMul_eq]
    simp only [Poly.add, BitVec.toNat_add, fromMsg_toNat]
    omega
  have hout : (recon I (reconDataGen I ((fromMsg m).add (pk.vec.mul t)))
      (Vec.mul (Vec.fromBytesModP (K := I.K) ((A.mulTranspose t).addU16 4 |>.shr 3).readModP) (cpaKeypair H I pk.seed ns).2.vec) i).toNat
        = (msgBit m i).toNat := by
    unfold recon
    dsimp only
    refine recon_arith ((fromMsg m).add (pk.vec.mul t) i) _ _ _ _ ((inner pk.vec t i).toNat) e hb hmp ?_ ?_ ?_
    · rw [vecMul_eq]
      have : (cpaKeypair H I pk.seed ns).2.vec = s := rfl
      rw [this]
      omega
    · rw [hc1]; omega
    · rw [hc1]; omega
  rw [hout]
  cases msgBit m i <;> rfl

theorem shr_shl_gap (x : U16) (c : Nat) (hc : c ≤ 10) :
    ((((x &&& 0x3FF) >>> c) <<< c : U16)).toNat = x.toNat % 1024 / 2 ^ c * 2 ^ c := by
  rw [BitVec.toNat_shiftLeft, BitVec.toNat_ushiftRight, toNat_and_1023, Nat.shiftRight_eq_div_pow, Nat.shiftLeft_eq]
  apply Nat.mod_eq_of_lt
  calc x.toNat % 1024 / 2 ^ c * 2 ^ c ≤ x.toNat % 1024 := Nat.div_mul_le_self _ _
    _ < 2 ^ 16 := by omega

theorem saber_rec (p : Poly) (i : Fin 256) :
    saber.recFrom (reconDataGen saber p) i = (p i &&& 0x3FF) >>> 6 := by
  show fromBytes4 (readBytes4 ((p.reduce 1024).shr 6)) i = _
  rw [fromBytes4_readBytes4]
  show ((p i &&& (1024 - 1)) >>> 6) &&& 0xF = _
  apply BitVec.eq_of_toNat_eq
  rw [BitVec.toNat_and, show (0xF : U16).toNat = 2 ^ 4 - 1 from rfl, Nat.and_two_pow_sub_one_eq_mod]
  apply Nat.mod_eq_of_lt
  rw [BitVec.toNat_ushiftRight, Nat.shiftRight_eq_div_pow]
  have := toNat_and_1023 (p i)
  show (p i &&& 0x3FF).toNat / _ < _
  omega

theorem fire_rec (p : Poly) (i : Fin 256) :
    fire.recFrom (reconDataGen fire p) i = (p i &&& 0x3FF) >>> 4 := by
  show fromBytes6 (readBytes6 ((p.reduce 1024).shr 4)) i = _
  rw [fromBytes6_readBytes6]
  show ((p i &&& (1024 - 1)) >>> 4) &&& 0x3F = _
  apply BitVec.eq_of_toNat_eq
  rw [BitVec.toNat_and, show (0x3F : U16).toNat = 2 ^ 6 - 1 from rfl, Nat.and_two_pow_sub_one_eq_mod]
  apply Nat.mod_eq_of_lt
  rw [BitVec.toNat_ushiftRight, Nat.shiftRight_eq_div_pow]
  have := toNat_and_1023 (p i)
  show (p i &&& 0x3FF).toNat / _ < _
  omega

theorem rec7_lt (x : U16) : ((x &&& 0x3FF) >>> 7).toNat < 8 := by
  rw [BitVec.toNat_ushiftRight, Nat.shiftRight_eq_div_pow]
  have := toNat_and_1023 x
  omega

theorem light_rec (p : Poly) (i : Fin 256) (h : i.1 % 8 ≠ 5) :
    light.recFrom (reconDataGen light p) i = (p i &&& 0x3FF) >>> 7 := by
  show fromBytes3 (readBytes3 ((p.reduce 1024).shr 7)) i = _
  rw [fromBytes3_readBytes3, if_neg h]
  show ((p i &&& 0x3FF) >>> 7) &&& 0x7 = _
  apply BitVec.eq_of_toNat_eq
  rw [BitVec.toNat_and, show (0x7 : U16).toNat = 2 ^ 3 - 1 from rfl, Nat.and_two_pow_sub_one_eq_mod]
  exact Nat.mod_eq_of_lt (rec7_lt _)

/-- The value a 3-bit reconciliation value turns into when it sits at a position `≡ 5 (mod 8)`. -/
def lightBug (r : Nat) : Nat := if r = 1 then 0 else if r = 3 then 2 else if r = 4 then 5 else if r = 6 then 7 else r

theorem light_rec5 (p : Poly) (i : Fin 256) (h : i.1 % 8 = 5) :
    (light.recFrom (reconDataGen light p) i).toNat = lightBug ((p i &&& 0x3FF) >>> 7).toNat := by
  show (fromBytes3 (readBytes3 ((p.reduce 1024).shr 7)) i).toNat = _
  rw [fromBytes3_readBytes3, if_pos h]
  show ((((p i &&& 0x3FF) >>> 7) &&& 0x6) ||| ((((p i &&& 0x3FF) >>> 7) >>> 2) &&& 0x1)).toNat = _
  have hlt := rec7_lt (p i)
  generalize (p i &&& 0x3FF) >>> 7 = x at *
  have : ∀ n : Fin 8, ((BitVec.ofNat 16 n.1 &&& 0x6) ||| ((BitVec.ofNat 16 n.1 >>> 2) &&& 0x1) : U16).toNat = lightBug n.1 := by
    decide +kernel
  have h1 := this ⟨x.toNat, hlt⟩
  have h2 : BitVec.ofNat 16 x.toNat = x := by simp
  simp only [h2] at h1
  exact h1

theorem lightBug_close (r : Nat) (h : r < 8) : r ≤ lightBug r + 1 ∧ lightBug r ≤ r + 1 := by
  unfold lightBug
  repeat' split
  all_goals omega

theorem lightBug_lt (r : Nat) (h : r < 8) : lightBug r < 8 := by
  unfold lightBug
  repeat' split
  all_goals omega

end Verif.Saber
