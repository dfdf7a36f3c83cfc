import Verif.Saber.GenericLemmas

/-! Helper lemmas: encryption and decryption only depend on key coefficients modulo 1024; the reconciliation arithmetic. -/

namespace Verif.Saber

open Finset Poly

theorem toNat_and_1023 (x : U16) : (x &&& 0x3FF).toNat = x.toNat % 1024 := by
  rw [BitVec.toNat_and]
  exact Nat.and_two_pow_sub_one_eq_mod x.toNat 10

theorem toNat_and_8191 (x : U16) : (x &&& 0x1FFF).toNat = x.toNat % 8192 := by
  rw [BitVec.toNat_and]
  exact Nat.and_two_pow_sub_one_eq_mod x.toNat 13

theorem toNat_and_one (x : U16) : (x &&& 0x1).toNat = x.toNat % 2 := by
  rw [BitVec.toNat_and]
  exact Nat.and_two_pow_sub_one_eq_mod x.toNat 1

theorem and_1023_congr {x y : U16} (h : x.toNat % 1024 = y.toNat % 1024) : x &&& 0x3FF = y &&& 0x3FF := by
  apply BitVec.eq_of_toNat_eq
  rw [toNat_and_1023, toNat_and_1023, h]

theorem inner_congr {p : Nat} (hp : p ∣ 65536) {K : Nat} {u u' v v' : Vec K}
    (hu : ∀ k i, (u k i).toNat % p = (u' k i).toNat % p) (hv : ∀ k i, (v k i).toNat % p = (v' k i).toNat % p) (i : Fin 256) :
    (inner u v i).toNat % p = (inner u' v' i).toNat % p := by
  rw [← red_eq_iff hp, red_inner, red_inner]
  have h1 : (fun k i => red p hp (u k i)) = (fun k i => red p hp (u' k i)) := by
    funext k i; exact (red_eq_iff hp _ _).2 (hu k i)
  have h2 : (fun k i => red p hp (v k i)) = (fun k i => red p hp (v' k i)) := by
    funext k i; exact (red_eq_iff hp _ _).2 (hv k i)
  rw [h1, h2]

variable (H : Hashes) (I : Impl)

theorem reconDataGen_congr {p q : Poly} (h : ∀ i, (p i).toNat % 1024 = (q i).toNat % 1024) :
    reconDataGen I p = reconDataGen I q := by
  have : p.reduce 1024 = q.reduce 1024 := by
    funext i
    exact and_1023_congr (h i)
  unfold reconDataGen
  rw [this]

theorem cpaEnc_congr (m r : ByteArr 32) {pk pk' : CpaPk I} (hs : pk.seed = pk'.seed)
    (hv : ∀ k i, (pk.vec k i).toNat % 1024 = (pk'.vec k i).toNat % 1024) : cpaEnc H I m r pk = cpaEnc H I m r pk' := by
  unfold cpaEnc
  simp only [hs]
  refine congrArg (cat _) ?_
  apply reconDataGen_congr
  intro i
  have h := inner_congr (p := 1024) (by decide) (u := pk.vec) (u' := pk'.vec) (v := genSecret H I r) (v' := genSecret H I r) hv
    (fun _ _ => rfl) i
  simp only [Poly.add, vecMul_eq, BitVec.toNat_add]
  omega

/-- Bit 9 of the reconciliation sum. -/
theorem bit9 (x t c : U16) : ((0 : U16) ||| (((x - t + c) >>> (10 - 1)) &&& 0x1)).toNat
    = ((x.toNat + 65536 - t.toNat + c.toNat) % 1024) / 512 := by
  have ht := t.isLt
  rw [show ∀ y : U16, (0 : U16) ||| y = y from fun y => BitVec.zero_or, toNat_and_one, BitVec.toNat_ushiftRight, BitVec.toNat_add, BitVec.toNat_sub, Nat.shiftRight_eq_div_pow]
  omega

theorem recon_congr (rc : ByteArr ((I.reconSize + 1) * 32)) {p q : Poly} (h : ∀ i, (p i).toNat % 1024 = (q i).toNat % 1024) :
    recon I rc p = recon I rc q := by
  funext i
  apply BitVec.eq_of_toNat_eq
  unfold recon
  dsimp only
  rw [bit9, bit9]
  have := h i
  have ht := (I.recFrom rc i <<< (10 - I.reconSize - 1)).isLt
  omega

theorem cpaDec_congr {sk sk' : CpaSk I} (hv : ∀ k i, (sk.vec k i).toNat % 1024 = (sk'.vec k i).toNat % 1024)
    (ct : ByteArr I.ctBytes) : cpaDec I sk ct = cpaDec I sk' ct := by
  unfold cpaDec
  refine congrArg readBytesMsg ?_
  apply recon_congr
  intro i
  rw [vecMul_eq, vecMul_eq]
  exact inner_congr (p := 1024) (by decide) (fun _ _ => rfl) hv i

theorem msgBit_ext {a b : ByteArr 32} (h : ∀ i, msgBit a i = msgBit b i) : a = b := by
  apply buf_ext
  intro i
  apply BitVec.eq_of_getLsbD_eq
  intro j hj
  have := h ⟨8 * i.1 + j, by omega⟩
  unfold msgBit at this
  have h1 : (8 * i.1 + j) / 8 = i.1 := by omega
  have h2 : (8 * i.1 + j) % 8 = j := by omega
  simpa only [h1, h2, Fin.eta] using this

theorem msgBit_readBytesMsg (p : Poly) (hp : ∀ i, (p i).toNat < 2) (i : Fin 256) :
    msgBit p.readBytesMsg i = decide ((p i).toNat = 1) := by
  have hbit : ∀ i, p i = (BitVec.ofBool (decide ((p i).toNat = 1))).setWidth 16 := by
    intro i
    apply BitVec.eq_of_toNat_eq
    have := hp i
    by_cases h : (p i).toNat = 1
    · simp [h]
    · have h0 : (p i).toNat = 0 := by omega
      simp [h0]
  unfold msgBit readBytesMsg
  rw [byteAt_bufOf]
  have hq : 8 * (i.1 / 8) + i.1 % 8 = i.1 := by omega
  have hr : i.1 % 8 < 8 := by omega
  obtain ⟨b, hb⟩ : ∃ b : Fin 8 → Bool, ∀ j : Fin 8, p ⟨8 * (i.1 / 8) + j.1, by omega⟩ = (BitVec.ofBool (b j)).setWidth 16 :=
    ⟨fun j => decide ((p ⟨8 * (i.1 / 8) + j.1, by omega⟩).toNat = 1), fun j => hbit _⟩
  have hi : p i = (BitVec.ofBool (b ⟨i.1 % 8, hr⟩)).setWidth 16 := by
    rw [← hb ⟨i.1 % 8, hr⟩]
    exact fin_congr p i.2 _ hq.symm
  simp only [hb]
  rw [hi]
  generalize hj : i.1 % 8 = j at hr
  generalize b 0 = b0, b 1 = b1, b 2 = b2 at *
  clear hi hj hb hbit hq
  have : ∀ (f : Fin 8 → Bool) (j : Fin 8),
      ((List.finRange 8).foldl (fun c idx => c ||| (trunc ((BitVec.ofBool (f idx)).setWidth 16) <<< idx.1)) (0 : U8)).getLsbD j.1
        = decide (((BitVec.ofBool (f j)).setWidth 16).toNat = 1) := by
    decide +kernel
  exact this b ⟨j, hr⟩

theorem recon_lt_two (rc : ByteArr ((I.reconSize + 1) * 32)) (p : Poly) (i : Fin 256) : (recon I rc p i).toNat < 2 := by
  unfold recon
  dsimp only
  rw [bit9]
  omega

/-- The reconciliation arithmetic: `y` is decrypted from `x` up to an error `e`, `t` is what is subtracted. -/
theorem recon_arith (mp v t c : U16) (b : Nat) (x e : ℤ) (hb : b < 2)
    (hmp : ((mp.toNat : ℤ) - (512 * b + x)) % 1024 = 0) (hv : ((v.toNat : ℤ) - (x - e)) % 1024 = 0)
    (h0 : 0 ≤ ((mp.toNat % 1024 : Nat) : ℤ) - t.toNat + c.toNat - e) (h1 : ((mp.toNat % 1024 : Nat) : ℤ) - t.toNat + c.toNat - e ≤ 511) :
    ((0 : U16) ||| (((v - t + c) >>> (10 - 1)) &&& 0x1)).toNat = b := by
  rw [bit9]
  have ht := t.isLt
  have := v.isLt
  have := mp.isLt
  have := c.isLt
  omega

end Verif.Saber
