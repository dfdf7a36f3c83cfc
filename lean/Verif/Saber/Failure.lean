import Verif.Saber.Eval
import Verif.Saber.FailureData
import Verif.Props.SaberExact

/-!
# A LightSaber exchange evaluated in the kernel

Key generation from two seeds of zero bytes, encapsulation of the zero message with a particular noise seed, SHAKE128 being the function of FIPS 202: the matrix,
the secrets, all products and the rounding noise.
-/

namespace Verif.Saber.Failure

open Verif.Saber Verif.Saber.Eval Verif.Saber.Spec Verif.Props

/-- 32 zero bytes. -/
def zero : ByteArr 32 := ⟨List.replicate 32 0, List.length_replicate⟩

/-- The noise seed of the encapsulation: `0x81`, `0xAE` and 30 zero bytes. -/
def coin : ByteArr 32 := ⟨0x81 :: 0xAE :: List.replicate 30 0, by rw [List.length_cons, List.length_cons, List.length_replicate]⟩

set_option maxRecDepth 100000
set_option Elab.async false

theorem xa : Keccak.Eval.spongeN 168 0x1F 1680 zero.1 = XA := by decide +kernel
theorem xs : Keccak.Eval.spongeN 168 0x1F 672 zero.1 = XS := by decide +kernel
theorem xt : Keccak.Eval.spongeN 168 0x1F 672 coin.1 = XT := by decide +kernel

/-- Coefficient `k` of entry `(i, j)` of the matrix. -/
def aF (i j : Nat) (k : Nat) : ℤ := ((XA >>> (13 * (256 * (2 * i + j) + k)) % 8192 : Nat) : ℤ)

/-- Coefficient `k` of component `c` of the secret with stream `X`. -/
def sF (X : Nat) (c k : Nat) : ℤ := (pop5 (X >>> (10 * (256 * c + k)) % 32) : ℤ) - pop5 (X >>> (10 * (256 * c + k) + 5) % 32)

theorem ones_num (X a : Nat) : ∑ j ∈ Finset.range 5, (X.testBit (a + j)).toNat = pop5 (X >>> a % 32) := by
  have e : ∀ t, X.testBit (a + t) = (X >>> a).testBit t := fun t => (Nat.testBit_shiftRight ..).symm
  simp only [e]
  generalize X >>> a = Y
  have b : ∀ t, (Y.testBit t).toNat = Y / 2 ^ t % 2 := fun t => by
    rw [Nat.testBit_eq_decide_div_mod_eq]
    rcases Nat.mod_two_eq_zero_or_one (Y / 2 ^ t) with h | h <;> simp [h]
  simp only [b, Finset.sum_range_succ, Finset.sum_range_zero]
  unfold pop5
  omega

section
variable (H : Hashes) (hH : H.shake128 = fipsShake.shake128)
include hH

theorem matrix_eq (i j : Fin 2) : specMatrix H 2 zero i j = pf (aF i.1 j.1) := by
  funext n
  unfold specMatrix pf aF
  rw [hH, ← xa, show (8192 : Nat) = 2 ^ 13 from rfl, ← field_num]
  unfold Spec.field
  congr 1
  refine Finset.sum_congr rfl fun t ht => ?_
  have := Finset.mem_range.1 ht
  rw [stream_bit zero.1 1680 _ (by have := i.2; have := j.2; have := n.2; omega)]

theorem secret_eq (X : Nat) (seed : ByteArr 32) (hX : Keccak.Eval.spongeN 168 0x1F 672 seed.1 = X) (c : Fin 2) :
    specSecret H 10 2 seed c = pf (sF X c.1) := by
  funext n
  unfold specSecret pf sF
  rw [hH, ← hX, ← ones_num, ← ones_num]
  unfold onesAt
  have key : ∀ p, p + 5 ≤ 8 * 672 → ∑ j ∈ Finset.range (10 / 2), (streamBit (fipsShake.shake128 seed.1) (p + j)).toNat
      = ∑ j ∈ Finset.range 5, ((Keccak.Eval.spongeN 168 0x1F 672 seed.1).testBit (p + j)).toNat := fun p hp =>
    Finset.sum_congr rfl fun t ht => by
      have := Finset.mem_range.1 ht
      rw [stream_bit seed.1 672 _ (by omega)]
  rw [key _ (by have := c.2; have := n.2; omega), key _ (by have := c.2; have := n.2; omega)]

end

theorem sF_small (X c k : Nat) : |sF X c k| ≤ 5 := by
  unfold sF pop5
  rw [abs_le]
  omega

theorem bound (M : ℤ) (hM : 0 ≤ M) (hM2 : M ≤ 8192) (u : Fin 2 → Fin 256 → ℤ) (X : Nat) (hu : ∀ k i, |u k i| ≤ M) (i : Fin 256) :
    |inner u (fun k : Fin 2 => pf (sF X k.1)) i| < 2 ^ 31 := by
  have h := abs_inner_le u (fun k : Fin 2 => pf (sF X k.1)) M hM hu i
  have h2 : l1 (fun k : Fin 2 => pf (sF X k.1)) ≤ 2560 := by
    unfold l1
    refine (Finset.sum_le_sum fun k _ => Finset.sum_le_sum fun j _ => sF_small X k.1 j.1).trans ?_
    simp
  have h3 := mul_le_mul hM2 h2 (Finset.sum_nonneg fun k _ => Finset.sum_nonneg fun j _ => abs_nonneg _) (by norm_num)
  norm_num at h3 ⊢
  omega

/-- The two components of `A s`. -/
def asN : Fin 2 → Nat := ![AS0, AS1]
/-- The two components of `Aᵀ t`. -/
def atN : Fin 2 → Nat := ![AT0, AT1]
/-- Rounded coefficients. -/
def rF (V : Nat) (k : Nat) : ℤ := rnd (dg V k)
/-- Rounding errors. -/
def eF (V : Nat) (k : Nat) : ℤ := 4 - (dg V k + 4) % 8

theorem chk_as : ∀ i : Fin 2, asN i < Q ∧ (ev (aF i.1 0) 256 * ev (sF XS 0) 256 + ev (aF i.1 1) 256 * ev (sF XS 1) 256
    + ev (fun _ => 2 ^ 31) 256 - asN i) % (Q + 1) = 0 := by decide +kernel
theorem chk_at : ∀ i : Fin 2, atN i < Q ∧ (ev (aF 0 i.1) 256 * ev (sF XT 0) 256 + ev (aF 1 i.1) 256 * ev (sF XT 1) 256
    + ev (fun _ => 2 ^ 31) 256 - atN i) % (Q + 1) = 0 := by decide +kernel
theorem chk_v : VV < Q ∧ (ev (rF AS0) 256 * ev (sF XT 0) 256 + ev (rF AS1) 256 * ev (sF XT 1) 256 + ev (fun _ => 2 ^ 31) 256 - VV) % (Q + 1) = 0 := by
  decide +kernel
theorem chk_w : WW < Q ∧ (ev (rF AT0) 256 * ev (sF XS 0) 256 + ev (rF AT1) 256 * ev (sF XS 1) 256 + ev (fun _ => 2 ^ 31) 256 - WW) % (Q + 1) = 0 := by
  decide +kernel
theorem chk_e1 : E1 < Q ∧ (ev (eF AS0) 256 * ev (sF XT 0) 256 + ev (eF AS1) 256 * ev (sF XT 1) 256 + ev (fun _ => 2 ^ 31) 256 - E1) % (Q + 1) = 0 := by
  decide +kernel
theorem chk_e2 : E2 < Q ∧ (ev (eF AT0) 256 * ev (sF XS 0) 256 + ev (eF AT1) 256 * ev (sF XS 1) 256 + ev (fun _ => 2 ^ 31) 256 - E2) % (Q + 1) = 0 := by
  decide +kernel
theorem chk_noise : ∀ i : Fin 256, |dg E1 i.1 - dg E2 i.1| ≤ if i.1 = 117 then 8 * 71 else if i.1 % 8 = 5 then 8 * 64 else 8 * 71 := by
  decide +kernel
theorem chk_117 : dg VV 117 % 1024 = 505 ∧ dg WW 117 % 1024 = 576 := by decide +kernel

/-! ## The exchange -/

section
variable (H : Hashes) (hH : H.shake128 = fipsShake.shake128)
include hH

theorem aF_small (i j k : Nat) : |aF i j k| ≤ 8192 := by
  unfold aF
  rw [abs_le]
  omega

theorem rF_small (V k : Nat) : |rF V k| ≤ 8192 := by
  unfold rF rnd
  rw [abs_le]
  omega

theorem eF_small (V k : Nat) : |eF V k| ≤ 8192 := by
  unfold eF
  rw [abs_le]
  omega

theorem as_eq (i : Fin 2) : matVec (specMatrix H 2 zero) (specSecret H 10 2 zero) i = pf (dg (asN i)) := by
  show inner (specMatrix H 2 zero i) (specSecret H 10 2 zero) = _
  rw [show specMatrix H 2 zero i = fun j : Fin 2 => pf (aF i.1 j.1) from funext fun j => matrix_eq H hH i j,
    show specSecret H 10 2 zero = fun k : Fin 2 => pf (sF XS k.1) from funext fun k => secret_eq H hH XS zero xs k]
  exact inner2 (fun j => aF i.1 j.1) (fun k => sF XS k.1) (asN i) (chk_as i).1 (bound 8192 (by omega) (by omega) _ XS fun k j => aF_small H hH ..) (chk_as i).2

theorem at_eq (i : Fin 2) : matVec (transpose (specMatrix H 2 zero)) (specSecret H 10 2 coin) i = pf (dg (atN i)) := by
  show inner (fun j => specMatrix H 2 zero j i) (specSecret H 10 2 coin) = _
  rw [show (fun j => specMatrix H 2 zero j i) = fun j : Fin 2 => pf (aF j.1 i.1) from funext fun j => matrix_eq H hH j i,
    show specSecret H 10 2 coin = fun k : Fin 2 => pf (sF XT k.1) from funext fun k => secret_eq H hH XT coin xt k]
  exact inner2 (fun j => aF j.1 i.1) (fun k => sF XT k.1) (atN i) (chk_at i).1 (bound 8192 (by omega) (by omega) _ XT fun k j => aF_small H hH ..) (chk_at i).2

/-- `⟨b, t⟩`. -/
theorem v_eq : inner (fun (k : Fin 2) j => rnd (matVec (specMatrix H 2 zero) (specSecret H 10 2 zero) k j)) (specSecret H 10 2 coin) = pf (dg VV) := by
  rw [show (fun (k : Fin 2) j => rnd (matVec (specMatrix H 2 zero) (specSecret H 10 2 zero) k j)) = fun k : Fin 2 => pf (rF (asN k)) from
      funext fun k => funext fun j => by rw [as_eq H hH k]; rfl,
    show specSecret H 10 2 coin = fun k : Fin 2 => pf (sF XT k.1) from funext fun k => secret_eq H hH XT coin xt k]
  exact inner2 (fun k => rF (asN k)) (fun k => sF XT k.1) VV chk_v.1 (bound 8192 (by omega) (by omega) _ XT fun k j => rF_small H hH ..) chk_v.2

/-- `⟨b', s⟩`. -/
theorem w_eq : inner (fun (k : Fin 2) j => rnd (matVec (transpose (specMatrix H 2 zero)) (specSecret H 10 2 coin) k j)) (specSecret H 10 2 zero)
    = pf (dg WW) := by
  rw [show (fun (k : Fin 2) j => rnd (matVec (transpose (specMatrix H 2 zero)) (specSecret H 10 2 coin) k j)) = fun k : Fin 2 => pf (rF (atN k)) from
      funext fun k => funext fun j => by rw [at_eq H hH k]; rfl,
    show specSecret H 10 2 zero = fun k : Fin 2 => pf (sF XS k.1) from funext fun k => secret_eq H hH XS zero xs k]
  exact inner2 (fun k => rF (atN k)) (fun k => sF XS k.1) WW chk_w.1 (bound 8192 (by omega) (by omega) _ XS fun k j => rF_small H hH ..) chk_w.2

/-- The secrets of the model, as integers. -/
theorem toZ_eq (X : Nat) (seed : ByteArr 32) (hX : Keccak.Eval.spongeN 168 0x1F 672 seed.1 = X) :
    toZ (genSecret H light seed) = fun k : Fin 2 => pf (sF X k.1) :=
  funext fun k => (funext fun i => C78_secret H light (.inl rfl) seed k i : _ = specSecret H 10 2 seed k).trans (secret_eq H hH X seed hX k)

theorem err_of (x : U16) (V : Nat) (k : Nat) (h : ((x.toNat : ℤ) - dg V k) % 65536 = 0) : roundErr x = eF V k := by
  unfold roundErr eF
  omega

open private inner_int nat_of_int nat_of_toInt from Verif.Props.SaberExact in
theorem err_as (k : Fin 2) (i : Fin 256) : roundErr (matVec (genMatrix H light zero) (genSecret H light zero) k i) = eF (asN k) i.1 := by
  refine err_of H hH _ _ _ ?_
  have h := inner_int (p := 65536) (dvd_refl _) (genMatrix H light zero k) (genSecret H light zero) (specMatrix H 2 zero k) (specSecret H 10 2 zero)
    (fun j n => nat_of_int _ _ (C78_matrix H light zero k j n)) (fun j n => nat_of_toInt (dvd_refl _) _ _ (C78_secret H light (.inl rfl) zero j n)) i
  exact (congrArg (fun z => ((BitVec.toNat (matVec (genMatrix H light zero) (genSecret H light zero) k i) : ℤ) - z) % 65536)
    (congrFun (as_eq H hH k) i : _ = dg (asN k) i.1)).symm.trans h

open private inner_int nat_of_int nat_of_toInt from Verif.Props.SaberExact in
theorem err_at (k : Fin 2) (i : Fin 256) : roundErr (matVec (transpose (genMatrix H light zero)) (genSecret H light coin) k i) = eF (atN k) i.1 := by
  refine err_of H hH _ _ _ ?_
  have h := inner_int (p := 65536) (dvd_refl _) (transpose (genMatrix H light zero) k) (genSecret H light coin) (transpose (specMatrix H 2 zero) k)
    (specSecret H 10 2 coin)
    (fun j n => nat_of_int _ _ (C78_matrix H light zero j k n)) (fun j n => nat_of_toInt (dvd_refl _) _ _ (C78_secret H light (.inl rfl) coin j n)) i
  exact (congrArg (fun z => ((BitVec.toNat (matVec (transpose (genMatrix H light zero)) (genSecret H light coin) k i) : ℤ) - z) % 65536)
    (congrFun (at_eq H hH k) i : _ = dg (atN k) i.1)).symm.trans h

/-- The rounding noise of the exchange. -/
theorem noise_eq (i : Fin 256) : noise (genMatrix H light zero) (genSecret H light zero) (genSecret H light coin) i = dg E1 i.1 - dg E2 i.1 := by
  unfold noise
  rw [show (fun (k : Fin light.K) i => roundErr (matVec (genMatrix H light zero) (genSecret H light zero) k i)) = fun k : Fin 2 => pf (eF (asN k)) from
      funext fun k => funext fun j => err_as H hH k j,
    show (fun (k : Fin light.K) i => roundErr (matVec (transpose (genMatrix H light zero)) (genSecret H light coin) k i)) = fun k : Fin 2 => pf (eF (atN k)) from
      funext fun k => funext fun j => err_at H hH k j, toZ_eq H hH XS zero xs, toZ_eq H hH XT coin xt, Pi.sub_apply]
  have h1 := inner2 (fun k => eF (asN k)) (fun k => sF XT k.1) E1 chk_e1.1 (bound 8192 (by omega) (by omega) _ XT fun k j => eF_small H hH ..) chk_e1.2
  have h2 := inner2 (fun k => eF (atN k)) (fun k => sF XS k.1) E2 chk_e2.1 (bound 8192 (by omega) (by omega) _ XS fun k j => eF_small H hH ..) chk_e2.2
  exact congrArg₂ (· - ·) (congrFun h1 i) (congrFun h2 i)

/-- Bit 117 of the decapsulated secret. -/
theorem bit117 (pk : CpaPk light) (hs : pk.seed = zero) (hb : pk.toBytes = (cpaKeypair H light zero zero).1.toBytes) :
    msgBit (cpaDec light (cpaKeypair H light zero zero).2 (cpaEnc H light zero coin pk)) 117 = true := by
  rw [C78_decrypt light (.inl rfl) _ _ 3 rfl, decide_eq_true_iff]
  have hm : specMasked 2 pk.toBytes.1 zero (specSecret H 10 2 coin) 117 = 505 := by
    unfold specMasked
    have e : (fun (k : Fin 2) (j : Fin 256) => (field 10 (bitOf pk.toBytes.1) (256 * k.1 + j.1) : ℤ))
        = fun (k : Fin 2) j => rnd (matVec (specMatrix H 2 zero) (specSecret H 10 2 zero) k j) := by
      rw [hb]
      exact funext fun k => funext fun j => (C78_public_key H light (.inl rfl) zero zero zero).2 k j
    rw [e, v_eq H hH, show msgBit zero 117 = false by decide +kernel]
    have := chk_117.1
    unfold pf
    show (512 * 0 + dg VV 117) % 1024 = 505
    omega
  have hc := (C78_ciphertext_recon H zero coin 117).2.2 pk 3 (by rw [hm]; rfl)
  have e : (fun (k : Fin light.K) (j : Fin 256) => (field 10 (bitOf (cpaEnc H light zero coin pk).1) (256 * k.1 + j.1) : ℤ))
      = fun (k : Fin 2) j => rnd (matVec (transpose (specMatrix H 2 zero)) (specSecret H 10 2 coin) k j) := by
    refine funext fun k => funext fun j => (C78_ciphertext_vector H light (.inl rfl) zero coin pk k j).trans ?_
    rw [hs]; rfl
  have es : toZ (cpaKeypair H light zero zero).2.vec = specSecret H 10 2 zero :=
    (toZ_eq H hH XS zero xs).trans (funext fun k => (secret_eq H hH XS zero xs k).symm)
  have hw : inner (fun (k : Fin light.K) (j : Fin 256) => (field 10 (bitOf (cpaEnc H light zero coin pk).1) (256 * k.1 + j.1) : ℤ))
      (toZ (cpaKeypair H light zero zero).2.vec) 117 = dg WW 117 := by
    rw [e, es]
    exact congrFun (w_eq H hH) 117
  rw [hw]
  have hc' : (field 3 (bitOf ((cpaEnc H light zero coin pk).1.drop (light.K * 320))) ((117 : Fin 256).1) : ℤ) = 2 := hc
  rw [hc']
  have := chk_117.2
  norm_num
  omega

end

end Verif.Saber.Failure
