import Verif.Dilithium.Eval
import Verif.Dilithium.Toy

/-!
# Key generation and signing on concrete data

`KeyData.Ok` and `SignData.Ok` list equations between concrete lists, each of which the kernel can evaluate, and which together determine the
result of key generation and of signing with the SHAKE of FIPS 202.
-/

namespace Verif.Dilithium.Eval

open Verif.Dilithium
open Verif.Dilithium.Spec (Rq)
open Verif.Props (fipsShake)

theorem pl_map (f : Int → Int) (l : List Int) (h : l.length = 256) (i : Fin 256) : pl (l.map f) i = f (pl l i) := by
  unfold pl
  rw [List.getD_eq_getElem _ _ (by rw [List.length_map]; omega), List.getD_eq_getElem _ _ (by omega), List.getElem_map]

theorem pl_zip (f : Int → Int → Int) (l m : List Int) (h : l.length = 256) (g : m.length = 256) (i : Fin 256) :
    pl (List.zipWith f l m) i = f (pl l i) (pl m i) := by
  unfold pl
  rw [List.getD_eq_getElem _ _ (by rw [List.length_zipWith]; omega), List.getD_eq_getElem _ _ (by omega), List.getD_eq_getElem _ _ (by omega),
    List.getElem_zipWith]

theorem pl_all (P : Int → Prop) (l : List Int) (h : l.length = 256) (a : ∀ x ∈ l, P x) (i : Fin 256) : P (pl l i) := by
  unfold pl
  rw [List.getD_eq_getElem _ _ (by omega)]
  exact a _ (List.getElem_mem _)

/-- Intermediate values of key generation. -/
structure KeyData where
  rho : Bytes
  rhop : Bytes
  key : Bytes
  tr : Bytes
  pk : Bytes
  mat : Fin 4 → Fin 4 → List Int
  s1 : Fin 4 → List Int
  s2 : Fin 4 → List Int
  s1h : Fin 4 → List Nat
  t : Fin 4 → List Int
  t1 : Fin 4 → List Int
  t0 : Fin 4 → List Int

/-- The fields of the secret key. -/
def KeyData.sk (K : KeyData) : SkFields := { rho := K.rho, tr := K.tr, key := K.key, t0 := vl K.t0, s1 := vl K.s1, s2 := vl K.s2 }

/-- The values are those of key generation. -/
structure KeyData.Ok (K : KeyData) (coins : Bytes) : Prop where
  lc : coins.length = 32
  seed : squeeze (fipsShake.shake256 coins) 0 128 = K.rho ++ K.rhop ++ K.key
  lrho : K.rho.length = 32
  lrhop : K.rhop.length = 64
  lkey : K.key.length = 32
  mat : ∀ i j, polyUniform wrapSem fipsShake K.rho (UInt16.ofNat (i.1 * 256 + j.1)) = some (pl (K.mat i j))
  lmat : ∀ i j, (K.mat i j).length = 256
  s1 : ∀ i, polyUniformEta wrapSem fipsShake K.rhop (0 + UInt16.ofNat i.1) = some (pl (K.s1 i))
  s2 : ∀ i, polyUniformEta wrapSem fipsShake K.rhop (4 + UInt16.ofNat i.1) = some (pl (K.s2 i))
  ls1 : ∀ i, (K.s1 i).length = 256
  ls2 : ∀ i, (K.s2 i).length = 256
  s1h : ∀ j, nt8 (K.s1 j) = K.s1h j
  lt : ∀ i, (K.t i).length = 256
  rt : ∀ i, ∀ x ∈ K.t i, 0 ≤ x ∧ x < 8380417
  t : ∀ k, nt8 (K.t k) = ad (dot (K.mat k) K.s1h) (nt8 (K.s2 k))
  t1 : ∀ k, (K.t k).map (fun x => (Spec.power2Round x).1) = K.t1 k
  t0 : ∀ k, (K.t k).map (fun x => (Spec.power2Round x).2) = K.t0 k
  pk : packPk K.rho (vl K.t1) = K.pk
  tr : squeeze (fipsShake.shake256 K.pk) 0 64 = K.tr

theorem KeyData.Ok.matrix {K : KeyData} {coins : Bytes} (h : K.Ok coins) :
    matrixExpand wrapSem fipsShake K.rho = some fun i j => pl (K.mat i j) :=
  forVec_const _ _ fun i => forVec_const _ _ fun j => h.mat i j

/-- Key generation returns the packed data. -/
theorem keypair_of {K : KeyData} {coins : Bytes} (h : K.Ok coins) : keypairDet wrapSem fipsShake coins = some (K.pk, packSk wrapSem K.sk) := by
  choose A hA using fun i j => exists_isNtt (pl (K.mat i j))
  have e := keypair_eq (C := wrapSem) (H := fipsShake) (A := A) (coins := coins) _ _ _
    (by rw [List.take_of_length_le (by rw [h.lc])]; exact h.seed) h.lrho h.lrhop h.lkey h.matrix
    (forVec_const _ (vl K.s1) fun i => h.s1 i) (forVec_const _ (vl K.s2) fun i => h.s2 i) hA
  have ht := tOf_eq (M := K.mat) h.lmat hA K.s1 K.s2 K.t K.s1h h.ls1 h.ls2 h.lt h.rt h.s1h h.t
  have h1 : (fun (k : Fin 4) (i : Fin 256) => (Spec.power2Round (vl K.t k i)).1) = vl K.t1 := by
    funext k i
    unfold vl
    rw [← h.t1 k, pl_map _ _ (h.lt k)]
  have h0 : (fun (k : Fin 4) (i : Fin 256) => (Spec.power2Round (vl K.t k i)).2) = vl K.t0 := by
    funext k i
    unfold vl
    rw [← h.t0 k, pl_map _ _ (h.lt k)]
  dsimp only at e
  rw [ht, h1, h0, h.pk] at e
  rw [e]
  unfold KeyData.sk
  rw [show shake256 fipsShake 64 K.pk = K.tr from h.tr]

theorem p2r_range (r : Int) : -4096 < (Spec.power2Round r).2 ∧ (Spec.power2Round r).2 ≤ 4096 := by
  unfold Spec.power2Round Spec.modpm
  dsimp only
  split_ifs <;> omega

theorem KeyData.Ok.r1 {K : KeyData} {coins : Bytes} (h : K.Ok coins) (k : Fin 4) (i : Fin 256) : -2 ≤ vl K.s1 k i ∧ vl K.s1 k i ≤ 2 :=
  vecUniformEta_range (C := wrapSem) (H := fipsShake) (forVec_const _ (vl K.s1) fun i => h.s1 i) k i

theorem KeyData.Ok.r2 {K : KeyData} {coins : Bytes} (h : K.Ok coins) (k : Fin 4) (i : Fin 256) : -2 ≤ vl K.s2 k i ∧ vl K.s2 k i ≤ 2 :=
  vecUniformEta_range (C := wrapSem) (H := fipsShake) (forVec_const _ (vl K.s2) fun i => h.s2 i) k i

theorem KeyData.Ok.r0 {K : KeyData} {coins : Bytes} (h : K.Ok coins) (k : Fin 4) (i : Fin 256) : -4096 < vl K.t0 k i ∧ vl K.t0 k i ≤ 4096 := by
  unfold vl
  rw [← h.t0 k, pl_map _ _ (h.lt k)]
  exact p2r_range _

theorem KeyData.Ok.ltr {K : KeyData} {coins : Bytes} (h : K.Ok coins) : K.tr.length = 64 := by
  rw [← h.tr]; exact squeeze_length _ _ _

theorem KeyData.Ok.skOk {K : KeyData} {coins : Bytes} (h : K.Ok coins) : SkOk K.sk where
  rho := h.lrho
  key := h.lkey
  tr := h.ltr
  s1 k i := by have := h.r1 k i; show -5 ≤ vl K.s1 k i ∧ vl K.s1 k i ≤ 2; omega
  s2 k i := by have := h.r2 k i; show -5 ≤ vl K.s2 k i ∧ vl K.s2 k i ≤ 2; omega
  t0 k i := h.r0 k i

/-- Intermediate values of one signing attempt. -/
structure SignData where
  mu : Bytes
  rp : Bytes
  y : Fin 4 → List Int
  yh : Fin 4 → List Nat
  w : Fin 4 → List Int
  w1 : Fin 4 → List Int
  c : Bytes
  cp : List Int
  ch : List Nat
  cs1 : Fin 4 → List Int
  cs2 : Fin 4 → List Int
  ct0 : Fin 4 → List Int
  z : Fin 4 → List Int
  r : Fin 4 → List Int
  h : Fin 4 → List Int

/-- The values are those of a successful first attempt. -/
structure SignData.Ok (S : SignData) (K : KeyData) (m : Bytes) : Prop where
  mu : squeeze (fipsShake.shake256 (K.tr ++ m)) 0 64 = S.mu
  rp : squeeze (fipsShake.shake256 (K.key ++ List.replicate 32 0 ++ S.mu)) 0 64 = S.rp
  y : ∀ k : Fin 4, polyUniformGamma1 wrapSem fipsShake S.rp (4 * 0 + UInt16.ofNat k.1) = pl (S.y k)
  ly : ∀ k, (S.y k).length = 256
  yh : ∀ k, nt8 (S.y k) = S.yh k
  lw : ∀ k, (S.w k).length = 256
  rw_ : ∀ k, ∀ x ∈ S.w k, 0 ≤ x ∧ x < 8380417
  w : ∀ k, nt8 (S.w k) = dot (K.mat k) S.yh
  w1 : ∀ k, (S.w k).map Spec.highBits = S.w1 k
  c : squeeze (fipsShake.shake256 (S.mu ++ vecPackW1 (vl S.w1))) 0 32 = S.c
  cp : polyChallenge wrapSem fipsShake S.c = some (pl S.cp)
  lcp : S.cp.length = 256
  ch : nt8 S.cp = S.ch
  l1 : ∀ k, (S.cs1 k).length = 256
  l2 : ∀ k, (S.cs2 k).length = 256
  l0 : ∀ k, (S.ct0 k).length = 256
  r1 : ∀ k, ∀ x ∈ S.cs1 k, -4190208 ≤ x ∧ x ≤ 4190208
  r2 : ∀ k, ∀ x ∈ S.cs2 k, -4190208 ≤ x ∧ x ≤ 4190208
  r0 : ∀ k, ∀ x ∈ S.ct0 k, -95232 < x ∧ x < 95232
  cs1 : ∀ k, nt8 (S.cs1 k) = pw S.ch (K.s1h k)
  cs2 : ∀ k, nt8 (S.cs2 k) = pw S.ch (nt8 (K.s2 k))
  ct0 : ∀ k, nt8 (S.ct0 k) = pw S.ch (nt8 (K.t0 k))
  z : ∀ k, List.zipWith (fun a b => a + b) (S.y k) (S.cs1 k) = S.z k
  rz : ∀ k, ∀ x ∈ S.z k, -130994 < x ∧ x < 130994
  r : ∀ k, List.zipWith (fun a b => (a - b) % 8380417) (S.w k) (S.cs2 k) = S.r k
  rr : ∀ k, ∀ x ∈ S.r k, -95154 < Spec.lowBits x ∧ Spec.lowBits x < 95154
  h : ∀ k, List.zipWith (fun a b => Spec.makeHint (-b) ((a + b) % 8380417)) (S.r k) (S.ct0 k) = S.h k
  wt : Dilithium.wt (vl S.h) ≤ 80

/-- Signing returns the packed data. -/
theorem signature_of {K : KeyData} {coins m : Bytes} {S : SignData} (h : K.Ok coins) (g : S.Ok K m) :
    signature wrapSem fipsShake m (packSk wrapSem K.sk) = some (packSig wrapSem S.c (vl S.z) (vl S.h)) := by
  choose A hA using fun i j => exists_isNtt (pl (K.mat i j))
  have hm := fun i j => matrixExpand_bnd h.matrix i j
  have hw := wOf_eq (M := K.mat) h.lmat hA S.y S.w S.yh g.ly g.lw g.rw_ g.yh g.w
  have hy : vecUniformGamma1 wrapSem fipsShake S.rp 0 = vl S.y := funext fun k => g.y k
  have h1 : (fun (k : Fin 4) (i : Fin 256) => Spec.highBits (vl S.w k i)) = vl S.w1 := by
    funext k i
    unfold vl
    rw [← g.w1 k, pl_map _ _ (g.lw k)]
  obtain ⟨hct, hcc⟩ := polyChallenge_spec fipsShake _ _ g.cp
  have mem : ∀ (v : Fin 4 → List Int) (B : Int), (∀ k, (v k).length = 256) → (∀ k i, -B ≤ vl v k i ∧ vl v k i ≤ B) → ∀ k, ∀ x ∈ v k, -B ≤ x ∧ x ≤ B := by
    intro v B hl hb k x hx
    obtain ⟨i, hi, rfl⟩ := List.getElem_of_mem hx
    have := hb k ⟨i, by rw [← hl k]; exact hi⟩
    unfold vl pl at this
    rwa [List.getD_eq_getElem _ _ hi] at this
  have lt0 : ∀ k, (K.t0 k).length = 256 := fun k => by rw [← h.t0 k, List.length_map, h.lt]
  have e1 : Spec.cMul (pl S.cp) (vl K.s1) = vl S.cs1 := cMul_eq S.cp K.s1 S.cs1 2 (by omega) g.lcp h.ls1 g.l1 hct hcc (mem _ _ h.ls1 h.r1) g.r1
    fun k => by rw [g.cs1, g.ch, h.s1h]
  have e2 : Spec.cMul (pl S.cp) (vl K.s2) = vl S.cs2 := cMul_eq S.cp K.s2 S.cs2 2 (by omega) g.lcp h.ls2 g.l2 hct hcc (mem _ _ h.ls2 h.r2) g.r2
    fun k => by rw [g.cs2, g.ch]
  have e0 : Spec.cMul (pl S.cp) (vl K.t0) = vl S.ct0 := cMul_eq S.cp K.t0 S.ct0 4096 (by omega) g.lcp lt0 g.l0 hct hcc
    (mem _ _ lt0 fun k i => by have := h.r0 k i; omega) (fun k x hx => by have := g.r0 k x hx; omega) fun k => by rw [g.ct0, g.ch]
  have ez : Spec.zOf (vl S.y) (pl S.cp) (vl K.s1) = vl S.z := by
    funext k i
    unfold Spec.zOf
    rw [e1]
    unfold vl
    rw [← g.z k, pl_zip _ _ _ (g.ly k) (g.l1 k)]
  have er : Spec.rOf (vl S.w) (pl S.cp) (vl K.s2) = vl S.r := by
    funext k i
    unfold Spec.rOf
    rw [e2]
    unfold vl
    rw [← g.r k, pl_zip _ _ _ (g.lw k) (g.l2 k)]
  have lr : ∀ k, (S.r k).length = 256 := fun k => by rw [← g.r k, List.length_zipWith, g.lw, g.l2]; rfl
  have lz : ∀ k, (S.z k).length = 256 := fun k => by rw [← g.z k, List.length_zipWith, g.ly, g.l1]; rfl
  have eh : Spec.hOf (vl S.r) (pl S.cp) (vl K.t0) = vl S.h := by
    funext k i
    unfold Spec.hOf
    rw [e0]
    unfold vl
    rw [← g.h k, pl_zip _ _ _ (lr k) (g.l0 k)]
  have hacc : Spec.Accept (vl S.w) (vl S.y) (pl S.cp) (vl K.s1) (vl K.s2) (vl K.t0) := by
    unfold Spec.Accept
    rw [ez, er, eh, e0]
    refine ⟨fun k i => ?_, fun k i => ?_, fun k i => ?_, ?_⟩
    · rw [abs_lt]
      exact pl_all (fun x => -130994 < x ∧ x < 130994) (S.z k) (lz k) (g.rz k) i
    · rw [abs_lt]
      exact pl_all (fun x => -95154 < Spec.lowBits x ∧ Spec.lowBits x < 95154) (S.r k) (lr k) (g.rr k) i
    · rw [abs_lt]
      exact pl_all (fun x => -95232 < x ∧ x < 95232) (S.ct0 k) (g.l0 k) (g.r0 k) i
    · rw [ones_eq_wt]
      · exact g.wt
      · intro k i
        have := congrFun (congrFun eh k) i
        rw [← this]
        unfold Spec.hOf Spec.makeHint
        split_ifs
        · exact Or.inr rfl
        · exact Or.inl rfl
  have hs := (signAttempt_eq (C := wrapSem) (H := fipsShake) (mu := S.mu) (rhoprime := S.rp) (mat := fun i j => pl (K.mat i j)) (A := A)
    (s1 := vl K.s1) (s2 := vl K.s2) (t0 := vl K.t0) (nonce := 0) (cp := pl S.cp) (c := S.c) hm hA (fun k i => h.r1 k i) (fun k i => h.r2 k i)
    (fun k i => by have := h.r0 k i; omega) hy hw (by rw [h1]; exact g.c) g.cp).1 hacc
  rw [ez, er, eh] at hs
  unfold signature signCtx
  rw [unpackSk_packSk _ h.skOk]
  unfold KeyData.sk
  dsimp only
  rw [h.matrix, show shake256 fipsShake 64 (K.tr ++ m) = S.mu from g.mu, show shake256 fipsShake 64 (K.key ++ List.replicate 32 0 ++ S.mu) = S.rp from g.rp]
  simp only [Option.bind_eq_bind, Option.bind_some, Option.pure_def]
  rw [signLoop, hs]
  rfl

end Verif.Dilithium.Eval
