import Verif.Dilithium.HintLemmas
import Verif.Dilithium.Sign

/-! # `packing.c`: keys and signatures -/

namespace Verif.Dilithium

variable {C : CSem}

theorem flat4 (f : Fin 4 → Bytes) : (List.finRange 4).flatMap f = f 0 ++ (f 1 ++ (f 2 ++ f 3)) := by
  have e : List.finRange 4 = [0, 1, 2, 3] := by decide
  rw [e]
  simp [List.flatMap_cons]

theorem flat4_len (f : Fin 4 → Bytes) (n : Nat) (hf : ∀ i, (f i).length = n) : ((List.finRange 4).flatMap f).length = 4 * n := by
  rw [flat4]; simp only [List.length_append, hf]; omega

theorem drop_pre {A B : Bytes} {k : Nat} (h : k = A.length) : (A ++ B).drop k = B := by
  subst h; exact List.drop_left

theorem drop4 (f : Fin 4 → Bytes) (n : Nat) (hf : ∀ i, (f i).length = n) (pre rest : Bytes) (i : Fin 4) (k : Nat) (hk : k = pre.length + i.1 * n) :
    ∃ r, (pre ++ (List.finRange 4).flatMap f ++ rest).drop k = f i ++ r := by
  rw [flat4]
  match i with
  | 0 =>
    refine ⟨f 1 ++ (f 2 ++ f 3) ++ rest, ?_⟩
    rw [show pre ++ (f 0 ++ (f 1 ++ (f 2 ++ f 3))) ++ rest = pre ++ (f 0 ++ (f 1 ++ (f 2 ++ f 3) ++ rest)) by simp only [List.append_assoc]]
    exact drop_pre (by simpa using hk)
  | 1 =>
    refine ⟨f 2 ++ f 3 ++ rest, ?_⟩
    rw [show pre ++ (f 0 ++ (f 1 ++ (f 2 ++ f 3))) ++ rest = (pre ++ f 0) ++ (f 1 ++ (f 2 ++ f 3 ++ rest)) by simp only [List.append_assoc]]
    exact drop_pre (by rw [List.length_append, hf]; have : ((1 : Fin 4) : Nat) = 1 := rfl; rw [this] at hk; omega)
  | 2 =>
    refine ⟨f 3 ++ rest, ?_⟩
    rw [show pre ++ (f 0 ++ (f 1 ++ (f 2 ++ f 3))) ++ rest = (pre ++ f 0 ++ f 1) ++ (f 2 ++ (f 3 ++ rest)) by simp only [List.append_assoc]]
    exact drop_pre (by simp only [List.length_append, hf]; have : ((2 : Fin 4) : Nat) = 2 := rfl; rw [this] at hk; omega)
  | 3 =>
    refine ⟨rest, ?_⟩
    rw [show pre ++ (f 0 ++ (f 1 ++ (f 2 ++ f 3))) ++ rest = (pre ++ f 0 ++ f 1 ++ f 2) ++ (f 3 ++ rest) by simp only [List.append_assoc]]
    exact drop_pre (by simp only [List.length_append, hf]; have : ((3 : Fin 4) : Nat) = 3 := rfl; rw [this] at hk; omega)

/-- Four consecutive slices make up one slice. -/
theorem slices4 (b : Bytes) (off n : Nat) (f : Fin 4 → Bytes) (hf : ∀ i : Fin 4, f i = (b.drop (off + i.1 * n)).take n) :
    (List.finRange 4).flatMap f = (b.drop off).take (4 * n) := by
  rw [flat4, hf 0, hf 1, hf 2, hf 3]
  have e0 : ((0 : Fin 4) : Nat) = 0 := rfl
  have e1 : ((1 : Fin 4) : Nat) = 1 := rfl
  have e2 : ((2 : Fin 4) : Nat) = 2 := rfl
  have e3 : ((3 : Fin 4) : Nat) = 3 := rfl
  rw [e0, e1, e2, e3]
  have key : ∀ (d : Bytes) (m : Nat), d.take n ++ (d.drop n).take m = d.take (n + m) := by
    intro d m; rw [List.take_add]
  have hd : ∀ k, b.drop (off + k * n + n) = (b.drop (off + k * n)).drop n := fun k => by rw [List.drop_drop]
  rw [show off + 3 * n = off + 2 * n + n by omega, hd 2, key, show off + 2 * n = off + 1 * n + n by omega, hd 1, key,
    show off + 1 * n = off + 0 * n + n by omega, hd 0, key, Nat.zero_mul, Nat.add_zero]
  congr 1
  omega

/-! ## Public keys -/

theorem unpackPk_packPk (rho : Bytes) (t1 : Vec) (hr : rho.length = 32) (ht : ∀ k i, 0 ≤ t1 k i ∧ t1 k i < 1024) :
    unpackPk C (packPk rho t1) = (rho, t1) := by
  unfold unpackPk packPk
  rw [List.take_of_length_le (l := rho) (by omega)]
  refine Prod.ext ?_ ?_
  · simp only; rw [← hr]; exact List.take_left
  · funext i
    obtain ⟨r, e⟩ := drop4 (fun i => polyt1Pack (t1 i)) 320 (fun i => polyt1Pack_len _) rho [] i (32 + i.1 * 320) (by omega)
    rw [List.append_nil] at e
    simp only [e]
    exact polyt1_un_pk _ _ (ht i)

theorem packPk_len (rho : Bytes) (t1 : Vec) (hr : rho.length = 32) : (packPk rho t1).length = PKLEN := by
  unfold packPk
  rw [List.length_append, flat4_len _ 320 (fun i => polyt1Pack_len _), List.length_take, hr]
  rfl

theorem packPk_unpackPk (pk : Bytes) (h : pk.length = PKLEN) : packPk (unpackPk C pk).1 (unpackPk C pk).2 = pk := by
  unfold unpackPk packPk
  have h' : pk.length = 1312 := h
  rw [slices4 pk 32 320 _ (fun i => polyt1_pk_un _ (by rw [List.length_drop]; omega))]
  simp only
  rw [List.take_of_length_le (by rw [List.length_take]; omega), List.take_of_length_le (l := pk.drop 32) (by rw [List.length_drop]; omega),
    List.take_append_drop]

/-! ## Secret keys -/

/-- The ranges of the fields of a secret key. -/
structure SkOk (f : SkFields) : Prop where
  rho : f.rho.length = 32
  key : f.key.length = 32
  tr : f.tr.length = 64
  s1 : ∀ k i, -5 ≤ f.s1 k i ∧ f.s1 k i ≤ 2
  s2 : ∀ k i, -5 ≤ f.s2 k i ∧ f.s2 k i ≤ 2
  t0 : ∀ k i, -4096 < f.t0 k i ∧ f.t0 k i ≤ 4096

theorem packSk_len (f : SkFields) (ok : SkOk f) : (packSk C f).length = SKLEN := by
  unfold packSk
  simp only [List.length_append, List.length_take, ok.rho, ok.key, ok.tr]
  rw [flat4_len _ 96 (fun i => polyetaPack_len _), flat4_len _ 96 (fun i => polyetaPack_len _), flat4_len _ 416 (fun i => polyt0Pack_len _)]
  rfl

theorem unpackSk_packSk (f : SkFields) (ok : SkOk f) : unpackSk C (packSk C f) = f := by
  obtain ⟨rho, tr, key, t0, s1, s2⟩ := f
  obtain ⟨hr, hk, ht, h1, h2, h0⟩ := ok
  simp only at *
  unfold unpackSk packSk
  simp only
  rw [List.take_of_length_le (l := rho) (by omega), List.take_of_length_le (l := key) (by omega), List.take_of_length_le (l := tr) (by omega)]
  have l1 := flat4_len (fun i => polyetaPack C (s1 i)) 96 (fun i => polyetaPack_len _)
  have l2 := flat4_len (fun i => polyetaPack C (s2 i)) 96 (fun i => polyetaPack_len _)
  congr 1
  · simp only [List.append_assoc]; rw [← hr]; exact List.take_left
  · simp only [List.append_assoc]
    rw [← List.append_assoc rho, drop_pre (by rw [List.length_append, hr, hk])]
    rw [← ht]; exact List.take_left
  · simp only [List.append_assoc]
    rw [drop_pre hr.symm]
    rw [← hk]; exact List.take_left
  · funext i
    obtain ⟨r, e⟩ := drop4 (fun i => polyt0Pack C (t0 i)) 416 (fun i => polyt0Pack_len _)
      (rho ++ key ++ tr ++ ((List.finRange 4).flatMap fun i => polyetaPack C (s1 i)) ++ ((List.finRange 4).flatMap fun i => polyetaPack C (s2 i))) [] i
      (896 + i.1 * 416) (by simp only [List.length_append, hr, hk, ht, l1, l2])
    rw [List.append_nil] at e
    rw [e]
    exact polyt0_un_pk _ _ (h0 i)
  · funext i
    obtain ⟨r, e⟩ := drop4 (fun i => polyetaPack C (s1 i)) 96 (fun i => polyetaPack_len _) (rho ++ key ++ tr)
      (((List.finRange 4).flatMap fun i => polyetaPack C (s2 i)) ++ ((List.finRange 4).flatMap fun i => polyt0Pack C (t0 i))) i
      (128 + i.1 * 96) (by simp only [List.length_append, hr, hk, ht])
    rw [← List.append_assoc] at e
    rw [e]
    exact polyeta_un_pk _ _ (h1 i)
  · funext i
    obtain ⟨r, e⟩ := drop4 (fun i => polyetaPack C (s2 i)) 96 (fun i => polyetaPack_len _)
      (rho ++ key ++ tr ++ ((List.finRange 4).flatMap fun i => polyetaPack C (s1 i))) ((List.finRange 4).flatMap fun i => polyt0Pack C (t0 i)) i
      (512 + i.1 * 96) (by simp only [List.length_append, hr, hk, ht, l1])
    rw [e]
    exact polyeta_un_pk _ _ (h2 i)

theorem packSk_unpackSk (sk : Bytes) (h : sk.length = SKLEN) : packSk C (unpackSk C sk) = sk := by
  have h' : sk.length = 2560 := h
  unfold unpackSk packSk
  simp only
  rw [slices4 sk 128 96 _ (fun i => polyeta_pk_un _ (by rw [List.length_drop]; omega)),
    slices4 sk 512 96 _ (fun i => polyeta_pk_un _ (by rw [List.length_drop]; omega)),
    slices4 sk 896 416 _ (fun i => polyt0_pk_un _ (by rw [List.length_drop]; omega))]
  rw [List.take_take, List.take_take, List.take_take, Nat.min_self, Nat.min_self]
  have key : ∀ a n : Nat, sk.take a ++ (sk.drop a).take n = sk.take (a + n) := fun a n => by rw [List.take_add]
  rw [key, key, key, key, key]
  exact List.take_of_length_le (by omega)

/-! ## Signatures -/

theorem packSig_len (c : Bytes) (z h : Vec) (hc : c.length = 32) : (packSig C c z h).length = SIGLEN := by
  unfold packSig
  simp only [List.length_append, List.length_take, hc, packHint_len]
  rw [flat4_len _ 576 (fun i => polyzPack_len _)]
  rfl

theorem unpackSig_packSig (c : Bytes) (z h : Vec) (hc : c.length = 32) (hz : ∀ k i, -GAMMA1 < z k i ∧ z k i ≤ GAMMA1)
    (hh : ∀ k i, h k i = 0 ∨ h k i = 1) (hw : wt h ≤ 80) : unpackSig C (packSig C c z h) = some (c, z, h) := by
  unfold unpackSig packSig
  rw [List.take_of_length_le (l := c) (by omega)]
  have l := flat4_len (fun i => polyzPack C (z i)) 576 (fun i => polyzPack_len _)
  rw [drop_pre (by rw [List.length_append, hc, l]), unpackHint_packHint h hh hw, Option.map_some]
  refine congrArg some (Prod.ext ?_ (Prod.ext ?_ rfl))
  · show List.take 32 _ = c
    rw [List.append_assoc, ← hc]; exact List.take_left
  · funext i
    show polyzUnpack C (List.drop (32 + i.1 * 576) _) = z i
    obtain ⟨r, e⟩ := drop4 (fun i => polyzPack C (z i)) 576 (fun i => polyzPack_len _) c (packHint h) i (32 + i.1 * 576) (by rw [hc])
    rw [e]
    exact polyz_un_pk _ _ (hz i)

/-- Every accepted signature string is the encoding of what it decodes to. -/
theorem packSig_unpackSig (sig c : Bytes) (z h : Vec) (hs : sig.length = SIGLEN) (hu : unpackSig C sig = some (c, z, h)) :
    packSig C c z h = sig ∧ c.length = 32 ∧ (∀ k i, -GAMMA1 < z k i ∧ z k i ≤ GAMMA1) ∧ (∀ k i, h k i = 0 ∨ h k i = 1) ∧ wt h ≤ 80 := by
  have hs' : sig.length = 2420 := hs
  unfold unpackSig at hu
  simp only [Option.map_eq_some_iff, Prod.mk.injEq] at hu
  obtain ⟨h', hh, rfl, rfl, rfl⟩ := hu
  have hb : (sig.drop 2336).length = 84 := by rw [List.length_drop]; omega
  have ok := (unpackHint_some (C := C) _ hb h').1 hh
  obtain ⟨e, hw⟩ := packHint_of_ok _ hb h' ok
  refine ⟨?_, by rw [List.length_take]; omega, fun k i => polyzUnpack_range _ i, ?_, hw⟩
  · unfold packSig
    rw [e, slices4 sig 32 576 _ (fun i => polyz_pk_un _ (by rw [List.length_drop]; omega)), List.take_take, Nat.min_self, ← List.take_add,
      List.take_append_drop]
  · intro k i
    have hi : ∀ l, ind l i = 0 ∨ ind l i = 1 := by intro l; unfold ind; split <;> simp
    match k with
    | 0 => rw [ok.h0]; exact hi _
    | 1 => rw [ok.h1]; exact hi _
    | 2 => rw [ok.h2]; exact hi _
    | 3 => rw [ok.h3]; exact hi _

end Verif.Dilithium
