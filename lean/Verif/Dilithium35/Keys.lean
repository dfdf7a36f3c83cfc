import Verif.Dilithium35.Rounding
import Verif.Dilithium35.Hint

/-! # `packing.c`: keys and signatures of dilithium3 and dilithium5 -/

namespace Verif.Dilithium35

open Verif.Dilithium (CSem Poly polyt1Pack polyt1Unpack polyt1Pack_len polyt1_un_pk polyt1_pk_un polyt0Pack polyt0Pack_len polyt0_un_pk polyt0_pk_un)

variable {C : CSem} {md : Mode}

theorem flat_len (n : Nat) (f : Fin n → Bytes) (k : Nat) (hf : ∀ i, (f i).length = k) : ((List.finRange n).flatMap f).length = n * k := by
  rw [List.length_flatMap]
  have : (List.finRange n).map (fun i => (f i).length) = List.replicate n k := by
    rw [List.eq_replicate_iff]
    refine ⟨by simp, fun x hx => ?_⟩
    rw [List.mem_map] at hx
    obtain ⟨i, -, rfl⟩ := hx
    exact hf i
  rw [this, List.sum_replicate_nat]

theorem flat_succ (n : Nat) (f : Fin (n + 1) → Bytes) : (List.finRange (n + 1)).flatMap f = f 0 ++ (List.finRange n).flatMap fun i => f i.succ := by
  rw [List.finRange_succ, List.flatMap_cons, List.flatMap_map]

theorem drop_flat (n : Nat) (f : Fin n → Bytes) (k : Nat) (hf : ∀ i, (f i).length = k) (rest : Bytes) (i : Fin n) :
    ∃ r, ((List.finRange n).flatMap f ++ rest).drop (i.1 * k) = f i ++ r := by
  induction n with
  | zero => exact i.elim0
  | succ n ih =>
    rw [flat_succ, List.append_assoc]
    refine Fin.cases ?_ (fun j => ?_) i
    · exact ⟨(List.finRange n).flatMap (fun i => f i.succ) ++ rest, by simp⟩
    · obtain ⟨r, e⟩ := ih (fun i => f i.succ) (fun i => hf _) j
      refine ⟨r, ?_⟩
      rw [← e, show (j.succ : Nat) * k = k + j.1 * k by rw [Fin.val_succ, Nat.succ_mul, Nat.add_comm], ← List.drop_drop]
      congr 1
      rw [← hf 0]
      exact List.drop_left

theorem drop_pre {A B : Bytes} {k : Nat} (h : k = A.length) : (A ++ B).drop k = B := by
  subst h; exact List.drop_left

theorem drop_n (n : Nat) (f : Fin n → Bytes) (k : Nat) (hf : ∀ i, (f i).length = k) (pre rest : Bytes) (i : Fin n) (off : Nat) (hk : off = pre.length + i.1 * k) :
    ∃ r, (pre ++ (List.finRange n).flatMap f ++ rest).drop off = f i ++ r := by
  obtain ⟨r, e⟩ := drop_flat n f k hf rest i
  refine ⟨r, ?_⟩
  rw [hk, ← List.drop_drop, List.append_assoc, List.drop_left, e]

/-- Consecutive slices make up one slice. -/
theorem slices (n : Nat) (b : Bytes) (off k : Nat) (f : Fin n → Bytes) (hf : ∀ i : Fin n, f i = (b.drop (off + i.1 * k)).take k) :
    (List.finRange n).flatMap f = (b.drop off).take (n * k) := by
  induction n generalizing off with
  | zero => simp
  | succ n ih =>
    rw [flat_succ, hf 0, ih (off + k) (fun i => f i.succ) (fun i => by rw [hf, Fin.val_succ, Nat.succ_mul]; congr 2; omega)]
    have e : b.drop (off + k) = (b.drop off).drop k := by rw [List.drop_drop]
    rw [e, show off + ((0 : Fin (n + 1)) : Nat) * k = off by simp, Nat.succ_mul, Nat.add_comm (n * k) k]
    rw [List.take_add]

/-! ## Public keys -/

theorem unpackPk_packPk (rho : Bytes) (t1 : Vec md.K) (hr : rho.length = 32) (ht : ∀ k i, 0 ≤ t1 k i ∧ t1 k i < 1024) :
    unpackPk md C (packPk md rho t1) = (rho, t1) := by
  unfold unpackPk packPk
  rw [List.take_of_length_le (l := rho) (by omega)]
  refine Prod.ext ?_ ?_
  · simp only; rw [← hr]; exact List.take_left
  · funext i
    obtain ⟨r, e⟩ := drop_n md.K (fun i => polyt1Pack (t1 i)) 320 (fun i => polyt1Pack_len _) rho [] i (32 + i.1 * 320) (by omega)
    rw [List.append_nil] at e
    simp only [e]
    exact polyt1_un_pk _ _ (ht i)

theorem packPk_len (rho : Bytes) (t1 : Vec md.K) (hr : rho.length = 32) : (packPk md rho t1).length = md.PKLEN := by
  unfold packPk
  rw [List.length_append, flat_len md.K _ 320 (fun i => polyt1Pack_len _), List.length_take, hr]
  rfl

theorem idx_le {n k : Nat} (i : Fin n) : i.1 * k + k ≤ n * k := by
  have := Nat.mul_le_mul_right k (show i.1 + 1 ≤ n from i.2)
  rw [Nat.succ_mul] at this
  exact this

theorem packPk_unpackPk (pk : Bytes) (h : pk.length = md.PKLEN) : packPk md (unpackPk md C pk).1 (unpackPk md C pk).2 = pk := by
  unfold unpackPk packPk
  have h' : pk.length = 32 + md.K * 320 := h
  rw [slices md.K pk 32 320 _ (fun i => polyt1_pk_un _ (by rw [List.length_drop]; have := idx_le (k := 320) i; omega))]
  simp only
  rw [List.take_of_length_le (by rw [List.length_take]; omega), List.take_of_length_le (l := pk.drop 32) (by rw [List.length_drop]; omega),
    List.take_append_drop]

/-! ## Secret keys -/

/-- The ranges of the fields of a secret key. -/
structure SkOk (f : SkFields md) : Prop where
  rho : f.rho.length = 32
  key : f.key.length = 32
  tr : f.tr.length = 64
  s1 : ∀ k i, md.etaMin ≤ f.s1 k i ∧ f.s1 k i ≤ md.ETA
  s2 : ∀ k i, md.etaMin ≤ f.s2 k i ∧ f.s2 k i ≤ md.ETA
  t0 : ∀ k i, -4096 < f.t0 k i ∧ f.t0 k i ≤ 4096

theorem packSk_len (f : SkFields md) (ok : SkOk f) : (packSk md C f).length = md.SKLEN := by
  unfold packSk
  simp only [List.length_append, List.length_take, ok.rho, ok.key, ok.tr]
  rw [flat_len md.L _ md.ETABYTES (fun i => polyetaPack_len _ _), flat_len md.K _ md.ETABYTES (fun i => polyetaPack_len _ _),
    flat_len md.K _ 416 (fun i => polyt0Pack_len _)]
  unfold Mode.SKLEN
  omega

theorem unpackSk_packSk (f : SkFields md) (ok : SkOk f) : unpackSk md C (packSk md C f) = f := by
  obtain ⟨rho, tr, key, t0, s1, s2⟩ := f
  obtain ⟨hr, hk, ht, h1, h2, h0⟩ := ok
  simp only at *
  unfold unpackSk packSk
  simp only
  rw [List.take_of_length_le (l := rho) (by omega), List.take_of_length_le (l := key) (by omega), List.take_of_length_le (l := tr) (by omega)]
  have l1 := flat_len md.L (fun i => polyetaPack md C (s1 i)) md.ETABYTES (fun i => polyetaPack_len _ _)
  have l2 := flat_len md.K (fun i => polyetaPack md C (s2 i)) md.ETABYTES (fun i => polyetaPack_len _ _)
  congr 1
  · simp only [List.append_assoc]; rw [← hr]; exact List.take_left
  · simp only [List.append_assoc]
    rw [← List.append_assoc rho, drop_pre (by rw [List.length_append, hr, hk])]
    rw [← ht]; exact List.take_left
  · simp only [List.append_assoc]
    rw [drop_pre hr.symm]
    rw [← hk]; exact List.take_left
  · funext i
    obtain ⟨r, e⟩ := drop_n md.K (fun i => polyt0Pack C (t0 i)) 416 (fun i => polyt0Pack_len _)
      (rho ++ key ++ tr ++ ((List.finRange md.L).flatMap fun i => polyetaPack md C (s1 i)) ++ ((List.finRange md.K).flatMap fun i => polyetaPack md C (s2 i))) [] i
      (128 + md.L * md.ETABYTES + md.K * md.ETABYTES + i.1 * 416) (by simp only [List.length_append, hr, hk, ht, l1, l2])
    rw [List.append_nil] at e
    rw [e]
    exact polyt0_un_pk _ _ (h0 i)
  · funext i
    obtain ⟨r, e⟩ := drop_n md.L (fun i => polyetaPack md C (s1 i)) md.ETABYTES (fun i => polyetaPack_len _ _) (rho ++ key ++ tr)
      (((List.finRange md.K).flatMap fun i => polyetaPack md C (s2 i)) ++ ((List.finRange md.K).flatMap fun i => polyt0Pack C (t0 i))) i
      (128 + i.1 * md.ETABYTES) (by simp only [List.length_append, hr, hk, ht])
    rw [← List.append_assoc] at e
    rw [e]
    exact polyeta_un_pk _ _ _ (h1 i)
  · funext i
    obtain ⟨r, e⟩ := drop_n md.K (fun i => polyetaPack md C (s2 i)) md.ETABYTES (fun i => polyetaPack_len _ _)
      (rho ++ key ++ tr ++ ((List.finRange md.L).flatMap fun i => polyetaPack md C (s1 i))) ((List.finRange md.K).flatMap fun i => polyt0Pack C (t0 i)) i
      (128 + md.L * md.ETABYTES + i.1 * md.ETABYTES) (by simp only [List.length_append, hr, hk, ht, l1])
    rw [e]
    exact polyeta_un_pk _ _ _ (h2 i)

theorem packSk_unpackSk (sk : Bytes) (h : sk.length = md.SKLEN) : packSk md C (unpackSk md C sk) = sk := by
  have h' : sk.length = 2 * 32 + 64 + md.L * md.ETABYTES + md.K * md.ETABYTES + md.K * 416 := h
  unfold unpackSk packSk
  simp only
  rw [slices md.L sk 128 md.ETABYTES _ (fun i => polyeta_pk_un _ _ (by rw [List.length_drop]; have := idx_le (k := md.ETABYTES) i; omega)),
    slices md.K sk (128 + md.L * md.ETABYTES) md.ETABYTES _ (fun i => polyeta_pk_un _ _ (by rw [List.length_drop]; have := idx_le (k := md.ETABYTES) i; omega)),
    slices md.K sk (128 + md.L * md.ETABYTES + md.K * md.ETABYTES) 416 _ (fun i => polyt0_pk_un _ (by rw [List.length_drop]; have := idx_le (k := 416) i; omega))]
  rw [List.take_take, List.take_take, List.take_take, Nat.min_self, Nat.min_self]
  have key : ∀ a n : Nat, sk.take a ++ (sk.drop a).take n = sk.take (a + n) := fun a n => by rw [List.take_add]
  rw [key, key, key, key, key]
  exact List.take_of_length_le (by omega)

/-! ## Signatures -/

theorem omega_le (md : Mode) : md.OMEGA ≤ 255 := by cases md <;> decide

theorem packSig_len (c : Bytes) (z : Vec md.L) (h : Vec md.K) (hc : c.length = md.CTILDE) : (packSig md C c z h).length = md.SIGLEN := by
  unfold packSig
  simp only [List.length_append, List.length_take, hc, packHint_len]
  rw [flat_len md.L _ 640 (fun i => polyzPack_len _), Nat.min_self]

theorem unpackSig_packSig (c : Bytes) (z : Vec md.L) (h : Vec md.K) (hc : c.length = md.CTILDE) (hz : ∀ k i, -GAMMA1 < z k i ∧ z k i ≤ GAMMA1)
    (hh : ∀ k i, h k i = 0 ∨ h k i = 1) (hw : wt h ≤ md.OMEGA) : unpackSig md C (packSig md C c z h) = some (c, z, h) := by
  unfold unpackSig packSig
  rw [List.take_of_length_le (l := c) (by omega)]
  have l := flat_len md.L (fun i => polyzPack C (z i)) 640 (fun i => polyzPack_len _)
  rw [drop_pre (by rw [List.length_append, hc, l]), unpackHint_packHint (omega_le md) h hh hw, Option.map_some]
  refine congrArg some (Prod.ext ?_ (Prod.ext ?_ rfl))
  · show List.take md.CTILDE _ = c
    rw [List.append_assoc, ← hc]; exact List.take_left
  · funext i
    show polyzUnpack C (List.drop (md.CTILDE + i.1 * 640) _) = z i
    obtain ⟨r, e⟩ := drop_n md.L (fun i => polyzPack C (z i)) 640 (fun i => polyzPack_len _) c (packHint md.K md.OMEGA h) i (md.CTILDE + i.1 * 640) (by rw [hc])
    rw [e]
    exact polyz_un_pk _ _ (hz i)

/-- Every accepted signature string is the encoding of what it decodes to. -/
theorem packSig_unpackSig (sig c : Bytes) (z : Vec md.L) (h : Vec md.K) (hs : sig.length = md.SIGLEN) (hu : unpackSig md C sig = some (c, z, h)) :
    packSig md C c z h = sig ∧ c.length = md.CTILDE ∧ (∀ k i, -GAMMA1 < z k i ∧ z k i ≤ GAMMA1) ∧ (∀ k i, h k i = 0 ∨ h k i = 1) ∧ wt h ≤ md.OMEGA := by
  have hs' : sig.length = md.CTILDE + md.L * 640 + (md.OMEGA + md.K) := hs
  unfold unpackSig at hu
  simp only [Option.map_eq_some_iff, Prod.mk.injEq] at hu
  obtain ⟨h', hh, rfl, rfl, rfl⟩ := hu
  have hb : (sig.drop (md.CTILDE + md.L * 640)).length = md.OMEGA + md.K := by rw [List.length_drop]; omega
  have ok := (unpackHint_some (C := C) _ hb h').1 hh
  obtain ⟨e, hw⟩ := packHint_of_ok _ hb h' ok
  refine ⟨?_, by rw [List.length_take]; omega, fun k i => polyzUnpack_range _ i, ok.bin, hw⟩
  unfold packSig
  rw [e, slices md.L sig md.CTILDE 640 _ (fun i => polyz_pk_un _ (by rw [List.length_drop]; have := idx_le (k := 640) i; omega)), List.take_take, Nat.min_self,
    ← List.take_add, List.take_append_drop]

end Verif.Dilithium35
