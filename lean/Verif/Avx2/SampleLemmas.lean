import Verif.Avx2.Sign
import Verif.Avx2.PackLemmas
import Verif.Dilithium.SignCorrect

/-! # The four-way samplers return what the portable samplers return -/

namespace Verif.Avx2

open Verif.Dilithium

variable {C : CSem}


theorem ti_ofP (p : Poly) (h : ∀ i, -2147483648 ≤ p i ∧ p i ≤ 2147483647) : ti (ofP p) = p := by
  funext i
  have := h i
  unfold ti ofP
  rw [BitVec.toInt_ofInt]
  unfold Int.bmod
  dsimp only
  split <;> omega

/-- What the loop needs to know: `A k pos` are the accepted candidates of the first `pos` bytes of stream `k`. -/
structure LockSpec (rej : Fin 4 → Nat → Nat → List Int) (blk : Nat) (A : Fin 4 → Nat → List Int) (P : Nat → Prop) : Prop where
  blk_pos : 0 < blk
  next : ∀ pos, P pos → P (pos + blk)
  app : ∀ k pos, P pos → ∀ len, rej k pos len = ((A k (pos + blk)).drop (A k pos).length).take len
  pre : ∀ k pos, P pos → A k pos <+: A k (pos + blk)

theorem take_next {α : Type} (L M : List α) (h : L <+: M) (ctr : Nat) (hc : (L.take 256).length = ctr) :
    L.take 256 ++ ((M.drop L.length).take (256 - ctr)) = M.take 256 := by
  obtain ⟨t, rfl⟩ := h
  rw [List.drop_left, take_extend, hc]

theorem lock_step {rej : Fin 4 → Nat → Nat → List Int} {blk : Nat} {A : Fin 4 → Nat → List Int} {P : Nat → Prop} (S : LockSpec rej blk A P)
    (U : Nat → W32) (st : Fin 4 → (Nat → W32) × Nat) (pos : Nat) (hP : P pos) (H : ∀ k, Holds U (st k).1 (st k).2 ((A k pos).take 256)) (k : Fin 4) :
    Holds U (writeAt (st k).1 (st k).2 ((rej k pos (256 - (st k).2)).map (BitVec.ofInt 32))) ((st k).2 + (rej k pos (256 - (st k).2)).length) ((A k (pos + blk)).take 256) := by
  rw [← take_next _ _ (S.pre k pos hP) _ (H k).len, S.app k pos hP]
  refine writeAt_holds _ _ _ _ _ ?_ (H k)
  have h1 := (H k).len
  have h2 := take_length_le (A k pos) 256
  have h3 := take_length_le ((A k (pos + blk)).drop (A k pos).length) (256 - (st k).2)
  omega

theorem lock_correct {rej : Fin 4 → Nat → Nat → List Int} {blk : Nat} {A : Fin 4 → Nat → List Int} {P : Nat → Prop} (S : LockSpec rej blk A P)
    (U : Nat → W32) (st : Fin 4 → (Nat → W32) × Nat) (pos : Nat) (r : Fin 4 → (Nat → W32) × Nat) (h : lockLoop rej blk st pos = some r) :
    P pos → (∀ k, Holds U (st k).1 (st k).2 ((A k pos).take 256)) → ∃ p, ∀ k, Holds U (r k).1 256 ((A k p).take 256) := by
  refine lockLoop.partial_correctness rej blk (motive := fun st pos r => P pos → (∀ k, Holds U (st k).1 (st k).2 ((A k pos).take 256)) →
    ∃ p, ∀ k, Holds U (r k).1 256 ((A k p).take 256)) ?_ st pos r h
  intro f ih st pos r h hP H
  split at h
  · exact ih _ _ _ h (S.next _ hP) (lock_step S U st pos hP H)
  · rename_i hn
    cases h
    refine ⟨pos, fun k => ?_⟩
    have h1 : (st k).2 ≤ 256 := by rw [← (H k).len]; exact take_length_le _ _
    have h2 : ¬ (st k).2 < 256 := by
      match k with
      | 0 => tauto
      | 1 => tauto
      | 2 => tauto
      | 3 => tauto
    have : (st k).2 = 256 := by omega
    have hk := H k
    rw [this] at hk
    exact hk

theorem lock_total {rej : Fin 4 → Nat → Nat → List Int} {blk : Nat} {A : Fin 4 → Nat → List Int} {P : Nat → Prop} (S : LockSpec rej blk A P)
    (U : Nat → W32) (hA : ∃ m, ∀ k p, P p → m ≤ p → 256 ≤ (A k p).length) (st : Fin 4 → (Nat → W32) × Nat) (pos : Nat) (hP : P pos)
    (H : ∀ k, Holds U (st k).1 (st k).2 ((A k pos).take 256)) : ∃ r, lockLoop rej blk st pos = some r := by
  obtain ⟨m, hm⟩ := hA
  have key : ∀ d, ∀ (st : Fin 4 → (Nat → W32) × Nat) (pos : Nat), m ≤ pos + d → P pos → (∀ k, Holds U (st k).1 (st k).2 ((A k pos).take 256)) →
      ∃ r, lockLoop rej blk st pos = some r := by
    intro d
    induction d using Nat.strongRecOn with
    | ind d ih =>
      intro st pos hd hP H
      rw [lockLoop]
      split
      · rename_i hlt
        have hdn : ¬ m ≤ pos := by
          intro hmp
          have hk : ∀ k, (st k).2 = 256 := fun k => by
            have := hm k pos hP hmp
            rw [← (H k).len, List.length_take]
            omega
          rw [hk 0, hk 1, hk 2, hk 3] at hlt
          omega
        have := S.blk_pos
        exact ih (d - blk) (by omega) _ _ (by omega) (S.next _ hP) (lock_step S U st pos hP H)
      · exact ⟨_, rfl⟩
  exact key m st pos (by omega) hP H

theorem forVec_intro {α : Type} (f : Fin 4 → Option α) (v : Fin 4 → α) (h : ∀ i, f i = some (v i)) : forVec f = some v := by
  unfold forVec
  rw [h 0, h 1, h 2, h 3]
  simp only [Option.bind_eq_bind, Option.bind_some, Option.pure_def, Option.some.injEq]
  funext i
  match i with
  | 0 => rfl
  | 1 => rfl
  | 2 => rfl
  | 3 => rfl

theorem holds_read (U r : Nat → W32) (L : List Int) (p : Poly) (H : Holds U r 256 L) (e : L = List.ofFn p) : readPoly r = ofP p := by
  subst e
  funext i
  have := H.get i.1 (by rw [enc_length, List.length_ofFn]; exact i.2)
  show r i.1 = BitVec.ofInt 32 (p i)
  rw [this]
  unfold enc
  rw [List.getElem_map, List.getElem_ofFn]

theorem list_eq_ofFn (L : List Int) (h : L.length = 256) : ∃ p : Poly, L = List.ofFn p := by
  refine ⟨fun i => L[i.1], ?_⟩
  apply List.ext_getElem
  · rw [List.length_ofFn, h]
  · intro j h1 h2
    rw [List.getElem_ofFn]

theorem prefix_append_drop {α : Type} (L t : List α) : (L ++ t).drop L.length = t := List.drop_left

theorem uniform_lock (s : Fin 4 → Nat → UInt8) : LockSpec (fun k pos len => rejUniform len (squeeze (s k) pos 168)) 168
    (fun k pos => accUniform (s k) 0 (pos / 3)) (fun pos => pos % 3 = 0) where
  blk_pos := by omega
  next pos h := by omega
  app k pos h len := by
    obtain ⟨n, rfl⟩ : ∃ n, pos = 3 * n := ⟨pos / 3, by omega⟩
    rw [show (3 * n + 168) / 3 = n + 56 by omega, show 3 * n / 3 = n by omega, accUniform_append, prefix_append_drop, show 168 = 3 * 56 by rfl, rejUniform_squeeze]
  pre k pos h := by
    rw [show (pos + 168) / 3 = pos / 3 + 56 by omega, accUniform_append]
    exact List.prefix_append _ _

theorem eta_lock (s : Fin 4 → Nat → UInt8) : LockSpec (fun k pos len => rejEta len (squeeze (s k) pos 136)) 136
    (fun k pos => accEta (s k) 0 (2 * pos)) (fun _ => True) where
  blk_pos := by omega
  next pos h := trivial
  app k pos h len := by
    rw [show 2 * (pos + 136) = 2 * pos + 2 * 136 by omega, accEta_append, prefix_append_drop, rejEta_squeeze]
  pre k pos h := by
    rw [show 2 * (pos + 136) = 2 * pos + 272 by omega, accEta_append]
    exact List.prefix_append _ _

theorem accUniform_congr (s t : Nat → UInt8) (n : Nat) (h : ∀ k, k < 3 * n → s k = t k) : accUniform s 0 n = accUniform t 0 n := by
  unfold accUniform
  congr 1
  apply List.map_congr_left
  intro k hk
  rw [List.mem_range'_1] at hk
  unfold cand
  rw [h _ (by omega), h _ (by omega), h _ (by omega)]

theorem accEta_congr (s t : Nat → UInt8) (n : Nat) (h : ∀ k, k < n → s k = t k) : accEta s 0 (2 * n) = accEta t 0 (2 * n) := by
  unfold accEta
  have : (List.range' 0 (2 * n)).map (nib s) = (List.range' 0 (2 * n)).map (nib t) := by
    apply List.map_congr_left
    intro k hk
    rw [List.mem_range'_1] at hk
    unfold nib
    rw [h _ (by omega)]
  rw [this]

theorem accEta_mono (s : Nat → UInt8) (n m : Nat) (h : n ≤ m) : (accEta s 0 n).length ≤ (accEta s 0 m).length := by
  obtain ⟨k, rfl⟩ := Nat.exists_eq_add_of_le h
  rw [accEta_append, List.length_append]; omega

/-- An equality of options from the two implications. -/
theorem option_eq {α β : Type} (x : Option α) (y : Option β) (g : β → α) (h1 : ∀ a, x = some a → ∃ b, y = some b ∧ g b = a) (h2 : ∀ b, y = some b → ∃ a, x = some a) :
    x = y.map g := by
  cases hx : x with
  | some a =>
    obtain ⟨b, hb, rfl⟩ := h1 a hx
    rw [hb]; rfl
  | none =>
    cases hy : y with
    | none => rfl
    | some b =>
      obtain ⟨a, ha⟩ := h2 b hy
      rw [hx] at ha; cases ha

/-- `poly_uniform_4x` returns the polynomials of four calls of the portable `poly_uniform`. -/
theorem polyUniform4x_eq (H : Shake) (J : Junk) (seed : Bytes) (hs : seed.length = 32) (nonce : Fin 4 → UInt16) :
    polyUniform4x H J seed nonce = (forVec fun k => polyUniform C H seed (nonce k)).map fun v k => ofP (v k) := by
  unfold polyUniform4x
  rw [List.take_of_length_le (by omega)]
  dsimp only
  have S := uniform_lock fun k => stream128 H seed (nonce k)
  have H0 : ∀ k, Holds J.coeffs (rejUniformAvx (filled J (stream128 H seed (nonce k)) 840) J.coeffs).1 (rejUniformAvx (filled J (stream128 H seed (nonce k)) 840) J.coeffs).2
      ((accUniform (stream128 H seed (nonce k)) 0 (840 / 3)).take 256) := by
    intro k
    have := rejUniformAvx_spec (filled J (stream128 H seed (nonce k)) 840) J.coeffs
    rw [accUniform_congr _ (stream128 H seed (nonce k)) 280 (fun n hn => by unfold filled; rw [if_pos (by omega)])] at this
    exact this
  apply option_eq
  · intro a ha
    simp only [Option.bind_eq_bind, Option.bind_eq_some_iff, Option.pure_def, Option.some.injEq] at ha
    obtain ⟨st, hst, rfl⟩ := ha
    obtain ⟨p, hp⟩ := lock_correct S J.coeffs _ _ _ hst rfl H0
    choose v hv using fun k => list_eq_ofFn _ (hp k).len
    refine ⟨v, forVec_intro _ _ fun k => (polyUniform_iff H seed (nonce k) (v k)).2 ⟨_, hv k⟩, ?_⟩
    funext k
    exact (holds_read _ _ _ _ (hp k) (hv k)).symm
  · intro v hv
    have hk := fun k => (polyUniform_iff H seed (nonce k) (v k)).1 (Verif.Dilithium.forVec_some _ _ hv k)
    choose m hm using hk
    have hlen : ∀ k, 256 ≤ (accUniform (stream128 H seed (nonce k)) 0 (m k)).length := fun k => by
      have := congrArg List.length (hm k)
      rw [List.length_take, List.length_ofFn] at this
      omega
    obtain ⟨r, hr⟩ := lock_total S J.coeffs ⟨3 * (m 0 + m 1 + m 2 + m 3), fun k p _ hle => by
      refine (hlen k).trans (accUniform_mono _ _ _ ?_)
      have : m k ≤ m 0 + m 1 + m 2 + m 3 := by
        match k with
        | 0 => omega
        | 1 => omega
        | 2 => omega
        | 3 => omega
      omega⟩ _ 840 rfl H0
    exact ⟨_, by simp only [Option.bind_eq_bind, hr, Option.bind_some]; rfl⟩

/-- `poly_uniform_eta_4x` returns the polynomials of four calls of the portable `poly_uniform_eta`. -/
theorem polyUniformEta4x_eq (H : Shake) (J : Junk) (seed : Bytes) (hs : seed.length = 64) (nonce : Fin 4 → UInt16) :
    polyUniformEta4x H J seed nonce = (forVec fun k => polyUniformEta C H seed (nonce k)).map fun v k => ofP (v k) := by
  unfold polyUniformEta4x
  rw [List.take_of_length_le (by omega)]
  dsimp only
  have S := eta_lock fun k => stream256 H seed (nonce k)
  have H0 : ∀ k, Holds J.coeffs (rejEtaAvx (filled J (stream256 H seed (nonce k)) 136) J.coeffs).1 (rejEtaAvx (filled J (stream256 H seed (nonce k)) 136) J.coeffs).2
      ((accEta (stream256 H seed (nonce k)) 0 (2 * 136)).take 256) := by
    intro k
    have := rejEtaAvx_spec (filled J (stream256 H seed (nonce k)) 136) J.coeffs
    rw [show 272 = 2 * 136 by rfl, accEta_congr _ (stream256 H seed (nonce k)) 136 (fun n hn => by unfold filled; rw [if_pos (by omega)])] at this
    exact this
  apply option_eq
  · intro a ha
    simp only [Option.bind_eq_bind, Option.bind_eq_some_iff, Option.pure_def, Option.some.injEq] at ha
    obtain ⟨st, hst, rfl⟩ := ha
    obtain ⟨p, hp⟩ := lock_correct S J.coeffs _ _ _ hst trivial H0
    choose v hv using fun k => list_eq_ofFn _ (hp k).len
    refine ⟨v, forVec_intro _ _ fun k => (polyUniformEta_iff H seed (nonce k) (v k)).2 ⟨_, hv k⟩, ?_⟩
    funext k
    exact (holds_read _ _ _ _ (hp k) (hv k)).symm
  · intro v hv
    have hk := fun k => (polyUniformEta_iff H seed (nonce k) (v k)).1 (Verif.Dilithium.forVec_some _ _ hv k)
    choose m hm using hk
    have hlen : ∀ k, 256 ≤ (accEta (stream256 H seed (nonce k)) 0 (m k)).length := fun k => by
      have := congrArg List.length (hm k)
      rw [List.length_take, List.length_ofFn] at this
      omega
    obtain ⟨r, hr⟩ := lock_total S J.coeffs ⟨m 0 + m 1 + m 2 + m 3, fun k p _ hle => by
      refine (hlen k).trans (accEta_mono _ _ _ ?_)
      have : m k ≤ m 0 + m 1 + m 2 + m 3 := by
        match k with
        | 0 => omega
        | 1 => omega
        | 2 => omega
        | 3 => omega
      omega⟩ _ 136 trivial H0
    exact ⟨_, by simp only [Option.bind_eq_bind, hr, Option.bind_some]; rfl⟩

/-- `poly_uniform_gamma1_4x` returns the polynomials of four calls of the portable `poly_uniform_gamma1`. -/
theorem polyUniformGamma14x_eq (H : Shake) (J : Junk) (seed : Bytes) (hs : seed.length = 64) (nonce : Fin 4 → UInt16) (k : Fin 4) :
    ti (polyUniformGamma14x H J seed nonce k) = polyUniformGamma1 C H seed (nonce k) := by
  unfold polyUniformGamma14x polyUniformGamma1
  rw [List.take_of_length_le (by omega)]
  refine polyzUnpackV_int _ _ (by rw [squeeze_length]; omega) fun n hn => ?_
  unfold filled
  rw [if_pos (by omega), List.getD_eq_getElem _ _ (by rw [squeeze_length]; omega)]
  unfold squeeze
  rw [List.getElem_map, List.getElem_range, Nat.zero_add]

end Verif.Avx2
