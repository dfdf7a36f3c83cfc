import Verif.Neon.NttSym

/-! # What the aarch64 routines write -/

namespace Verif.Neon

open Verif.Avx2 (W32 VPoly forceN forceN_eq lset lset_eq)

/-- A pointer known to be `n` is `n + 1`; an unknown one is 0. -/
def bump (v n : Nat) : Nat := if v = 0 then 0 else v + n

/-- The pointers after an instruction. -/
def ptrStep {β : Type} (xs : List Nat) (k : List Nat → β) : Instr → β
  | .addx d p n => forceN (bump (xs.getD p 0) n) fun v => lset xs d v k
  | _ => k xs

/-- The stores of an instruction lie below word `m`. -/
def storeBelow (m : Nat) (xs : List Nat) : Instr → Bool
  | .addx d _ _ => decide (d < xs.length)
  | .strw _ p => xs.getD p 0 != 0 && decide (xs.getD p 0 - 1 < m)
  | .st _ p off => xs.getD p 0 != 0 && decide (xs.getD p 0 - 1 + off + 4 ≤ m)
  | .st4row j _ p => xs.getD p 0 != 0 && decide (xs.getD p 0 - 1 + 4 * j + 4 ≤ m)
  | _ => true

/-- All stores of straight-line code lie below word `m` of memory. -/
def storesBelow (m : Nat) : List Instr → List Nat → Bool
  | [], _ => true
  | i :: c, xs => if storeBelow m xs i then ptrStep xs (storesBelow m c) i else false

/-- The list describes the pointers of a machine. -/
def Ptrs (xs : List Nat) (s : Mach) : Prop := ∀ r, xs.getD r 0 ≠ 0 → s.x r = xs.getD r 0 - 1

theorem ptr_step {m : Nat} {xs : List Nat} {s : Mach} {i : Instr} (h : Ptrs xs s) (hi : storeBelow m xs i = true) {β : Type} (k : List Nat → β) :
    (∃ xs', ptrStep xs k i = k xs' ∧ Ptrs xs' (exec s i)) ∧ ∀ a, m ≤ a → (exec s i).mem a = s.mem a := by
  cases i <;> simp only [storeBelow, Bool.and_eq_true, bne_iff_ne, decide_eq_true_eq] at hi <;>
    first
    | exact ⟨⟨xs, rfl, h⟩, fun _ _ => rfl⟩
    | skip
  case addx d p n =>
    refine ⟨⟨xs.set d (bump (xs.getD p 0) n), by simp only [ptrStep, forceN_eq, lset_eq], fun r hr => ?_⟩, fun _ _ => rfl⟩
    rw [getD_set _ _ _ _ _ hi] at hr ⊢
    show (if r = d then s.x p + n else s.x r) = _
    by_cases hd : r = d
    · rw [if_pos hd] at hr ⊢
      rw [if_pos hd]
      unfold bump at hr ⊢
      by_cases h0 : xs.getD p 0 = 0
      · rw [if_pos h0] at hr; exact absurd rfl hr
      · rw [if_neg h0, h p h0]; omega
    · rw [if_neg hd] at hr ⊢
      rw [if_neg hd]
      exact h r hr
  case strw r p =>
    refine ⟨⟨xs, rfl, h⟩, fun a ha => if_neg ?_⟩
    rw [h p hi.1]; omega
  case st r p off =>
    refine ⟨⟨xs, rfl, h⟩, fun a ha => dif_neg ?_⟩
    rw [h p hi.1]; omega
  case st4row j r p =>
    refine ⟨⟨xs, rfl, h⟩, fun a ha => dif_neg ?_⟩
    rw [h p hi.1]; omega

theorem stores_frame (m : Nat) (p : List Instr) (xs : List Nat) (s : Mach) (h : Ptrs xs s) (hb : storesBelow m p xs = true) (a : Nat) (ha : m ≤ a) :
    (run s p).mem a = s.mem a := by
  induction p generalizing xs s with
  | nil => rfl
  | cons i p ih =>
    rw [storesBelow] at hb
    split at hb
    · rename_i hi
      obtain ⟨⟨xs', e, h'⟩, f⟩ := ptr_step h hi (storesBelow m p)
      rw [e] at hb
      exact (ih xs' _ h' hb).trans (f a ha)
    · cases hb

/-- The pointers at a call. -/
def ptrs (args : List Nat) : List Nat := args.map (· + 1) ++ List.replicate (32 - args.length) 0

theorem ptrs_ok (args : List Nat) (s : Mach) : Ptrs (ptrs args) (s.args args) := by
  intro r hr
  unfold ptrs at hr ⊢
  rw [List.getD_eq_getElem?_getD] at hr ⊢
  by_cases h : r < args.length
  · rw [List.getElem?_append_left (by simpa using h), List.getElem?_map, List.getElem?_eq_getElem h]
    show args.getD r (s.x r) = _
    rw [List.getD_eq_getElem?_getD, List.getElem?_eq_getElem h]
    simp
  · rw [List.getElem?_append_right (by simpa using h)] at hr
    exfalso
    apply hr
    rw [List.getElem?_replicate]
    split <;> rfl

theorem call_frame (m : Nat) (p : List Instr) (args : List Nat) (hb : storesBelow m p (ptrs args) = true) (s : Mach) (a : Nat) (ha : m ≤ a) :
    (run (s.args args) p).mem a = s.mem a := stores_frame m p _ _ (ptrs_ok args s) hb a ha

set_option maxRecDepth 100000

theorem reduce_stores : storesBelow 256 polyReduceAsm (ptrs [0, 256]) = true := by decide +kernel
theorem caddq_stores : storesBelow 256 polyCaddqAsm (ptrs [0, 256]) = true := by decide +kernel
theorem pointwise_stores : storesBelow 256 polyPointwiseAsm (ptrs [0, 256, 512, 768]) = true := by decide +kernel
theorem pointwise'_stores : storesBelow 256 polyPointwiseAsm (ptrs [0, 256, 0, 512]) = true := by decide +kernel
theorem pointwiseAcc_stores : storesBelow 256 pointwiseAccAsm (ptrs [0, 256, 1280, 2304]) = true := by decide +kernel
theorem power2round_stores : storesBelow 512 polyPower2roundAsm (ptrs [0, 256, 0]) = true := by decide +kernel
theorem unpack10_stores : storesBelow 256 unpack10 (ptrs [0, 256]) = true := by decide +kernel
theorem nttTop_stores : storesBelow 256 nttTop (ptrs [0, 256, 804]) = true := by decide +kernel
theorem nttBot_stores : storesBelow 256 nttBot (ptrs [0, 256, 804]) = true := by decide +kernel
theorem inttTop_stores : storesBelow 256 inttTop (ptrs [0, 256, 804]) = true := by decide +kernel
theorem inttBot_stores : storesBelow 256 inttBot (ptrs [0, 256, 804]) = true := by decide +kernel

end Verif.Neon
