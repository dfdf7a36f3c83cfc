import Verif.Avx2.NttSym

/-! # The AVX2 transforms in closed form, on dwords -/

namespace Verif.Avx2
open Verif.Dilithium

/-- The twiddle factors; entry 0 is the constant of the last inverse layer (consts.c). -/
def zt (k : Nat) : Int := if k = 0 then -3975713 else zetas.getD k 0
/-- As dwords. -/
def Zt (k : Nat) : W32 := BitVec.ofInt 32 (zt k)
/-- Times `q^-1`. -/
def ZQ (k : Nat) : W32 := BitVec.ofInt 32 (zt k * 58728449)
/-- `f = 2^64/256`. -/
def Dv : W32 := BitVec.ofInt 32 41978
def DvQ : W32 := BitVec.ofInt 32 (-8395782)

/-- Montgomery product with a twiddle factor. -/
def wm (k : Nat) (h : W32) : W32 := mm wq (ZQ k) (Zt k) h

/-- One forward layer. -/
def wLayer (L : Nat) (a : VPoly) : VPoly := pairLayer 0 (128 / 2 ^ L) (fun b lo hi => (lo + wm (2 ^ L + b) hi, lo - wm (2 ^ L + b) hi)) a
/-- The first `L` forward layers. -/
def wNtt : Nat → VPoly → VPoly
  | 0, a => a
  | L + 1, a => wLayer L (wNtt L a)

/-- One inverse layer; the last uses the constant `zt 0` for all its products. -/
def wInvLayer (L : Nat) (a : VPoly) : VPoly :=
  pairLayer 0 (2 ^ L) (fun b lo hi => (lo + hi, wm (if L < 7 then 256 / 2 ^ L - 1 - b else 0) (hi - lo))) a
/-- The first `L` inverse layers. -/
def wInv : Nat → VPoly → VPoly
  | 0, a => a
  | L + 1, a => wInvLayer L (wInv L a)

/-- The final scaling of the lower half. -/
def wFin (a : VPoly) : VPoly := fun i => if i.1 < 128 then mm wq DvQ Dv (a i) else a i

/-! ## Tables and initial states -/

theorem tab_table : ∀ i < 624, tab i = if i < 32 then tab (i / 8 * 8) else if i < 328 then ZQ (kap (i - 32)) else Zt (kap (i - 328)) := by decide +kernel
theorem tab_consts : tab 0 = wq ∧ tab 8 = wqinv ∧ tab 16 = DvQ ∧ tab 24 = Dv := by decide +kernel
theorem kap_lt : ∀ i < 296, kap i < 256 := by decide +kernel
theorem perm_lt (i : Nat) (h : i < 256) : perm i < 256 := by unfold perm; omega
theorem perm_perm : ∀ i < 256, perm (perm i) = i := by decide +kernel

theorem lane_rowsX (n : Nat) (f : Nat → Nat) (r : Nat) (j : Fin 8) (h : r < n) : lane (rowsX n f) r j.1 = .x (f (8 * r + j.1)) := by
  unfold lane rowsX
  rw [List.getD_eq_getElem?_getD, List.getElem?_map, List.getElem?_range h]
  fin_cases j <;> rfl

theorem lane_append (l l' : List Row) (r j : Nat) : lane (l ++ l') r j = if r < l.length then lane l r j else lane l' (r - l.length) j := by
  unfold lane
  rw [List.getD_eq_getElem?_getD, List.getElem?_append]
  split <;> rw [List.getD_eq_getElem?_getD]

theorem rowsX_length (n : Nat) (f : Nat → Nat) : (rowsX n f).length = n := by simp [rowsX]

/-- Reading the results off. -/
theorem sym_out (norm : V → V) (env : Nat → W32) (hn : ∀ v, (norm v).d env = v.d env) (nmem : Nat) (hm : 32 ≤ nmem) (p : List Instr) (regs mem : List Row) (s : Mach)
    (h : Desc env nmem regs mem s) (f : Nat → V) (hb : symRun norm nmem p regs mem (outIs f) = some true) (i : Nat) (hi : i < 256) :
    (run s p).mem i = (f i).d env := by
  obtain ⟨regs', mem', e, h'⟩ := sym_sound norm env hn nmem (outIs f) p regs mem s h true hb
  have := h'.mem (i / 8) (by omega) ⟨i % 8, by omega⟩
  simp only [show 8 * (i / 8) + i % 8 = i by omega] at this
  rw [this]
  unfold outIs at e
  rw [List.all_eq_true] at e
  rw [V.eq_of_beq _ _ (e i (List.mem_range.2 hi))]

/-- The variables that stand for table entries and registers. -/
def envT (M : Mach) (c : Nat) : W32 :=
  if c < 4000 then Zt (c - 3000) else if c < 5000 then ZQ (c - 4000) else if c < 7000 then tab ((c - 5000) * 8) else M.reg ((c - 7000) / 8) ⟨(c - 7000) % 8, by omega⟩

theorem envT_reg (M : Mach) (r : Nat) (j : Fin 8) : envT M (7000 + (8 * r + j.1)) = M.reg r j := by
  unfold envT
  rw [if_neg (by omega), if_neg (by omega), if_neg (by omega)]
  have e : (7000 + (8 * r + j.1) - 7000) / 8 = r := by omega
  rw [e]
  exact congrArg (M.reg r) (Fin.ext (by simp))

theorem envT_tab (M : Mach) (i : Nat) (h : i < 624) : envT M (tabCode i) = tab i := by
  rw [tab_table i h]
  unfold tabCode
  have k1 : i - 32 < 296 → kap (i - 32) < 256 := kap_lt _
  have k2 : i - 328 < 296 → kap (i - 328) < 256 := kap_lt _
  by_cases c1 : i < 32
  · rw [if_pos c1, if_pos c1]
    unfold envT
    rw [if_neg (by omega), if_neg (by omega), if_pos (by omega)]
    exact congrArg tab (by omega)
  · rw [if_neg c1, if_neg c1]
    by_cases c2 : i < 328
    · rw [if_pos c2, if_pos c2]
      have := k1 (by omega)
      unfold envT
      rw [if_neg (by omega), if_pos (by omega)]
      exact congrArg ZQ (by omega)
    · rw [if_neg c2, if_neg c2]
      have := k2 (by omega)
      unfold envT
      rw [if_pos (by omega)]
      exact congrArg Zt (by omega)

theorem arr_in (s : Mach) (base n : Nat) (f : Nat → W32) (x : Nat) (h1 : base ≤ x) (h2 : x < base + n) : (s.arr base n f).mem x = f (x - base) := by
  simp [Mach.arr, h1, h2]
theorem arr_out (s : Mach) (base n : Nat) (f : Nat → W32) (x : Nat) (h : ¬ (base ≤ x ∧ x < base + n)) : (s.arr base n f).mem x = s.mem x := by
  simp only [Mach.arr, if_neg h]
theorem arr_reg (s : Mach) (base n : Nat) (f : Nat → W32) : (s.arr base n f).reg = s.reg := rfl

/-! ## Pairs -/

section
variable {α : Type} (oob : α) (len : Nat) (g : Nat → α → α → α × α) (A : Fin 256 → α) (i : Nat)

theorem split_pos (hlen : IsLen len) (hi : i < 256) (hl : i % (2 * len) < len) :
    i / (2 * len) < 128 / len ∧ i = 2 * len * (i / (2 * len)) + i % (2 * len) ∧ i + len < 256 := by
  have := Nat.div_add_mod i (2 * len)
  unfold IsLen at hlen
  simp only [List.mem_cons, List.not_mem_nil, or_false] at hlen
  rcases hlen with h | h | h | h | h | h | h | h <;> subst h <;> norm_num at * <;> omega

theorem pl_lo (hlen : IsLen len) (hi : i < 256) (hl : i % (2 * len) < len) :
    rd oob (pairLayer oob len g A) i = (g (i / (2 * len)) (rd oob A i) (rd oob A (i + len))).1 := by
  obtain ⟨h1, h2, h3⟩ := split_pos len i hlen hi hl
  have := pairLayer_lo oob len g A (i / (2 * len)) (i % (2 * len)) hlen h1 hl
  rw [show 2 * len * (i / (2 * len)) + len + i % (2 * len) = i + len by omega, ← h2] at this
  exact this

theorem pl_hi (hlen : IsLen len) (hi : i < 256) (hl : i % (2 * len) < len) :
    rd oob (pairLayer oob len g A) (i + len) = (g (i / (2 * len)) (rd oob A i) (rd oob A (i + len))).2 := by
  obtain ⟨h1, h2, h3⟩ := split_pos len i hlen hi hl
  have := pairLayer_hi oob len g A (i / (2 * len)) (i % (2 * len)) hlen h1 hl
  rw [show 2 * len * (i / (2 * len)) + len + i % (2 * len) = i + len by omega, ← h2] at this
  exact this
end

theorem isLen_fwd (L : Nat) (h : L < 8) : IsLen (128 / 2 ^ L) := by unfold IsLen; interval_cases L <;> decide
theorem isLen_inv (L : Nat) (h : L < 8) : IsLen (2 ^ L) := by unfold IsLen; interval_cases L <;> decide

/-! ## Forward -/

/-- Values of the variables in `ntt_avx`. -/
def envF (M : Mach) (a : VPoly) (c : Nat) : W32 := if c < 2304 then rd 0 (wNtt (c / 256) a) (c % 256) else envT M c

theorem envF_x (M : Mach) (a : VPoly) (L i : Nat) (hL : L ≤ 8) (hi : i < 256) : envF M a (256 * L + i) = rd 0 (wNtt L a) i := by
  unfold envF
  rw [if_pos (by omega), show (256 * L + i) / 256 = L by omega, show (256 * L + i) % 256 = i by omega]

theorem envF_T (M : Mach) (a : VPoly) (c : Nat) (h : 2304 ≤ c) : envF M a c = envT M c := by unfold envF; rw [if_neg (by omega)]

theorem envF_z3 (M : Mach) (a : VPoly) (k : Nat) : envF M a (3000 + k) = envT M (3000 + k) := envF_T M a _ (by omega)
theorem envF_z4 (M : Mach) (a : VPoly) (k : Nat) : envF M a (4000 + k) = envT M (4000 + k) := envF_T M a _ (by omega)

theorem pow_le_128 (L : Nat) (h : L < 8) : 2 ^ L ≤ 128 ∧ 0 < 2 ^ L := by
  interval_cases L <;> decide

theorem envT_wm (M : Mach) (k : Nat) (hk : k < 1000) (h : W32) :
    hi32 (smul (envT M (3000 + k)) h) - hi32 (smul (envT M 5000) (lo32 (smul (envT M (4000 + k)) h))) = wm k h := by
  have e1 : envT M (3000 + k) = Zt k := by unfold envT; rw [if_pos (by omega)]; exact congrArg Zt (by omega)
  have e2 : envT M (4000 + k) = ZQ k := by unfold envT; rw [if_neg (by omega), if_pos (by omega)]; exact congrArg ZQ (by omega)
  have e3 : envT M 5000 = wq := by unfold envT; rw [if_neg (by omega), if_neg (by omega), if_pos (by omega)]; exact tab_consts.1
  rw [e1, e2, e3]; rfl

theorem k_lt (L i len : Nat) (h : L < 8) (hi : i < 256) : 2 ^ L + i / len < 1000 := by
  have := pow_le_128 L h
  have := Nat.div_le_self i len
  omega

theorem fwdNorm_sound (M : Mach) (a : VPoly) (v : V) : (fwdNorm v).d (envF M a) = v.d (envF M a) := by
  unfold fwdNorm
  split
  · rename_i c' kz c qq kq c2
    dsimp only
    split
    · rename_i h
      simp only [Bool.and_eq_true, decide_eq_true_eq, beq_iff_eq] at h
      obtain ⟨⟨⟨⟨⟨⟨h1, h2⟩, h3⟩, h4⟩, h5⟩, h6⟩, h7⟩ := h
      have hL : c' / 256 < 8 := by omega
      obtain ⟨p1, p2, p3⟩ := split_pos _ (c' % 256) (isLen_fwd _ hL) (by omega) h2
      have hlo := pl_lo 0 _ (fun b lo hi => (lo + wm (2 ^ (c' / 256) + b) hi, lo - wm (2 ^ (c' / 256) + b) hi)) (wNtt (c' / 256) a) (c' % 256) (isLen_fwd _ hL) (by omega) h2
      have hk := k_lt (c' / 256) (c' % 256) (2 * (128 / 2 ^ (c' / 256))) hL (by omega)
      have hwm := envT_wm M _ hk (rd 0 (wNtt (c' / 256) a) (c' % 256 + 128 / 2 ^ (c' / 256)))
      have x1 := envF_x M a (c' / 256) (c' % 256) (by omega) (by omega)
      rw [show 256 * (c' / 256) + c' % 256 = c' by omega] at x1
      have x2 := envF_x M a (c' / 256) (c' % 256 + 128 / 2 ^ (c' / 256)) (by omega) p3
      rw [show 256 * (c' / 256) + (c' % 256 + 128 / 2 ^ (c' / 256)) = c' + 128 / 2 ^ (c' / 256) by omega] at x2
      have x3 := envF_x M a (c' / 256 + 1) (c' % 256) (by omega) (by omega)
      rw [show 256 * (c' / 256 + 1) + c' % 256 = c' + 256 by omega] at x3
      subst h3 h4 h5 h6 h7
      simp only [V.d, V.ev]
      rw [x1, x2, x3, envF_z3, envF_z4, envF_T M a 5000 (by omega)]
      rw [show wNtt (c' / 256 + 1) a = wLayer (c' / 256) (wNtt (c' / 256) a) from rfl]
      unfold wLayer
      rw [hlo, ← hwm]
      exact (add_sub_assoc _ _ _).symm
    · rfl
  · rename_i c' kz c qq kq c2
    dsimp only
    split
    · rename_i h
      simp only [Bool.and_eq_true, decide_eq_true_eq, beq_iff_eq] at h
      obtain ⟨⟨⟨⟨⟨⟨h1, h2⟩, h3⟩, h4⟩, h5⟩, h6⟩, h7⟩ := h
      have hL : c' / 256 < 8 := by omega
      obtain ⟨p1, p2, p3⟩ := split_pos _ (c' % 256) (isLen_fwd _ hL) (by omega) h2
      have hlo := pl_hi 0 _ (fun b lo hi => (lo + wm (2 ^ (c' / 256) + b) hi, lo - wm (2 ^ (c' / 256) + b) hi)) (wNtt (c' / 256) a) (c' % 256) (isLen_fwd _ hL) (by omega) h2
      have hk := k_lt (c' / 256) (c' % 256) (2 * (128 / 2 ^ (c' / 256))) hL (by omega)
      have hwm := envT_wm M _ hk (rd 0 (wNtt (c' / 256) a) (c' % 256 + 128 / 2 ^ (c' / 256)))
      have x1 := envF_x M a (c' / 256) (c' % 256) (by omega) (by omega)
      rw [show 256 * (c' / 256) + c' % 256 = c' by omega] at x1
      have x2 := envF_x M a (c' / 256) (c' % 256 + 128 / 2 ^ (c' / 256)) (by omega) p3
      rw [show 256 * (c' / 256) + (c' % 256 + 128 / 2 ^ (c' / 256)) = c' + 128 / 2 ^ (c' / 256) by omega] at x2
      have x3 := envF_x M a (c' / 256 + 1) (c' % 256 + 128 / 2 ^ (c' / 256)) (by omega) p3
      rw [show 256 * (c' / 256 + 1) + (c' % 256 + 128 / 2 ^ (c' / 256)) = c' + 128 / 2 ^ (c' / 256) + 256 by omega] at x3
      subst h3 h4 h5 h6 h7
      simp only [V.d, V.ev]
      rw [x1, x2, x3, envF_z3, envF_z4, envF_T M a 5000 (by omega)]
      rw [show wNtt (c' / 256 + 1) a = wLayer (c' / 256) (wNtt (c' / 256) a) from rfl]
      unfold wLayer
      rw [hlo, ← hwm]
      exact sub_sub_eq_add_sub _ _ _ |>.trans (add_sub_right_comm _ _ _)
    · rfl
  · rfl

/-- **`ntt_avx` in closed form.** -/
theorem nttC_eq (M : Mach) (a : VPoly) (i : Fin 256) : nttC M a i = rd 0 (wNtt 8 a) (perm i.1) := by
  have hd : Desc (envF M a) 110 (rowsX 16 (7000 + ·)) (rowsX 32 (·) ++ rowsX 78 tabCode) ((M.arr 0 256 (rd 0 a)).arr 256 624 tab) := by
    refine ⟨rowsX_length _ _, by simp [rowsX_length], fun r hr j => ?_, fun m hm j => ?_⟩
    · rw [lane_rowsX _ _ _ _ hr, arr_reg, arr_reg]
      simp only [V.d, V.ev]
      rw [envF_T _ _ _ (by omega), envT_reg]
    · rw [lane_append, rowsX_length]
      by_cases c : m < 32
      · rw [if_pos c, lane_rowsX _ _ _ _ c, arr_out _ _ _ _ _ (by omega), arr_in _ _ _ _ _ (by omega) (by omega)]
        have := envF_x M a 0 (8 * m + j.1) (by omega) (by omega)
        simp only [V.d, V.ev]
        rw [show 256 * 0 + (8 * m + j.1) = 8 * m + j.1 by omega] at this
        rw [this]; rfl
      · rw [if_neg c, lane_rowsX _ _ _ _ (by omega), arr_in _ _ _ _ _ (by omega) (by omega)]
        have := envT_tab M (8 * (m - 32) + j.1) (by omega)
        simp only [V.d, V.ev]
        rw [envF_T _ _ _ (by unfold tabCode; split <;> [omega; split <;> omega]), this]
        exact congrArg tab (by omega)
  have := sym_out fwdNorm (envF M a) (fwdNorm_sound M a) 110 (by omega) _ _ _ _ hd _ ntt_sym i.1 i.2
  unfold nttC
  rw [this]
  simp only [V.d, V.ev]
  have hp := perm_lt i.1 i.2
  exact envF_x M a 8 (perm i.1) (by omega) hp

/-! ## Inverse -/

/-- Values of the variables in `invntt_avx`. -/
def envI (M : Mach) (a : VPoly) (c : Nat) : W32 :=
  if c < 2304 then rd 0 (wInv (c / 256) a) (c % 256) else if c < 2560 then rd 0 (wFin (wInv 8 a)) (c % 256) else envT M c

theorem envI_x (M : Mach) (a : VPoly) (L i : Nat) (hL : L ≤ 8) (hi : i < 256) : envI M a (256 * L + i) = rd 0 (wInv L a) i := by
  unfold envI
  rw [if_pos (by omega), show (256 * L + i) / 256 = L by omega, show (256 * L + i) % 256 = i by omega]

theorem envI_T (M : Mach) (a : VPoly) (c : Nat) (h : 2560 ≤ c) : envI M a c = envT M c := by unfold envI; rw [if_neg (by omega), if_neg (by omega)]

theorem invNorm_sound (M : Mach) (a : VPoly) (v : V) : (invNorm v).d (envI M a) = v.d (envI M a) := by
  unfold invNorm
  split
  · rename_i c' c
    dsimp only
    split
    · rename_i h
      simp only [Bool.and_eq_true, decide_eq_true_eq, beq_iff_eq] at h
      obtain ⟨⟨h1, h2⟩, h3⟩ := h
      have hL : c' / 256 < 8 := by omega
      obtain ⟨p1, p2, p3⟩ := split_pos _ (c' % 256) (isLen_inv _ hL) (by omega) h2
      have hlo := pl_lo 0 _ (fun b lo hi => (lo + hi, wm (if c' / 256 < 7 then 256 / 2 ^ (c' / 256) - 1 - b else 0) (hi - lo)))
        (wInv (c' / 256) a) (c' % 256) (isLen_inv _ hL) (by omega) h2
      have x1 := envI_x M a (c' / 256) (c' % 256) (by omega) (by omega)
      rw [show 256 * (c' / 256) + c' % 256 = c' by omega] at x1
      have x2 := envI_x M a (c' / 256) (c' % 256 + 2 ^ (c' / 256)) (by omega) p3
      rw [show 256 * (c' / 256) + (c' % 256 + 2 ^ (c' / 256)) = c' + 2 ^ (c' / 256) by omega] at x2
      have x3 := envI_x M a (c' / 256 + 1) (c' % 256) (by omega) (by omega)
      rw [show 256 * (c' / 256 + 1) + c' % 256 = c' + 256 by omega] at x3
      subst h3
      simp only [V.d, V.ev]
      rw [x1, x2, x3]
      exact hlo
    · rfl
  · rename_i kz c c' qq kq d d'
    dsimp only
    generalize hK : (if c' < 1792 then 256 / 2 ^ (c' / 256) - 1 - c' % 256 / (2 * 2 ^ (c' / 256)) else 0) = K
    split
    · rename_i h
      subst hK
      simp only [Bool.and_eq_true, decide_eq_true_eq, beq_iff_eq] at h
      obtain ⟨⟨⟨⟨⟨⟨⟨h1, h2⟩, h3⟩, h4⟩, h4'⟩, h5⟩, h6⟩, h7⟩ := h
      have hL : c' / 256 < 8 := by omega
      obtain ⟨p1, p2, p3⟩ := split_pos _ (c' % 256) (isLen_inv _ hL) (by omega) h2
      have hhi := pl_hi 0 _ (fun b lo hi => (lo + hi, wm (if c' / 256 < 7 then 256 / 2 ^ (c' / 256) - 1 - b else 0) (hi - lo)))
        (wInv (c' / 256) a) (c' % 256) (isLen_inv _ hL) (by omega) h2
      dsimp only at hhi
      have hc7 : (c' < 1792) = (c' / 256 < 7) := by apply propext; omega
      simp only [hc7] at h6 h7
      have hk : (if c' / 256 < 7 then 256 / 2 ^ (c' / 256) - 1 - c' % 256 / (2 * 2 ^ (c' / 256)) else 0) < 1000 := by
        have h256 := Nat.div_le_self 256 (2 ^ (c' / 256))
        generalize 256 / 2 ^ (c' / 256) = u at h256
        generalize c' % 256 / (2 * 2 ^ (c' / 256)) = w
        split <;> omega
      generalize (if c' / 256 < 7 then 256 / 2 ^ (c' / 256) - 1 - c' % 256 / (2 * 2 ^ (c' / 256)) else 0) = k at *
      have hwm := envT_wm M k hk (rd 0 (wInv (c' / 256) a) (c' % 256 + 2 ^ (c' / 256)) - rd 0 (wInv (c' / 256) a) (c' % 256))
      have x1 := envI_x M a (c' / 256) (c' % 256) (by omega) (by omega)
      rw [show 256 * (c' / 256) + c' % 256 = c' by omega] at x1
      have x2 := envI_x M a (c' / 256) (c' % 256 + 2 ^ (c' / 256)) (by omega) p3
      rw [show 256 * (c' / 256) + (c' % 256 + 2 ^ (c' / 256)) = c' + 2 ^ (c' / 256) by omega] at x2
      have x3 := envI_x M a (c' / 256 + 1) (c' % 256 + 2 ^ (c' / 256)) (by omega) p3
      rw [show 256 * (c' / 256 + 1) + (c' % 256 + 2 ^ (c' / 256)) = c' + 2 ^ (c' / 256) + 256 by omega] at x3
      subst h4' h4 h3 h5 h6 h7
      simp only [V.d, V.ev]
      rw [x1, x2, x3, envI_T M a (3000 + k) (by omega), envI_T M a (4000 + k) (by omega), envI_T M a 5000 (by omega), hwm]
      exact hhi
    · rfl
  · rename_i kz c qq kq d
    split
    · rename_i h
      simp only [Bool.and_eq_true, decide_eq_true_eq, beq_iff_eq] at h
      obtain ⟨⟨⟨⟨⟨h1, h2⟩, h3⟩, h4⟩, h5⟩, h6⟩ := h
      subst h3 h4 h5 h6
      simp only [V.d, V.ev]
      have x1 := envI_x M a 8 (c - 2048) (by omega) (by omega)
      rw [show 256 * 8 + (c - 2048) = c by omega] at x1
      have e1 : envI M a 5000 = wq := by
        rw [envI_T M a 5000 (by omega)]; unfold envT; rw [if_neg (by omega), if_neg (by omega), if_pos (by omega)]; exact tab_consts.1
      have e2 : envI M a 5002 = DvQ := by
        rw [envI_T M a 5002 (by omega)]; unfold envT; rw [if_neg (by omega), if_neg (by omega), if_pos (by omega)]; exact tab_consts.2.2.1
      have e3 : envI M a 5003 = Dv := by
        rw [envI_T M a 5003 (by omega)]; unfold envT; rw [if_neg (by omega), if_neg (by omega), if_pos (by omega)]; exact tab_consts.2.2.2
      rw [x1, e1, e2, e3]
      unfold envI
      rw [if_neg (by omega), if_pos (by omega), show (c + 256) % 256 = c - 2048 by omega, rd_lt _ _ _ (show c - 2048 < 256 by omega), rd_lt _ _ _ (show c - 2048 < 256 by omega)]
      unfold wFin
      rw [if_pos (by show c - 2048 < 128; omega)]
      rfl
    · rfl
  · rfl

/-- **`invntt_avx` in closed form**, on an input in the order of `ntt_avx`. -/
theorem invnttC_eq (M : Mach) (a : VPoly) : invnttC M (fun i => a ⟨perm i.1, perm_lt i.1 i.2⟩) = wFin (wInv 8 a) := by
  funext i
  generalize hb : (fun i : Fin 256 => a ⟨perm i.1, perm_lt i.1 i.2⟩ : VPoly) = b
  have hd : Desc (envI M a) 110 (rowsX 16 (7000 + ·)) (rowsX 32 perm ++ rowsX 78 tabCode) ((M.arr 0 256 (rd 0 b)).arr 256 624 tab) := by
    refine ⟨rowsX_length _ _, by simp [rowsX_length], fun r hr j => ?_, fun m hm j => ?_⟩
    · rw [lane_rowsX _ _ _ _ hr, arr_reg, arr_reg]
      simp only [V.d, V.ev]
      rw [envI_T _ _ _ (by omega), envT_reg]
    · rw [lane_append, rowsX_length]
      by_cases c : m < 32
      · rw [if_pos c, lane_rowsX _ _ _ _ c, arr_out _ _ _ _ _ (by omega), arr_in _ _ _ _ _ (by omega) (by omega)]
        have hp := perm_lt (8 * m + j.1) (by omega)
        have := envI_x M a 0 (perm (8 * m + j.1)) (by omega) hp
        simp only [V.d, V.ev]
        rw [show 256 * 0 + perm (8 * m + j.1) = perm (8 * m + j.1) by omega] at this
        rw [this, ← hb, rd_lt _ _ _ (by omega), wInv, rd_lt _ _ _ hp]
        simp only [Nat.sub_zero]
      · rw [if_neg c, lane_rowsX _ _ _ _ (by omega), arr_in _ _ _ _ _ (by omega) (by omega)]
        have := envT_tab M (8 * (m - 32) + j.1) (by omega)
        simp only [V.d, V.ev]
        rw [envI_T _ _ _ (by unfold tabCode; split <;> [omega; split <;> omega]), this]
        exact congrArg tab (by omega)
  have := sym_out invNorm (envI M a) (invNorm_sound M a) 110 (by omega) _ _ _ _ hd _ invntt_sym i.1 i.2
  unfold invnttC
  rw [this]
  simp only [V.d, V.ev]
  by_cases c : i.1 < 128
  · rw [if_pos c]
    unfold envI
    rw [if_neg (by omega), if_pos (by omega), show (2304 + i.1) % 256 = i.1 by omega, rd_lt _ _ _ i.2]
  · rw [if_neg c]
    rw [show wFin (wInv 8 a) i = wInv 8 a i by unfold wFin; rw [if_neg c]]
    have := envI_x M a 8 i.1 (by omega) i.2
    rw [show 256 * 8 + i.1 = 2048 + i.1 by omega] at this
    rw [this, rd_lt _ _ _ i.2]

/-! ## Unpacking and pointwise products -/

theorem nttunpackC_eq (M : Mach) (a : VPoly) (i : Fin 256) : nttunpackC M a i = a ⟨perm i.1, perm_lt i.1 i.2⟩ := by
  have hd : Desc (fun c => if c < 256 then rd 0 a c else envT M c) 32 (rowsX 16 (7000 + ·)) (rowsX 32 (·)) (M.arr 0 256 (rd 0 a)) := by
    refine ⟨rowsX_length _ _, by simp [rowsX_length], fun r hr j => ?_, fun m hm j => ?_⟩
    · rw [lane_rowsX _ _ _ _ hr, arr_reg]
      simp only [V.d, V.ev]
      rw [if_neg (by omega), envT_reg]
    · rw [lane_rowsX _ _ _ _ hm, arr_in _ _ _ _ _ (by omega) (by omega)]
      simp only [V.d, V.ev]
      rw [if_pos (by omega)]; rfl
  have := sym_out (·) _ (fun _ => rfl) 32 (by omega) _ _ _ _ hd _ nttunpack_sym i.1 i.2
  unfold nttunpackC
  rw [this]
  have hp := perm_lt i.1 i.2
  simp only [V.d, V.ev]
  rw [if_pos hp, rd_lt _ _ _ hp]

/-- Values of the variables in the pointwise products. -/
def envP (M : Mach) (a b : VPoly) (c : Nat) : W32 :=
  if c < 1000 then M.mem c else if c < 2000 then rd 0 a (c - 1000) else if c < 3000 then rd 0 b (c - 2000) else envT M c

theorem pwTerm_ev (M : Mach) (env : Nat → W32) (h : ∀ c, 5000 ≤ c → c < 7000 → env c = envT M c) (A : V) : (pwTerm A).d env = mont64 wq wqinv (A.ev env).2 := by
  have e1 : env 5000 = wq := by
    rw [h _ (by omega) (by omega)]; unfold envT; rw [if_neg (by omega), if_neg (by omega), if_pos (by omega)]; exact tab_consts.1
  have e2 : env 5001 = wqinv := by
    rw [h _ (by omega) (by omega)]; unfold envT; rw [if_neg (by omega), if_neg (by omega), if_pos (by omega)]; exact tab_consts.2.1
  unfold pwTerm mont64
  simp only [V.d, V.ev, e1, e2]

theorem pointwiseC_eq (M : Mach) (a b : VPoly) (i : Fin 256) : pointwiseC M a b i = mont64 wq wqinv (smul (a i) (b i)) := by
  have hd : Desc (envP M a b) 174 (rowsX 16 (7000 + ·)) (rowsX 32 (·) ++ rowsX 32 (1000 + ·) ++ rowsX 32 (2000 + ·) ++ rowsX 78 tabCode)
      (((M.arr 256 256 (rd 0 a)).arr 512 256 (rd 0 b)).arr 768 624 tab) := by
    refine ⟨rowsX_length _ _, by simp [rowsX_length], fun r hr j => ?_, fun m hm j => ?_⟩
    · rw [lane_rowsX _ _ _ _ hr, arr_reg, arr_reg, arr_reg]
      simp only [V.d, V.ev]
      unfold envP
      rw [if_neg (by omega), if_neg (by omega), if_neg (by omega), envT_reg]
    · rw [lane_append, lane_append, lane_append]
      simp only [List.length_append, rowsX_length]
      by_cases c1 : m < 32
      · rw [if_pos (by omega), if_pos (by omega), if_pos c1, lane_rowsX _ _ _ _ c1, arr_out _ _ _ _ _ (by omega), arr_out _ _ _ _ _ (by omega), arr_out _ _ _ _ _ (by omega)]
        simp only [V.d, V.ev]; unfold envP; rw [if_pos (by omega)]
      · by_cases c2 : m < 64
        · rw [if_pos (by omega), if_pos (by omega), if_neg c1, lane_rowsX _ _ _ _ (by omega), arr_out _ _ _ _ _ (by omega), arr_out _ _ _ _ _ (by omega),
            arr_in _ _ _ _ _ (by omega) (by omega)]
          simp only [V.d, V.ev]; unfold envP; rw [if_neg (by omega), if_pos (by omega)]
          exact congrArg (rd 0 a) (by omega)
        · by_cases c3 : m < 96
          · rw [if_pos (by omega), if_neg (by omega), lane_rowsX _ _ _ _ (by omega), arr_out _ _ _ _ _ (by omega), arr_in _ _ _ _ _ (by omega) (by omega)]
            simp only [V.d, V.ev]; unfold envP; rw [if_neg (by omega), if_neg (by omega), if_pos (by omega)]
            exact congrArg (rd 0 b) (by omega)
          · rw [if_neg (by omega), lane_rowsX _ _ _ _ (by omega), arr_in _ _ _ _ _ (by omega) (by omega)]
            have ht := envT_tab M (8 * (m - 96) + j.1) (by omega)
            have hc : 3000 ≤ tabCode (8 * (m - 96) + j.1) := by unfold tabCode; split <;> [omega; split <;> omega]
            simp only [V.d, V.ev]
            unfold envP
            rw [show 32 + 32 + 32 = 96 by rfl, if_neg (by omega), if_neg (by omega), if_neg (by omega), ht]
            exact congrArg tab (by omega)
  have := sym_out (·) _ (fun _ => rfl) 174 (by omega) _ _ _ _ hd _ pointwise_sym i.1 i.2
  unfold pointwiseC
  rw [this, pwTerm_ev M _ (fun c h1 h2 => by unfold envP; rw [if_neg (by omega), if_neg (by omega), if_neg (by omega)])]
  simp only [V.ev]
  unfold envP
  rw [if_neg (by omega), if_pos (by omega), if_neg (by omega), if_neg (by omega), if_pos (by omega), rd_lt _ _ _ (by omega), rd_lt _ _ _ (by omega)]
  simp

theorem pointwiseC'_eq (M : Mach) (a b : VPoly) (i : Fin 256) : pointwiseC' M a b i = mont64 wq wqinv (smul (a i) (b i)) := by
  have hd : Desc (envP M a b) 142 (rowsX 16 (7000 + ·)) (rowsX 32 (2000 + ·) ++ rowsX 32 (1000 + ·) ++ rowsX 78 tabCode)
      (((M.arr 256 256 (rd 0 a)).arr 0 256 (rd 0 b)).arr 512 624 tab) := by
    refine ⟨rowsX_length _ _, by simp [rowsX_length], fun r hr j => ?_, fun m hm j => ?_⟩
    · rw [lane_rowsX _ _ _ _ hr, arr_reg, arr_reg, arr_reg]
      simp only [V.d, V.ev]
      unfold envP
      rw [if_neg (by omega), if_neg (by omega), if_neg (by omega), envT_reg]
    · rw [lane_append, lane_append]
      simp only [List.length_append, rowsX_length]
      by_cases c1 : m < 32
      · rw [if_pos (by omega), if_pos (by omega), lane_rowsX _ _ _ _ (by omega), arr_out _ _ _ _ _ (by omega), arr_in _ _ _ _ _ (by omega) (by omega)]
        simp only [V.d, V.ev]; unfold envP; rw [if_neg (by omega), if_neg (by omega), if_pos (by omega)]
        exact congrArg (rd 0 b) (by omega)
      · by_cases c2 : m < 64
        · rw [if_pos (by omega), if_neg (by omega), lane_rowsX _ _ _ _ (by omega), arr_out _ _ _ _ _ (by omega), arr_out _ _ _ _ _ (by omega),
            arr_in _ _ _ _ _ (by omega) (by omega)]
          simp only [V.d, V.ev]; unfold envP; rw [if_neg (by omega), if_pos (by omega)]
          exact congrArg (rd 0 a) (by omega)
        · rw [if_neg (by omega), lane_rowsX _ _ _ _ (by omega), arr_in _ _ _ _ _ (by omega) (by omega)]
          have ht := envT_tab M (8 * (m - 64) + j.1) (by omega)
          have hc : 3000 ≤ tabCode (8 * (m - 64) + j.1) := by unfold tabCode; split <;> [omega; split <;> omega]
          simp only [V.d, V.ev]
          unfold envP
          rw [show 32 + 32 = 64 by rfl, if_neg (by omega), if_neg (by omega), if_neg (by omega), ht]
          exact congrArg tab (by omega)
  have := sym_out (·) _ (fun _ => rfl) 142 (by omega) _ _ _ _ hd _ pointwise'_sym i.1 i.2
  unfold pointwiseC'
  rw [this, pwTerm_ev M _ (fun c h1 h2 => by unfold envP; rw [if_neg (by omega), if_neg (by omega), if_neg (by omega)])]
  simp only [V.ev]
  unfold envP
  rw [if_neg (by omega), if_pos (by omega), if_neg (by omega), if_neg (by omega), if_pos (by omega), rd_lt _ _ _ (by omega), rd_lt _ _ _ (by omega)]
  simp

/-- Values of the variables in `pointwise_acc_avx`. -/
def envA (M : Mach) (u v : Fin 4 → VPoly) (c : Nat) : W32 :=
  if c < 1000 then M.mem c else if c < 10000 then envT M c
  else if c < 20000 then rd 0 (u (Fin.ofNat 4 ((c - 10000) / 256))) ((c - 10000) % 256) else rd 0 (v (Fin.ofNat 4 ((c - 20000) / 256))) ((c - 20000) % 256)

theorem pointwiseAccC_eq (M : Mach) (u v : Fin 4 → VPoly) (i : Fin 256) :
    pointwiseAccC M u v i = mont64 wq wqinv (smul (u 0 i) (v 0 i) + smul (u 1 i) (v 1 i) + smul (u 2 i) (v 2 i) + smul (u 3 i) (v 3 i)) := by
  have hd : Desc (envA M u v) 366 (rowsX 16 (7000 + ·)) (rowsX 32 (·) ++ rowsX 128 (10000 + ·) ++ rowsX 128 (20000 + ·) ++ rowsX 78 tabCode)
      (((M.arr 256 1024 (fun n => rd 0 (u (Fin.ofNat 4 (n / 256))) (n % 256))).arr 1280 1024 (fun n => rd 0 (v (Fin.ofNat 4 (n / 256))) (n % 256))).arr 2304 624 tab) := by
    refine ⟨rowsX_length _ _, by simp [rowsX_length], fun r hr j => ?_, fun m hm j => ?_⟩
    · rw [lane_rowsX _ _ _ _ hr, arr_reg, arr_reg, arr_reg]
      simp only [V.d, V.ev]
      unfold envA
      rw [if_neg (by omega), if_pos (by omega), envT_reg]
    · rw [lane_append, lane_append, lane_append]
      simp only [List.length_append, rowsX_length]
      by_cases c1 : m < 32
      · rw [if_pos (by omega), if_pos (by omega), if_pos c1, lane_rowsX _ _ _ _ c1, arr_out _ _ _ _ _ (by omega), arr_out _ _ _ _ _ (by omega), arr_out _ _ _ _ _ (by omega)]
        simp only [V.d, V.ev]; unfold envA; rw [if_pos (by omega)]
      · by_cases c2 : m < 160
        · rw [if_pos (by omega), if_pos (by omega), if_neg c1, lane_rowsX _ _ _ _ (by omega), arr_out _ _ _ _ _ (by omega), arr_out _ _ _ _ _ (by omega),
            arr_in _ _ _ _ _ (by omega) (by omega)]
          simp only [V.d, V.ev]; unfold envA; rw [if_neg (by omega), if_neg (by omega), if_pos (by omega)]
          rw [show 10000 + (8 * (m - 32) + j.1) - 10000 = 8 * m + j.1 - 256 by omega]
        · by_cases c3 : m < 288
          · rw [if_pos (by omega), if_neg (by omega), lane_rowsX _ _ _ _ (by omega), arr_out _ _ _ _ _ (by omega), arr_in _ _ _ _ _ (by omega) (by omega)]
            simp only [V.d, V.ev]; unfold envA; rw [if_neg (by omega), if_neg (by omega), if_neg (by omega)]
            rw [show 20000 + (8 * (m - (32 + 128)) + j.1) - 20000 = 8 * m + j.1 - 1280 by omega]
          · rw [if_neg (by omega), lane_rowsX _ _ _ _ (by omega), arr_in _ _ _ _ _ (by omega) (by omega)]
            have ht := envT_tab M (8 * (m - 288) + j.1) (by omega)
            have hc : 3000 ≤ tabCode (8 * (m - 288) + j.1) ∧ tabCode (8 * (m - 288) + j.1) < 10000 := by
              have k1 : (8 * (m - 288) + j.1) - 32 < 296 → kap ((8 * (m - 288) + j.1) - 32) < 256 := kap_lt _
              have k2 : (8 * (m - 288) + j.1) - 328 < 296 → kap ((8 * (m - 288) + j.1) - 328) < 256 := kap_lt _
              unfold tabCode; split <;> [omega; split <;> omega]
            simp only [V.d, V.ev]
            unfold envA
            rw [show 32 + 128 + 128 = 288 by rfl, if_neg (by omega), if_pos (by omega), ht]
            exact congrArg tab (by omega)
  have := sym_out (·) _ (fun _ => rfl) 366 (by omega) _ _ _ _ hd _ pointwiseAcc_sym i.1 i.2
  unfold pointwiseAccC
  rw [this, pwTerm_ev M _ (fun c h1 h2 => by unfold envA; rw [if_neg (by omega), if_pos (by omega)])]
  have key : ∀ k : Fin 4, envA M u v (10000 + 256 * k.1 + i.1) = u k i ∧ envA M u v (20000 + 256 * k.1 + i.1) = v k i := fun k => by
    have hi := i.2
    have hk := k.2
    have f1 : 10000 + 256 * k.1 + i.1 - 10000 = 256 * k.1 + i.1 := by rw [Nat.add_assoc, Nat.add_sub_cancel_left]
    have f2 : 20000 + 256 * k.1 + i.1 - 20000 = 256 * k.1 + i.1 := by rw [Nat.add_assoc, Nat.add_sub_cancel_left]
    have e1 : (256 * k.1 + i.1) / 256 = k.1 := by omega
    have e2 : (256 * k.1 + i.1) % 256 = i.1 := by omega
    have e5 : Fin.ofNat 4 k.1 = k := Fin.ext (Nat.mod_eq_of_lt hk)
    unfold envA
    rw [if_neg (by omega), if_neg (by omega), if_pos (by omega), if_neg (by omega), if_neg (by omega), if_neg (by omega), f1, f2, e1, e2, e5, rd_lt _ _ _ hi,
      rd_lt _ _ _ hi]
    exact ⟨rfl, rfl⟩
  simp only [V.ev]
  have k0 := key 0; have k1 := key 1; have k2 := key 2; have k3 := key 3
  norm_num at k0 k1 k2 k3
  rw [k0.1, k0.2, k1.1, k1.2, k2.1, k2.2, k3.1, k3.2]

end Verif.Avx2
