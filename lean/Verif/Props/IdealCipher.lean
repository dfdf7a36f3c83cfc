import Verif.Latke.IdealCipher

/-! # C05–C06: the wide-block cipher -/

namespace Verif.Props
open Verif Verif.Latke

private theorem length_evalDeck (P : SymPrims) (k : Bytes) (a b : UInt8) (x : Bytes) (n : Nat) :
    (evalDeck P k a b x n).length = n := (P.deck _ _ _).2

private theorem xor_len {a b : Bytes} (h : b.length = a.length) : (xorBytes a b).length = a.length := by
  rw [length_xorBytes, h]; simp

/-- Normal form of a block: 16 + 16 + rest. -/
private theorem split3 (x : Bytes) (h : 32 ≤ x.length) :
    ∃ l r0 r, x = l ++ (r0 ++ r) ∧ l.length = 16 ∧ r0.length = 16 := by
  refine ⟨x.take 16, (x.drop 16).take 16, (x.drop 16).drop 16, ?_, ?_, ?_⟩
  · rw [List.take_append_drop, List.take_append_drop]
  · simp; omega
  · simp; omega

private theorem roundR0_app (P : SymPrims) (k l r0 r : Bytes) (hl : l.length = 16) (h0 : r0.length = 16) :
    roundR0 P k (l ++ (r0 ++ r)) = some (l ++ (xorBytes r0 (evalDeck P k chH 0 l r0.length) ++ r)) := by
  simp [roundR0, splitAt?_append hl, splitAt?_append h0]

private theorem roundL_app (P : SymPrims) (k l r : Bytes) (hl : l.length = 16) :
    roundL P k (l ++ r) = some (xorBytes l (evalDeck P k chG 1 r l.length) ++ r) := by
  simp [roundL, splitAt?_append hl]

private theorem roundR_app (P : SymPrims) (k l r : Bytes) (hl : l.length = 16) :
    roundR P k (l ++ r) = some (l ++ xorBytes r (evalDeck P k chG 0 l r.length)) := by
  simp [roundR, splitAt?_append hl]

private theorem roundL0_app (P : SymPrims) (k l r : Bytes) (hl : l.length = 16) :
    roundL0 P k (l ++ r) = some (xorBytes l (evalDeck P k chH 1 r l.length) ++ r) := by
  have h2 : splitAt? 16 l = some (l, []) := by
    have := splitAt?_append (n := 16) (a := l) (b := []) hl
    simpa using this
  simp [roundL0, splitAt?_append hl, h2]

private theorem roundL_inv (P : SymPrims) (k x : Bytes) (h : 32 ≤ x.length) :
    ∃ y, roundL P k x = some y ∧ roundL P k y = some x ∧ y.length = x.length := by
  obtain ⟨l, r0, r, rfl, hl, _⟩ := split3 x h
  have hx := xor_len (length_evalDeck P k chG 1 (r0 ++ r) l.length)
  refine ⟨_, roundL_app P k l _ hl, ?_, by simp [hx]⟩
  rw [roundL_app P k _ _ (by rw [hx, hl]), hx, xorBytes_self_cancel _ _ (length_evalDeck ..).symm]

private theorem roundR_inv (P : SymPrims) (k x : Bytes) (h : 32 ≤ x.length) :
    ∃ y, roundR P k x = some y ∧ roundR P k y = some x ∧ y.length = x.length := by
  obtain ⟨l, r0, r, rfl, hl, _⟩ := split3 x h
  have hx := xor_len (length_evalDeck P k chG 0 l (r0 ++ r).length)
  refine ⟨_, roundR_app P k l _ hl, ?_, by rw [List.length_append, hx, List.length_append (as := l)]⟩
  rw [roundR_app P k _ _ hl, hx, xorBytes_self_cancel _ _ (length_evalDeck ..).symm]

private theorem roundL0_inv (P : SymPrims) (k x : Bytes) (h : 32 ≤ x.length) :
    ∃ y, roundL0 P k x = some y ∧ roundL0 P k y = some x ∧ y.length = x.length := by
  obtain ⟨l, r0, r, rfl, hl, _⟩ := split3 x h
  have hx := xor_len (length_evalDeck P k chH 1 (r0 ++ r) l.length)
  refine ⟨_, roundL0_app P k l _ hl, ?_, by simp [hx]⟩
  rw [roundL0_app P k _ _ (by rw [hx, hl]), hx, xorBytes_self_cancel _ _ (length_evalDeck ..).symm]

private theorem roundR0_inv (P : SymPrims) (k x : Bytes) (h : 32 ≤ x.length) :
    ∃ y, roundR0 P k x = some y ∧ roundR0 P k y = some x ∧ y.length = x.length := by
  obtain ⟨l, r0, r, rfl, hl, h0⟩ := split3 x h
  have hx := xor_len (length_evalDeck P k chH 0 l r0.length)
  refine ⟨_, roundR0_app P k l _ _ hl h0, ?_, by simp [hx]⟩
  rw [roundR0_app P k _ _ _ hl (by rw [hx, h0]), hx, xorBytes_self_cancel _ _ (length_evalDeck ..).symm]

/-- C05: decryption undoes encryption, on every block of at least 32 bytes (any deck function, any key). -/
theorem C05_decrypt_encrypt (P : SymPrims) (key x : Bytes) (h : 32 ≤ x.length) :
    ∃ y, wideBlockEncrypt P key x = some y ∧ wideBlockDecrypt P key y = some x := by
  obtain ⟨a, a1, a2, a3⟩ := roundR0_inv P key x h
  obtain ⟨b, b1, b2, b3⟩ := roundL_inv P key a (by omega)
  obtain ⟨c, c1, c2, c3⟩ := roundR_inv P key b (by omega)
  obtain ⟨d, d1, d2, d3⟩ := roundL0_inv P key c (by omega)
  exact ⟨d, by simp [wideBlockEncrypt, a1, b1, c1, d1], by simp [wideBlockDecrypt, d2, c2, b2, a2]⟩

/-- C05: encryption undoes decryption. -/
theorem C05_encrypt_decrypt (P : SymPrims) (key y : Bytes) (h : 32 ≤ y.length) :
    ∃ x, wideBlockDecrypt P key y = some x ∧ wideBlockEncrypt P key x = some y := by
  obtain ⟨a, a1, a2, a3⟩ := roundL0_inv P key y h
  obtain ⟨b, b1, b2, b3⟩ := roundR_inv P key a (by omega)
  obtain ⟨c, c1, c2, c3⟩ := roundL_inv P key b (by omega)
  obtain ⟨d, d1, d2, d3⟩ := roundR0_inv P key c (by omega)
  exact ⟨d, by simp [wideBlockDecrypt, a1, b1, c1, d1], by simp [wideBlockEncrypt, d2, c2, b2, a2]⟩

/-- C06: encryption preserves the length of the block. -/
theorem C06_encrypt_length (P : SymPrims) (key x y : Bytes) (h : wideBlockEncrypt P key x = some y) :
    y.length = x.length ∧ 32 ≤ x.length := by
  by_cases hx : 32 ≤ x.length
  · refine ⟨?_, hx⟩
    obtain ⟨a, a1, _, a3⟩ := roundR0_inv P key x hx
    obtain ⟨b, b1, _, b3⟩ := roundL_inv P key a (by omega)
    obtain ⟨c, c1, _, c3⟩ := roundR_inv P key b (by omega)
    obtain ⟨d, d1, _, d3⟩ := roundL0_inv P key c (by omega)
    have : y = d := by simpa [wideBlockEncrypt, a1, b1, c1, d1] using h.symm
    rw [this]; omega
  · exfalso
    unfold wideBlockEncrypt roundR0 at h
    simp only [splitAt?] at h
    by_cases h16 : 16 ≤ x.length
    · rw [if_pos h16] at h
      simp only [Option.bind_eq_bind, Option.bind_some, List.length_drop] at h
      rw [if_neg (by omega)] at h
      simp at h
    · rw [if_neg h16] at h; simp at h

/-- C06: decryption preserves the length of the block. -/
theorem C06_decrypt_length (P : SymPrims) (key x y : Bytes) (hx : 32 ≤ x.length)
    (h : wideBlockDecrypt P key x = some y) : y.length = x.length := by
  obtain ⟨z, z1, z2⟩ := C05_encrypt_decrypt P key x hx
  rw [z1] at h
  simp only [Option.some.injEq] at h
  subst h
  exact (C06_encrypt_length P key _ _ z2).1.symm

/-- C06: encryption panics exactly on blocks shorter than 32 bytes. -/
theorem C06_encrypt_panics_iff (P : SymPrims) (key x : Bytes) :
    wideBlockEncrypt P key x = none ↔ x.length < 32 := by
  constructor
  · intro h
    by_cases hx : 32 ≤ x.length
    · obtain ⟨y, hy, _⟩ := C05_decrypt_encrypt P key x hx
      rw [hy] at h; simp at h
    · omega
  · intro h
    cases hy : wideBlockEncrypt P key x with
    | none => rfl
    | some y => have := (C06_encrypt_length P key x y hy).2; omega

/-- C06: decryption panics exactly on blocks shorter than 32 bytes. -/
theorem C06_decrypt_panics_iff (P : SymPrims) (key x : Bytes) :
    wideBlockDecrypt P key x = none ↔ x.length < 32 := by
  constructor
  · intro h
    by_cases hx : 32 ≤ x.length
    · obtain ⟨y, hy, _⟩ := C05_encrypt_decrypt P key x hx
      rw [hy] at h; simp at h
    · omega
  · intro hx
    unfold wideBlockDecrypt
    by_cases h16 : 16 ≤ x.length
    · have hl : (x.take 16).length = 16 := by simp; omega
      have e : x = x.take 16 ++ x.drop 16 := (List.take_append_drop 16 x).symm
      rw [e, roundL0_app P key _ _ hl]
      have hx1 := xor_len (length_evalDeck P key chH 1 (x.drop 16) (x.take 16).length)
      simp only [Option.bind_eq_bind, Option.bind_some]
      rw [roundR_app P key _ _ (by rw [hx1, hl])]
      simp only [Option.bind_some]
      rw [roundL_app P key _ _ (by rw [hx1, hl])]
      simp only [Option.bind_some]
      unfold roundR0
      rw [splitAt?_append (by rw [xor_len (length_evalDeck ..), hx1, hl])]
      simp only [Option.bind_eq_bind, Option.bind_some]
      rw [splitAt?, if_neg]
      · rfl
      · rw [xor_len (length_evalDeck ..)]
        simp; omega
    · simp [roundL0, splitAt?, h16]

/-- C05: for every key and every length from 32 up, encryption is a bijection of the blocks of that length. -/
theorem C05_bijection (P : SymPrims) (key : Bytes) (n : Nat) (hn : 32 ≤ n) :
    (∀ x x' y, x.length = n → x'.length = n → wideBlockEncrypt P key x = some y →
        wideBlockEncrypt P key x' = some y → x = x') ∧
    (∀ y, y.length = n → ∃ x, x.length = n ∧ wideBlockEncrypt P key x = some y) := by
  constructor
  · intro x x' y hx hx' h h'
    obtain ⟨z, z1, z2⟩ := C05_decrypt_encrypt P key x (by omega)
    obtain ⟨w, w1, w2⟩ := C05_decrypt_encrypt P key x' (by omega)
    rw [h] at z1; rw [h'] at w1
    simp only [Option.some.injEq] at z1 w1
    subst z1; subst w1
    rw [z2] at w2
    simpa using w2
  · intro y hy
    obtain ⟨x, x1, x2⟩ := C05_encrypt_decrypt P key y (by omega)
    exact ⟨x, by rw [← hy, (C06_encrypt_length P key x y x2).1], x2⟩

/-- Non-vacuity: a concrete 40-byte block is changed by encryption and restored by decryption; 31 bytes panic. -/
example :
    let x : Bytes := (List.range 40).map UInt8.ofNat
    (wideBlockEncrypt toyPrims [1, 2] x).isSome ∧ wideBlockEncrypt toyPrims [1, 2] x ≠ some x ∧
    (wideBlockEncrypt toyPrims [1, 2] x).bind (wideBlockDecrypt toyPrims [1, 2]) = some x ∧
    wideBlockEncrypt toyPrims [1, 2] (x.take 31) = none := by
  decide +kernel

end Verif.Props
