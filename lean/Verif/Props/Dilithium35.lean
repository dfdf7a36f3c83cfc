import Verif.Dilithium35.NoUb
import Verif.Dilithium35.Formats
import Verif.Dilithium35.Toy

/-!
# Properties C113–C118: Dilithium3 and Dilithium5 (the bundled `clean` C implementations)

`md : Mode` is the parameter set: every statement is about both.  `C : CSem` is the behaviour of undefined signed overflow and out-of-bounds reads:
arbitrary.  Vocabulary: `Verif/Dilithium35/Spec.lean`, `Verif/Dilithium/Spec.lean` (the published specification).
-/

namespace Verif.Props

open Verif.Dilithium35
open Verif.Dilithium (CSem Shake wrapSem Poly Q Bnd stream256 squeeze squeeze_length shake256 polyUniform exists_isNtt toyH polyt1Pack polyt1Unpack polyt0Pack polyt0Unpack)
open Verif.Dilithium.Spec (Rq toRq std IsNtt modpm IsField)

variable {md : Mode} {C : CSem} {H : Shake}

/-! ## C113: rounding and hints -/

/-- C113: `decompose` is the specification's `Decompose`: `a ≡ a1·α + a0 (mod q)` with `0 ≤ a1 < 16` and `-α/2 < a0 ≤ α/2` for `α = 523776`, except that
the top interval has `a1 = 0` and `a0 = a - q`. -/
theorem C113_decompose (a : Int) (h1 : 0 ≤ a) (h2 : a < 8380417) :
    decompose C a = Spec.decompose a ∧ 0 ≤ (decompose C a).1 ∧ (decompose C a).1 < 16 ∧
    (8380417 : Int) ∣ a - ((decompose C a).1 * 523776 + (decompose C a).2) ∧ -261888 ≤ (decompose C a).2 ∧ (decompose C a).2 ≤ 261888 ∧
    ((decompose C a).2 = -261888 → a = 8380417 - 261888) ∧
    (8380417 - 1 - 261888 < a → (decompose C a).1 = 0 ∧ (decompose C a).2 = a - 8380417) := by
  obtain ⟨b1, b2, h⟩ := decompose_spec (C := C) a h1 h2
  simp only [Q, GAMMA2] at *
  refine ⟨decompose_eq a h1 h2, b1, by omega, ?_, by omega, by omega, by omega, by omega⟩
  rcases h with ⟨e, -⟩ | ⟨e1, e2, -⟩
  · exact ⟨0, by omega⟩
  · exact ⟨1, by omega⟩

/-- C113: no other pair in the ranges represents `a`. -/
theorem C113_decompose_unique (a a1 a0 : Int) (h1 : 0 ≤ a) (h2 : a ≤ 8380417 - 1 - 261888) (b1 : 0 ≤ a1) (b2 : a1 < 16)
    (c1 : -261888 < a0) (c2 : a0 ≤ 261888) (e : (8380417 : Int) ∣ a - (a1 * 523776 + a0)) : decompose C a = (a1, a0) := by
  obtain ⟨d1, d2, h⟩ := decompose_spec (C := C) a h1 (by simp only [Q]; omega)
  obtain ⟨k, hk⟩ := e
  simp only [Q, GAMMA2] at *
  have : k = 0 := by omega
  refine Prod.ext ?_ ?_ <;> simp only <;> omega

/-- C113: if `a ≡ w1·α + v (mod q)` with `|v| < α`, the hint made from the perturbed low part `v` and the high bits `w1` leads the verifier, who only
knows `a`, back to `w1`; and the hint is 0 exactly when the high bits of `a` already are `w1`. -/
theorem C113_useHint_makeHint (a w1 v : Int) (h1 : 0 ≤ a) (h2 : a < 8380417) (hw1 : 0 ≤ w1) (hw2 : w1 < 16) (hv : |v| < 523776)
    (h : (8380417 : Int) ∣ a - (w1 * 523776 + v)) :
    useHint C a (makeHint v w1) = w1 ∧ (makeHint v w1 = 0 ↔ (decompose C a).1 = w1) ∧ (makeHint v w1 = 0 ∨ makeHint v w1 = 1) :=
  have hv' := abs_lt.1 hv
  have := useHint_makeHint (C := C) a w1 v h1 h2 hw1 (by omega) hv'.1 hv'.2 h
  ⟨this.1, this.2, makeHint_01 _ _⟩

/-- C113: `use_hint` is the specification's `UseHint`. -/
theorem C113_useHint (a h : Int) (h1 : 0 ≤ a) (h2 : a < 8380417) (hh : h = 0 ∨ h = 1) : useHint C a h = Spec.useHint h a :=
  useHint_eq a h h1 h2 hh

/-- C113: the specification's lemma for the code: for `|z| ≤ γ2`, `UseHint(MakeHint(z, r), r)` are the high bits of `r + z`. -/
theorem C113_spec_lemma (r z : Int) (h1 : 0 ≤ r) (h2 : r < 8380417) (hz : |z| ≤ 261888) :
    useHint C r (Spec.makeHint z r) = Spec.highBits ((r + z) % 8380417) := by
  have hz' := abs_le.1 hz
  have hm : Spec.makeHint z r = 0 ∨ Spec.makeHint z r = 1 := by unfold Spec.makeHint; split <;> simp
  rw [useHint_eq r _ h1 h2 hm]
  unfold Spec.useHint Spec.makeHint
  by_cases e : Spec.highBits r = Spec.highBits ((r + z) % 8380417)
  · simp [e]
  · simp only [ne_eq, e, not_false_eq_true, if_true]
    have d1 := decompose_spec (C := wrapSem) r h1 h2
    have d2 := decompose_spec (C := wrapSem) ((r + z) % 8380417) (by omega) (by simp only [Q]; omega)
    rw [decompose_eq r h1 h2] at d1
    rw [decompose_eq _ (by omega) (by simp only [Q]; omega)] at d2
    unfold Spec.highBits Spec.lowBits at *
    generalize Spec.decompose r = x at *
    generalize Spec.decompose ((r + z) % 8380417) = y at *
    simp only [Q, GAMMA2] at *
    have hq : (r + z) % 8380417 = r + z ∨ (r + z) % 8380417 = r + z + 8380417 ∨ (r + z) % 8380417 = r + z - 8380417 := by omega
    obtain ⟨x1, x2, hx⟩ := d1
    obtain ⟨y1, y2, hy⟩ := d2
    have hx0 : x.1 = 15 ∨ x.1 = 0 ∨ (0 < x.1 ∧ x.1 < 15) := by omega
    rcases hq with hq | hq | hq <;> rw [hq] at hy <;> rcases hx with hx | hx <;> rcases hy with hy | hy <;>
      rcases hx0 with h0 | h0 | h0 <;> split <;> omega

example : decompose wrapSem 8380416 = (0, -1) ∧ decompose wrapSem (8380417 - 261888) = (0, -261888) ∧ decompose wrapSem 4000000 = (8, -190208) := by decide +kernel
example : useHint wrapSem 3900000 (makeHint (-290208) 8) = 8 ∧ makeHint (-290208) 8 = 1 ∧ (decompose wrapSem 3900000).1 = 7 ∧
    ((8380417 : Int) ∣ 3900000 - (8 * 523776 + -290208)) := by decide +kernel

/-! ## C114: formats -/

/-- C114: the layout.  Each coefficient format is the sequence of little-endian bit fields of its (offset) coefficients: `η - a` in 4 bits (dilithium3) or
3 bits (dilithium5), `2^19 - a` in 20 bits, `a` in 4 bits. -/
theorem C114_layout (b : Bytes) (i : Fin 256) :
    (128 ≤ b.length → IsField 4 b i.1 (4 - polyetaUnpack .three C b i)) ∧ (96 ≤ b.length → IsField 3 b i.1 (2 - polyetaUnpack .five C b i)) ∧
    (640 ≤ b.length → IsField 20 b i.1 (2 ^ 19 - polyzUnpack C b i)) ∧
    (∀ a : Poly, (∀ i, 0 ≤ a i ∧ a i < 2 ^ 4) → IsField 4 (polyw1Pack a) i.1 (a i)) :=
  ⟨fun h => polyeta4_field b h i, fun h => Dilithium.polyeta_field b h i, fun h => polyz_field b h i, fun a ha => polyw1_field a ha i⟩

/-- C114: unpacking a packing (wherever it lies in a longer buffer) returns the coefficients, and packing an unpacking returns the bytes. -/
theorem C114_polynomials (a : Poly) (b rest : Bytes) :
    ((∀ i, -md.ETA ≤ a i ∧ a i ≤ md.ETA) → polyetaUnpack md C (polyetaPack md C a ++ rest) = a) ∧
    ((∀ i, -2 ^ 19 < a i ∧ a i ≤ 2 ^ 19) → polyzUnpack C (polyzPack C a ++ rest) = a) ∧
    (md.ETABYTES ≤ b.length → polyetaPack md C (polyetaUnpack md C b) = b.take md.ETABYTES) ∧
    (640 ≤ b.length → polyzPack C (polyzUnpack C b) = b.take 640) ∧
    (polyetaPack md C a).length = md.ETABYTES ∧ (polyzPack C a).length = 640 ∧ (polyw1Pack a).length = 128 :=
  ⟨fun h => polyeta_un_pk md a rest fun i => ⟨le_trans (etaMin_le md) (h i).1, (h i).2⟩, polyz_un_pk a rest, polyeta_pk_un md b, polyz_pk_un b,
    polyetaPack_len md a, polyzPack_len a, polyw1Pack_len a⟩

theorem d35_pk_len (md : Mode) : md.PKLEN = Spec.pkBytes md := by cases md <;> rfl
theorem d35_sk_len (md : Mode) : md.SKLEN = Spec.skBytes md := by cases md <;> rfl
theorem d35_sig_len (md : Mode) : md.SIGLEN = Spec.sigBytes md := by cases md <;> rfl
theorem d35_seed_len (md : Mode) : md.CTILDE = Spec.seedBytes md := by cases md <;> rfl

/-- C114: public keys, both directions. -/
theorem C114_pk :
    (∀ (rho : Bytes) (t1 : Fin md.K → Poly), rho.length = 32 → (∀ k i, 0 ≤ t1 k i ∧ t1 k i < 2 ^ 10) →
      unpackPk md C (packPk md rho t1) = (rho, t1) ∧ (packPk md rho t1).length = Spec.pkBytes md) ∧
    ∀ pk : Bytes, pk.length = Spec.pkBytes md → packPk md (unpackPk md C pk).1 (unpackPk md C pk).2 = pk :=
  ⟨fun rho t1 hr ht => ⟨unpackPk_packPk rho t1 hr ht, by rw [packPk_len rho t1 hr, d35_pk_len]⟩, fun pk h => packPk_unpackPk pk (by rw [h, d35_pk_len])⟩

/-- C114: secret keys, both directions. -/
theorem C114_sk :
    (∀ f : SkFields md, f.rho.length = 32 → f.key.length = 32 → f.tr.length = 64 → (∀ k i, -md.ETA ≤ f.s1 k i ∧ f.s1 k i ≤ md.ETA) →
      (∀ k i, -md.ETA ≤ f.s2 k i ∧ f.s2 k i ≤ md.ETA) → (∀ k i, -2 ^ 12 < f.t0 k i ∧ f.t0 k i ≤ 2 ^ 12) →
      unpackSk md C (packSk md C f) = f ∧ (packSk md C f).length = Spec.skBytes md) ∧
    ∀ sk : Bytes, sk.length = Spec.skBytes md → packSk md C (unpackSk md C sk) = sk := by
  have he := etaMin_le md
  refine ⟨fun f a b c d e g => ?_, fun sk h => packSk_unpackSk sk (by rw [h, d35_sk_len])⟩
  have ok : SkOk f := ⟨a, b, c, fun k i => ⟨le_trans he (d k i).1, (d k i).2⟩, fun k i => ⟨le_trans he (e k i).1, (e k i).2⟩, g⟩
  exact ⟨unpackSk_packSk f ok, by rw [packSk_len f ok, d35_sk_len]⟩

/-- C114: signatures. -/
theorem C114_sig (c : Bytes) (z : Fin md.L → Poly) (h : Fin md.K → Poly) (hc : c.length = Spec.seedBytes md) (hz : ∀ k i, -2 ^ 19 < z k i ∧ z k i ≤ 2 ^ 19)
    (hh : ∀ k i, h k i = 0 ∨ h k i = 1) (hw : Spec.ones h ≤ (Spec.params md).omega) :
    unpackSig md C (packSig md C c z h) = some (c, z, h) ∧ (packSig md C c z h).length = Spec.sigBytes md := by
  rw [← d35_seed_len] at hc
  rw [(params_eq md).2.1] at hw
  exact ⟨unpackSig_packSig c z h hc hz hh (by rw [← ones_eq_wt h hh]; exact hw), by rw [packSig_len c z h hc, d35_sig_len]⟩

/-- The hint part of a signature string. -/
abbrev hintPart35 (md : Mode) (sig : Bytes) : Bytes := sig.drop (Spec.sigBytes md - (Spec.params md).omega - (Spec.params md).k)

theorem hintPart35_eq (md : Mode) (sig : Bytes) : hintPart35 md sig = sig.drop (md.CTILDE + md.L * 640) := by cases md <;> rfl

/-- C114: the decoder accepts a string of the length of a signature exactly when its last `ω + k` bytes are a canonical hint encoding, and then returns
the hint they denote. -/
theorem C114_accepts (sig : Bytes) (hl : sig.length = Spec.sigBytes md) :
    (unpackSig md C sig = none ↔ ¬ Spec.CanonicalHint (Spec.params md).k (Spec.params md).omega (hintPart35 md sig)) ∧
    ∀ c z h, unpackSig md C sig = some (c, z, h) → Spec.CanonicalHint (Spec.params md).k (Spec.params md).omega (hintPart35 md sig) ∧
      Spec.DenotesHint md.K (Spec.params md).omega (hintPart35 md sig) h ∧ c = sig.take (Spec.seedBytes md) := by
  obtain ⟨-, eo, ek, -⟩ := params_eq md
  rw [hintPart35_eq, eo, ek, ← d35_seed_len]
  have hb : (sig.drop (md.CTILDE + md.L * 640)).length = md.OMEGA + md.K := by
    rw [List.length_drop, hl, ← d35_sig_len]
    simp only [Mode.SIGLEN]
    omega
  constructor
  · unfold unpackSig
    rw [Option.map_eq_none_iff, unpackHint_none _ _ _ hb]
  · intro c z h hu
    unfold unpackSig at hu
    simp only [Option.map_eq_some_iff, Prod.mk.injEq] at hu
    obtain ⟨h', hh, rfl, -, rfl⟩ := hu
    obtain ⟨a, b⟩ := (unpackHint_iff _ _ _ hb h').1 hh
    exact ⟨a, b, rfl⟩

/-- C114: an accepted string is the encoding of what it decodes to. -/
theorem C114_reencode (sig c : Bytes) (z : Fin md.L → Poly) (h : Fin md.K → Poly) (hl : sig.length = Spec.sigBytes md) (hu : unpackSig md C sig = some (c, z, h)) :
    packSig md C c z h = sig ∧ (∀ k i, h k i = 0 ∨ h k i = 1) ∧ Spec.ones h ≤ (Spec.params md).omega := by
  obtain ⟨a, -, -, d, e⟩ := packSig_unpackSig sig c z h (by rw [hl, d35_sig_len]) hu
  exact ⟨a, d, by rw [ones_eq_wt h d, (params_eq md).2.1]; exact e⟩

/-- C114: no two different strings decode to the same `(c, z, h)`. -/
theorem C114_injective (sig sig' : Bytes) (hl : sig.length = Spec.sigBytes md) (hl' : sig'.length = Spec.sigBytes md) (h : unpackSig md C sig ≠ none)
    (e : unpackSig md C sig = unpackSig md C sig') : sig = sig' := by
  cases hu : unpackSig md C sig with
  | none => exact absurd hu h
  | some x =>
    obtain ⟨c, z, hh⟩ := x
    rw [← (C114_reencode sig c z hh hl hu).1, (C114_reencode sig' c z hh hl' (e ▸ hu)).1]

-- A repeated index is refused, as is a non-zero byte after the last index.
example : unpackHint wrapSem 6 55 ([3, 3] ++ List.replicate 53 0 ++ List.replicate 6 2) = none ∧
    unpackHint wrapSem 6 55 ([3, 4, 9] ++ List.replicate 52 0 ++ List.replicate 6 2) = none ∧
    (unpackHint wrapSem 6 55 ([3, 4] ++ List.replicate 53 0 ++ List.replicate 6 2)).isSome = true ∧
    (unpackHint wrapSem 8 75 ([3, 4, 1] ++ List.replicate 72 0 ++ [2, 2, 2, 3, 3, 3, 3, 3])).isSome = true := by decide +kernel
example : unpackSig .three wrapSem (packSig .three wrapSem (List.replicate 48 7) (fun _ i => (i.1 : Int) * 3 - 100) (fun k i => if i.1 = 5 * k.1 then 1 else 0))
    = some (List.replicate 48 7, fun _ i => (i.1 : Int) * 3 - 100, fun k i => if i.1 = 5 * k.1 then 1 else 0) := by
  refine (C114_sig (md := .three) (C := wrapSem) (List.replicate 48 7) (fun _ i => (i.1 : Int) * 3 - 100) (fun k i => if i.1 = 5 * k.1 then 1 else 0)
    List.length_replicate (fun k i => by have := i.2; omega) (fun k i => by split <;> simp) ?_).1
  unfold Spec.ones; decide +kernel

/-! ## C115: completeness, sizes, rejection -/

/-- C115: every signature output under a generated key pair is accepted, and has the advertised size. -/
theorem C115_verify_sign (coins pk sk m sig : Bytes) (hk : keypairDet md C H coins = some (pk, sk)) (hs : signature md C H m sk = some sig) :
    verify md C H sig m pk = some true ∧ sig.length = Spec.sigBytes md := by
  have := verify_signature hk hs
  exact ⟨this.1, by rw [this.2, d35_sig_len]⟩

/-- C115: the attached form opens to the message. -/
theorem C115_open_sign (coins pk sk m sm : Bytes) (hk : keypairDet md C H coins = some (pk, sk)) (hs : cryptoSign md C H m sk = some sm) :
    cryptoOpen md C H sm pk = some (some m) := open_sign hk hs

/-- C115: keys have their advertised sizes. -/
theorem C115_sizes (coins pk sk : Bytes) (hk : keypairDet md C H coins = some (pk, sk)) : pk.length = Spec.pkBytes md ∧ sk.length = Spec.skBytes md := by
  obtain ⟨f, mat, t1, ok⟩ := keypairDet_ok hk
  have he := etaMin_le md
  have hsk : SkOk f := ⟨ok.rho_len, ok.key_len, by rw [ok.tr_eq]; exact Dilithium.shake256_len _ _, fun k i => ⟨le_trans he (ok.s1_range k i).1, (ok.s1_range k i).2⟩,
    fun k i => ⟨le_trans he (ok.s2_range k i).1, (ok.s2_range k i).2⟩, ok.t0_range⟩
  rw [ok.pk_eq, ok.sk_eq, packPk_len _ _ ok.rho_len, packSk_len f hsk, d35_pk_len, d35_sk_len]
  exact ⟨rfl, rfl⟩

/-- C115: verification answers "no" on a signature of the wrong length, with a non-canonical hint encoding, or with a coefficient of `z` of absolute
value at least `γ1 - β`. -/
theorem C115_reject (sig m pk : Bytes)
    (h : sig.length ≠ Spec.sigBytes md ∨ ¬ Spec.CanonicalHint (Spec.params md).k (Spec.params md).omega (hintPart35 md sig) ∨
      ∃ k : Fin md.L, ∃ i, 2 ^ 19 - (Spec.params md).beta ≤ |polyzUnpack C (sig.drop (Spec.seedBytes md + k.1 * 640)) i|) :
    verify md C H sig m pk = some false := by
  by_cases hl : sig.length = Spec.sigBytes md
  · rcases h with h | h | ⟨k, i, h⟩
    · exact absurd hl h
    · exact verify_reject (Or.inr (Or.inl ((C114_accepts sig hl).1.2 h)))
    · cases hu : unpackSig md C sig with
      | none => exact verify_reject (Or.inr (Or.inl hu))
      | some x =>
        obtain ⟨c, z, hh⟩ := x
        refine verify_reject (Or.inr (Or.inr ⟨c, z, hh, hu, k, i, ?_⟩))
        unfold unpackSig at hu
        simp only [Option.map_eq_some_iff, Prod.mk.injEq] at hu
        obtain ⟨-, -, -, hz, -⟩ := hu
        rw [(params_eq md).1, ← d35_seed_len] at h
        rw [← hz]
        exact h
  · exact verify_reject (Or.inl (by rw [d35_sig_len]; exact hl))

/-- C115: opening anything shorter than a signature fails; what opens is the part after a signature that verifies. -/
theorem C115_open (sm pk : Bytes) :
    (sm.length < Spec.sigBytes md → cryptoOpen md C H sm pk = some none) ∧
    ∀ m, cryptoOpen md C H sm pk = some (some m) → m = sm.drop (Spec.sigBytes md) ∧ verify md C H (sm.take (Spec.sigBytes md)) m pk = some true := by
  rw [← d35_sig_len]
  unfold cryptoOpen
  constructor
  · intro h; rw [if_pos h]
  · intro m h
    split at h
    · cases h
    · simp only [Option.bind_eq_bind, Option.bind_eq_some_iff, Option.pure_def, Option.some.injEq] at h
      obtain ⟨ok, h1, h2⟩ := h
      cases ok with
      | false => simp at h2
      | true =>
        simp only [if_true, Option.some.injEq] at h2
        rw [← h2]
        exact ⟨rfl, h1⟩

/-- C115 is not vacuous: for the toy hash every coin string gives a key pair, and every message is signed. -/
example (coins m : Bytes) : ∃ pk sk sig, keypairDet md wrapSem toyH coins = some (pk, sk) ∧ signature md wrapSem toyH m sk = some sig ∧
    verify md wrapSem toyH sig m pk = some true := by
  obtain ⟨pk, sk, h⟩ := toy_keypair (md := md) coins
  obtain ⟨sig, hs⟩ := toy_signs coins pk sk m h
  exact ⟨pk, sk, sig, h, hs, (verify_signature h hs).1⟩

/-! ## C116: samplers and the challenge -/

/-- C116: `poly_uniform_eta` of dilithium3 returns `4 - t` for the first 256 nibbles `t < 9` of the stream, low nibble first, and returns exactly when there
are that many. -/
theorem C116_eta4 (seed : Bytes) (nonce : UInt16) (p : Poly) :
    (polyUniformEta .three C H seed nonce = some p ↔ ∃ m, (((((List.range m).map fun k =>
      if k % 2 = 0 then (stream256 H seed nonce (k / 2)).toNat % 16 else (stream256 H seed nonce (k / 2)).toNat / 16).filter
        fun t => decide (t < 9)).map fun t : Nat => 4 - (t : Int)).take 256) = List.ofFn p) ∧
    (polyUniformEta .three C H seed nonce = some p → ∀ i, -4 ≤ p i ∧ p i ≤ 4) := by
  refine ⟨?_, fun h i => polyUniformEta_range .three H seed nonce p h i⟩
  rw [polyUniformEta_iff]
  unfold Mode.acc accEta4 Dilithium.nib
  simp only [List.range_eq_range']

/-- C116: `poly_uniform_eta` of dilithium5 returns `2 - (t mod 5)` for the first 256 nibbles `t < 15` of the stream. -/
theorem C116_eta2 (seed : Bytes) (nonce : UInt16) (p : Poly) :
    (polyUniformEta .five C H seed nonce = some p ↔ ∃ m, (((((List.range m).map fun k =>
      if k % 2 = 0 then (stream256 H seed nonce (k / 2)).toNat % 16 else (stream256 H seed nonce (k / 2)).toNat / 16).filter
        fun t => decide (t < 15)).map fun t => 2 - ((t % 5 : Nat) : Int)).take 256) = List.ofFn p) ∧
    (polyUniformEta .five C H seed nonce = some p → ∀ i, -2 ≤ p i ∧ p i ≤ 2) := by
  refine ⟨?_, fun h i => polyUniformEta_range .five H seed nonce p h i⟩
  rw [polyUniformEta_iff]
  unfold Mode.acc Dilithium.accEta Dilithium.nib
  simp only [List.range_eq_range']

/-- C116: `poly_uniform_gamma1` reads 20-bit fields of the stream: coefficient `i` is `2^19` minus field `i`. -/
theorem C116_gamma1 (seed : Bytes) (nonce : UInt16) (i : Fin 256) :
    IsField 20 (squeeze (stream256 H seed nonce) 0 640) i.1 (2 ^ 19 - polyUniformGamma1 C H seed nonce i) ∧
    -2 ^ 19 < polyUniformGamma1 C H seed nonce i ∧ polyUniformGamma1 C H seed nonce i ≤ 2 ^ 19 := by
  refine ⟨?_, polyzUnpack_range _ i⟩
  have h := polyz_field (C := C) (squeeze (stream256 H seed nonce) 0 680) (by rw [squeeze_length]; omega) i
  obtain ⟨h1, h2, h3⟩ := h
  refine ⟨h1, h2, fun t ht => ?_⟩
  rw [show (2 : Int) ^ 19 - polyUniformGamma1 C H seed nonce i = GAMMA1 - polyzUnpack C (squeeze (stream256 H seed nonce) 0 680) i from rfl, h3 t ht]
  unfold Dilithium.Spec.bitAt
  have hi := i.2
  rw [getElem!_pos _ _ (by rw [squeeze_length]; omega), getElem!_pos _ _ (by rw [squeeze_length]; omega)]
  unfold squeeze
  simp only [List.getElem_map, List.getElem_range]

/-- C116: every challenge has exactly `τ` non-zero coefficients, all of them `±1`. -/
theorem C116_challenge (seed : Bytes) (c : Poly) (h : polyChallenge md C H seed = some c) :
    (∀ j, c j = 0 ∨ c j = 1 ∨ c j = -1) ∧ (Finset.univ.filter fun i => c i ≠ 0).card = (Spec.params md).tau := by
  have := polyChallenge_spec md H seed c h
  refine ⟨this.1, this.2.trans ?_⟩
  cases md <;> rfl

/-- C116: the challenge is the specification's `SampleInBall` of the hash of the first 32 bytes of the seed, and exists exactly when that does.  The seeds of
dilithium3 and dilithium5 have 48 and 64 bytes: the code does not use the rest of them here. -/
theorem C116_sampleInBall (seed : Bytes) (c : Poly) :
    polyChallenge md C H seed = some c ↔ Spec.SampleInBall (Spec.params md).tau (H.shake256 (seed.take 32)) c := by
  rw [polyChallenge_iff]
  cases md <;> rfl

/-- C116: so seeds that agree on their first 32 bytes give the same challenge. -/
theorem C116_prefix (seed seed' : Bytes) (h : seed.take 32 = seed'.take 32) : polyChallenge md C H seed = polyChallenge md C H seed' :=
  Option.ext fun c => by rw [C116_sampleInBall, C116_sampleInBall, h]

example (seed : Bytes) (nonce : UInt16) : (∃ c, polyChallenge md wrapSem toyH seed = some c) ∧ polyUniformEta md wrapSem toyH seed nonce = some (toyS md) :=
  ⟨toy_challenge seed, toy_eta md seed nonce⟩

/-! ## C117: the algorithms are those of the specification -/

theorem forVec35_iff {α : Type} (n : Nat) (f : Fin n → Option α) (v : Fin n → α) : forVec n f = some v ↔ ∀ i, f i = some (v i) :=
  ⟨fun h i => forVec_some n f v h i, forVec_const n f v⟩

/-- C117: key generation.  With the seeds and samples named, and `A` the matrix whose NTT was sampled, the keys are the encodings of
`(rho, t1)` and `(rho, K, tr, s1, s2, t0)` for `(t1, t0) = Power2Round(A·s1 + s2)`. -/
theorem C117_keygen (coins : Bytes) (mat : Mat md) (s1 : Fin md.L → Poly) (s2 : Fin md.K → Poly) (A : Fin md.K → Fin md.L → Rq) (rho rhoprime key : Bytes)
    (hseed : shake256 H 128 (coins.take 32) = rho ++ rhoprime ++ key) (lr : rho.length = 32) (lp : rhoprime.length = 64) (lk : key.length = 32)
    (hmat : ∀ i j, polyUniform C H rho (UInt16.ofNat (i.1 * 256 + j.1)) = some (mat i j))
    (hs1 : ∀ j : Fin md.L, polyUniformEta md C H rhoprime (UInt16.ofNat j.1) = some (s1 j))
    (hs2 : ∀ j : Fin md.K, polyUniformEta md C H rhoprime (UInt16.ofNat ((Spec.params md).l + j.1)) = some (s2 j)) (hA : ∀ i j, IsNtt (A i j) (mat i j)) :
    ∃ pk sk, keypairDet md C H coins = some (pk, sk) ∧
      pk = packPk md rho (fun k i => (Dilithium.Spec.power2Round (Spec.tOf A s1 s2 k i)).1) ∧
      sk = packSk md C { rho := rho, tr := shake256 H 64 pk, key := key, s1 := s1, s2 := s2,
                          t0 := fun k i => (Dilithium.Spec.power2Round (Spec.tOf A s1 s2 k i)).2 } := by
  have hm : matrixExpand md C H rho = some mat := (forVec35_iff _ _ _).2 fun i => (forVec35_iff _ _ _).2 fun j => hmat i j
  have h1 : vecUniformEta md C H md.L rhoprime 0 = some s1 := (forVec35_iff _ _ _).2 fun j => by rw [UInt16.zero_add]; exact hs1 j
  have h2 : vecUniformEta md C H md.K rhoprime (UInt16.ofNat md.L) = some s2 := (forVec35_iff _ _ _).2 fun j => by
    rw [← UInt16.ofNat_add, ← (params_eq md).2.2.2]; exact hs2 j
  exact ⟨_, _, keypair_eq rho rhoprime key hseed lr lp lk hm h1 h2 hA, rfl, rfl⟩

/-- C117: signing.  For a secret key holding `(rho, K, tr, s1, s2, t0)`, the signature is the encoding of `(c~, z, h)` of the first attempt
that meets the specification's conditions; an attempt draws `y` from the mask seed and its number, and derives everything else from it. -/
theorem C117_sign (m sig : Bytes) (f : SkFields md) (mat : Mat md) (A : Fin md.K → Fin md.L → Rq) (lr : f.rho.length = 32) (lk : f.key.length = 32)
    (lt : f.tr.length = 64) (h1 : ∀ k i, -md.ETA ≤ f.s1 k i ∧ f.s1 k i ≤ md.ETA) (h2 : ∀ k i, -md.ETA ≤ f.s2 k i ∧ f.s2 k i ≤ md.ETA)
    (h0 : ∀ k i, -2 ^ 12 < f.t0 k i ∧ f.t0 k i ≤ 2 ^ 12) (hmat : matrixExpand md C H f.rho = some mat) (hA : ∀ i j, IsNtt (A i j) (mat i j))
    (mu rhoprime : Bytes) (hmu : mu = shake256 H 64 (f.tr ++ m)) (hrp : rhoprime = shake256 H 64 (f.key ++ List.replicate 32 0 ++ mu))
    (y : Nat → Fin md.L → Poly) (w : Nat → Fin md.K → Poly)
    (hy : ∀ n, y n = fun k => polyUniformGamma1 C H rhoprime (UInt16.ofNat (Spec.params md).l * UInt16.ofNat n + UInt16.ofNat k.1)) (hw : ∀ n, w n = Spec.wOf A (y n))
    (ct : Nat → Bytes) (hct : ∀ n, ct n = shake256 H (Spec.seedBytes md) (mu ++ vecPackW1 fun k i => Spec.highBits (w n k i))) :
    signature md C H m (packSk md C f) = some sig ↔
    ∃ n, (∀ j < n, ∃ c, polyChallenge md C H (ct j) = some c ∧ ¬ Spec.Accept (Spec.params md) (w j) (y j) c f.s1 f.s2 f.t0) ∧
      ∃ c, polyChallenge md C H (ct n) = some c ∧ Spec.Accept (Spec.params md) (w n) (y n) c f.s1 f.s2 f.t0 ∧
        sig = packSig md C (ct n) (Spec.zOf (y n) c f.s1) (Spec.hOf (Spec.rOf (w n) c f.s2) c f.t0) := by
  have he := etaMin_le md
  have ok : SkOk f := ⟨lr, lk, lt, fun k i => ⟨le_trans he (h1 k i).1, (h1 k i).2⟩, fun k i => ⟨le_trans he (h2 k i).1, (h2 k i).2⟩, h0⟩
  have hm := fun i j => matrixExpand_bnd hmat i j
  have h0' : ∀ k, Bnd 4096 (f.t0 k) := fun k i => by have := h0 k i; omega
  rw [(params_eq md).2.2.2] at hy
  rw [← d35_seed_len] at hct
  have hsg : signature md C H m (packSk md C f) = signLoop md C H ⟨mu, rhoprime, mat, vecNtt C f.s1, vecNtt C f.s2, vecNtt C f.t0⟩ 0 := by
    unfold signature signCtx
    rw [unpackSk_packSk f ok]
    simp only [hmat, Option.bind_eq_bind, Option.bind_some, Option.pure_def]
    rw [← hmu, ← hrp]
  have hno : ∀ n : Nat, (0 : UInt16) + UInt16.ofNat n = UInt16.ofNat n := fun n => UInt16.zero_add _
  have hcase : ∀ n, (polyChallenge md C H (ct n) = none ∧ signAttempt md C H ⟨mu, rhoprime, mat, vecNtt C f.s1, vecNtt C f.s2, vecNtt C f.t0⟩ (UInt16.ofNat n) = none) ∨
      ∃ c, polyChallenge md C H (ct n) = some c ∧
        ((Spec.Accept (Spec.params md) (w n) (y n) c f.s1 f.s2 f.t0 ∧ signAttempt md C H ⟨mu, rhoprime, mat, vecNtt C f.s1, vecNtt C f.s2, vecNtt C f.t0⟩ (UInt16.ofNat n) =
          some (some (packSig md C (ct n) (Spec.zOf (y n) c f.s1) (Spec.hOf (Spec.rOf (w n) c f.s2) c f.t0)))) ∨
        (¬ Spec.Accept (Spec.params md) (w n) (y n) c f.s1 f.s2 f.t0 ∧
          signAttempt md C H ⟨mu, rhoprime, mat, vecNtt C f.s1, vecNtt C f.s2, vecNtt C f.t0⟩ (UInt16.ofNat n) = some none)) := by
    intro n
    cases hcp : polyChallenge md C H (ct n) with
    | none => exact Or.inl ⟨rfl, signAttempt_none hm hA (hy n).symm (hw n).symm (hct n).symm hcp⟩
    | some c =>
      refine Or.inr ⟨c, rfl, ?_⟩
      have := signAttempt_eq hm hA h1 h2 h0' (hy n).symm (hw n).symm (hct n).symm hcp
      by_cases ha : Spec.Accept (Spec.params md) (w n) (y n) c f.s1 f.s2 f.t0
      · exact Or.inl ⟨ha, this.1 ha⟩
      · exact Or.inr ⟨ha, this.2 ha⟩
  rw [hsg, signLoop_iff]
  refine exists_congr fun n => and_congr ?_ ?_
  · refine forall_congr' fun j => forall_congr' fun _ => ?_
    rw [hno]
    rcases hcase j with ⟨e1, e2⟩ | ⟨c, e1, ⟨ha, e2⟩ | ⟨ha, e2⟩⟩ <;> rw [e1, e2]
    · simp
    · simp [ha]
    · simp [ha]
  · rw [hno]
    rcases hcase n with ⟨e1, e2⟩ | ⟨c, e1, ⟨ha, e2⟩ | ⟨ha, e2⟩⟩ <;> rw [e1, e2]
    · simp
    · simp [ha, eq_comm]
    · simp [ha]

/-- C117: verification.  A well-formed signature is accepted exactly when its challenge seed is the hash of `mu` and `w1'`, where
`w1' = UseHint(h, A·z - c·t1·2^13)`. -/
theorem C117_verify (sig m pk c : Bytes) (z : Fin md.L → Poly) (h : Fin md.K → Poly) (cp : Poly) (mat : Mat md) (A : Fin md.K → Fin md.L → Rq)
    (hl : sig.length = Spec.sigBytes md) (hpk : pk.length = Spec.pkBytes md)
    (hu : unpackSig md C sig = some (c, z, h)) (hn : Spec.NormLt z (2 ^ 19 - (Spec.params md).beta)) (hcp : polyChallenge md C H c = some cp)
    (hmat : matrixExpand md C H (pk.take 32) = some mat) (hA : ∀ i j, IsNtt (A i j) (mat i j)) :
    verify md C H sig m pk = some (decide (c = shake256 H (Spec.seedBytes md) (shake256 H 64 (shake256 H 64 pk ++ m) ++
      vecPackW1 (Spec.w1Of A z h cp (unpackPk md C pk).2)))) := by
  rw [(params_eq md).1] at hn
  rw [verify_eq (by rw [hl, d35_sig_len]) hu hn hcp hmat hA, List.take_of_length_le (by rw [hpk, d35_pk_len]), d35_seed_len]

/-- Non-vacuity of C117: the toy run, with `A` the all-ones matrix. -/
example (coins : Bytes) : ∃ pk sk, keypairDet md wrapSem toyH coins = some (pk, sk) ∧
    pk = packPk md (List.replicate 32 0x12) (fun k i => (Dilithium.Spec.power2Round (Spec.tOf (toyA md) (fun _ => toyS md) (fun _ => toyS md) k i)).1) := by
  obtain ⟨pk, sk, h1, h2, -⟩ := C117_keygen (md := md) (C := wrapSem) (H := toyH) coins (fun _ _ _ => 1) (fun _ => toyS md) (fun _ => toyS md) (toyA md) _ _ _
    (Dilithium.toy_seed coins) (by rw [List.length_replicate]) (by rw [List.length_replicate]) (by rw [List.length_replicate])
    (fun _ _ => Dilithium.toy_uniform _ _) (fun _ => toy_eta md _ _) (fun _ => toy_eta md _ _) (fun i j => toyA_ntt i j)
  exact ⟨pk, sk, h1, h2⟩

example (cp : Poly) (seed : Bytes) (h : polyChallenge md wrapSem toyH seed = some cp) :
    Spec.Accept (Spec.params md) (fun (_ : Fin md.K) i => (md.L * toyY i) % 8380417) (fun (_ : Fin md.L) => toyY) cp (fun _ => toyS md) (fun _ => toyS md)
      (fun _ i => (md.L + 1) * toyS md i) :=
  toy_accept cp (polyChallenge_spec md toyH _ cp h).1 (polyChallenge_spec md toyH _ cp h).2

/-! ## C118: no undefined behaviour -/

/-- C118: key generation, signing, verification and opening give results that do not depend on what a signed overflow or an out-of-bounds
read would do, for every seed, every message, every byte string of the size of a secret key, every byte string of the size of a public key,
and every signature string of any length. -/
theorem C118_no_undefined_behaviour (md : Mode) (C C' : CSem) (H : Shake) :
    (∀ coins, keypairDet md C H coins = keypairDet md C' H coins) ∧
    (∀ m sk : Bytes, sk.length = Spec.skBytes md → signature md C H m sk = signature md C' H m sk) ∧
    (∀ sig m pk : Bytes, pk.length = Spec.pkBytes md → verify md C H sig m pk = verify md C' H sig m pk) ∧
    (∀ sm pk : Bytes, pk.length = Spec.pkBytes md → cryptoOpen md C H sm pk = cryptoOpen md C' H sm pk) :=
  ⟨keypairDet_indep C C' H, fun m sk h => signature_indep C C' H m sk (by rw [h, d35_sk_len]), fun sig m pk h => verify_indep C C' H sig m pk (by rw [h, d35_pk_len]),
    fun sm pk h => cryptoOpen_indep C C' H sm pk (by rw [h, d35_pk_len])⟩

end Verif.Props
