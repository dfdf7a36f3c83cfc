import Verif.Props.SaberKem
import Verif.Props.Dilithium
import Verif.Latke.Ibke.SigmaSchemes

/-!
# C75: the Rust interface of Dilithium2; C76: SIGMA-R and LATKE with the shipped primitives
-/

namespace Verif.Props
open Verif Verif.Latke Verif.Saber Verif.Dilithium

section rust
variable (C : CSem) (H : Shake)

/-! ## C75 -/

private theorem filled_eq {n : Nat} {b : Bytes} (h : b.length = n) : (Rust.filled n b).1 = b := by
  unfold Rust.filled
  simp only
  rw [← h, List.take_length, Nat.sub_self]
  simp

/-- C75: keys: exactly the right length is accepted, the bytes are kept, everything else is `BadLength`. -/
theorem C75_key_bytes (b : Bytes) :
    (∀ k, Rust.PublicKey.fromBytes b = .ok k ↔ k.asBytes = b) ∧
    (b.length ≠ 1312 → Rust.PublicKey.fromBytes b = .err (.badLength "PublicKey" b.length 1312)) ∧
    (∀ k, Rust.SecretKey.fromBytes b = .ok k ↔ k.asBytes = b) ∧
    (b.length ≠ 2560 → Rust.SecretKey.fromBytes b = .err (.badLength "SecretKey" b.length 2560)) := by
  refine ⟨fun k => ?_, fun h => ?_, fun k => ?_, fun h => ?_⟩
  · constructor
    · intro h
      unfold Rust.PublicKey.fromBytes Rust.arrFromBytes at h
      by_cases hl : b.length = PKLEN
      · simp only [hl, dite_true, Res.ok.injEq] at h
        rw [← h]; rfl
      · simp [hl] at h
    · intro h
      subst h
      unfold Rust.PublicKey.fromBytes Rust.arrFromBytes Rust.PublicKey.asBytes
      have := k.arr.2
      simp only [this, dite_true]
  · unfold Rust.PublicKey.fromBytes Rust.arrFromBytes
    have : ¬ b.length = PKLEN := h
    simp only [this, dite_false]
  · constructor
    · intro h
      unfold Rust.SecretKey.fromBytes Rust.arrFromBytes at h
      by_cases hl : b.length = SKLEN
      · simp only [hl, dite_true, Res.ok.injEq] at h
        rw [← h]; rfl
      · simp [hl] at h
    · intro h
      subst h
      unfold Rust.SecretKey.fromBytes Rust.arrFromBytes Rust.SecretKey.asBytes
      have := k.arr.2
      simp only [this, dite_true]
  · unfold Rust.SecretKey.fromBytes Rust.arrFromBytes
    have : ¬ b.length = SKLEN := h
    simp only [this, dite_false]

private theorem arrEq_iff {n : Nat} (a b : ByteArr n) : Rust.arrEq a.1 b.1 = true ↔ a = b := by
  obtain ⟨a, ha⟩ := a
  obtain ⟨b, hb⟩ := b
  simp only [Subtype.mk.injEq]
  have hl : a.length = b.length := ha.trans hb.symm
  clear ha hb
  unfold Rust.arrEq
  induction a generalizing b with
  | nil => cases b <;> simp_all
  | cons x a ih =>
    cases b with
    | nil => simp at hl
    | cons y b =>
      have := ih b (by simpa using hl)
      simp only [List.zip_cons_cons, List.all_cons, Bool.and_eq_true, beq_iff_eq, List.cons.injEq]
      exact and_congr_right fun _ => this

/-- C75: key equality is equality of the bytes. -/
theorem C75_key_eq (a b : Rust.PublicKey) (x y : Rust.SecretKey) :
    (a.eq b = true ↔ a.asBytes = b.asBytes) ∧ (x.eq y = true ↔ x.asBytes = y.asBytes) := by
  constructor
  · unfold Rust.PublicKey.eq; rw [arrEq_iff]; exact Subtype.ext_iff
  · unfold Rust.SecretKey.eq; rw [arrEq_iff]; exact Subtype.ext_iff

/-- C75: a detached signature is any string of at most 2420 bytes, kept exactly; longer ones are `BadLength`. -/
theorem C75_signature_bytes (b : Bytes) :
    (b.length ≤ 2420 → ∃ s, Rust.DetachedSignature.fromBytes b = .ok s ∧ s.asBytes = some b) ∧
    (2420 < b.length → Rust.DetachedSignature.fromBytes b = .err (.badLength "DetachedSignature" b.length 2420)) := by
  unfold Rust.DetachedSignature.fromBytes Rust.DetachedSignature.asBytes
  refine ⟨fun h => ?_, fun h => ?_⟩
  · have h' : ¬ b.length > SIGLEN := Nat.not_lt.mpr h
    rw [if_neg h']
    refine ⟨_, rfl, ?_⟩
    have h2 : b.length ≤ SIGLEN := h
    simp only [if_pos h2, Rust.filled]
    rw [List.take_of_length_le h2, List.take_left']
    rfl
  · have h' : b.length > SIGLEN := h
    rw [if_pos h']

/-- C75: verification of a parsed signature is the C verification of exactly the given bytes; it never reports an unknown error. -/
theorem C75_verify_exact (b m : Bytes) (pk : Rust.PublicKey) (s : Rust.DetachedSignature) (hs : Rust.DetachedSignature.fromBytes b = .ok s) :
    Rust.verifyDetachedSignature C H s m pk =
      (verify C H b m pk.asBytes).map fun ok => if ok then .ok () else .err .invalidSignature := by
  unfold Rust.DetachedSignature.fromBytes at hs
  by_cases hl : b.length > SIGLEN
  · rw [if_pos hl] at hs; cases hs
  rw [if_neg hl] at hs
  cases hs
  unfold Rust.verifyDetachedSignature Rust.PublicKey.asBytes
  have h2 : b.length ≤ SIGLEN := Nat.not_lt.mp hl
  have : (Rust.filled SIGLEN b).1.take b.length = b := by
    simp only [Rust.filled]
    rw [List.take_of_length_le h2, List.take_left']
    rfl
  simp only [this]
  cases verify C H b m pk.arr.1 with
  | none => rfl
  | some ok => cases ok <;> rfl

/-- C75: a signature shorter than 2420 bytes parses, and is rejected for every message and key. -/
theorem C75_short_signature_rejected (b m : Bytes) (pk : Rust.PublicKey) (h : b.length < 2420) :
    ∃ s, Rust.DetachedSignature.fromBytes b = .ok s ∧ Rust.verifyDetachedSignature C H s m pk = some (.err .invalidSignature) := by
  obtain ⟨s, hs, _⟩ := (C75_signature_bytes b).1 (le_of_lt h)
  refine ⟨s, hs, ?_⟩
  rw [C75_verify_exact C H b m pk s hs, C63_reject b m pk.asBytes (Or.inl (Nat.ne_of_lt h))]
  rfl

/-- C75: a signature made under a generated key verifies, also after key and signature have been serialised and parsed; it has the advertised length. -/
theorem C75_sign_verify (coins : ByteArr 32) (pk : Rust.PublicKey) (sk : Rust.SecretKey) (m : Bytes) (s : Rust.DetachedSignature)
    (hk : Rust.keypairDet C H coins = some (pk, sk)) (hs : Rust.detachedSign C H m sk = some s) :
    Rust.verifyDetachedSignature C H s m pk = some (.ok ()) ∧
    ∃ b, s.asBytes = some b ∧ b.length = 2420 ∧
      ∃ s' pk', Rust.DetachedSignature.fromBytes b = .ok s' ∧ Rust.PublicKey.fromBytes pk.asBytes = .ok pk' ∧
        Rust.verifyDetachedSignature C H s' m pk' = some (.ok ()) := by
  unfold Rust.keypairDet at hk
  cases hk0 : Dilithium.keypairDet C H coins.1 with
  | none => rw [hk0] at hk; simp at hk
  | some p =>
    obtain ⟨pk0, sk0⟩ := p
    rw [hk0] at hk
    simp only [Option.pure_def, Option.bind_eq_bind, Option.bind_some, Option.some.injEq, Prod.mk.injEq] at hk
    obtain ⟨l1, l2⟩ := C62_sizes coins.1 pk0 sk0 hk0
    have e1 : pk.asBytes = pk0 := by rw [← hk.1]; exact filled_eq l1
    have e2 : sk.arr.1 = sk0 := by rw [← hk.2]; exact filled_eq l2
    unfold Rust.detachedSign at hs
    rw [e2] at hs
    cases hs0 : signature C H m sk0 with
    | none => rw [hs0] at hs; simp at hs
    | some sig =>
      rw [hs0] at hs
      simp only [Option.pure_def, Option.bind_eq_bind, Option.bind_some, Option.some.injEq] at hs
      obtain ⟨hv, hl⟩ := C62_verify_sign coins.1 pk0 sk0 m sig hk0 hs0
      have hb : Rust.DetachedSignature.fromBytes sig = .ok s := by
        unfold Rust.DetachedSignature.fromBytes
        rw [if_neg (by show ¬ sig.length > 2420; omega), ← hs]
        congr 2
      have key := C75_verify_exact C H sig m pk s hb
      rw [e1, hv] at key
      have ha : s.asBytes = some sig := by
        obtain ⟨s', h1, h2⟩ := (C75_signature_bytes sig).1 (le_of_eq hl)
        rw [hb] at h1
        cases h1
        exact h2
      refine ⟨key, sig, ha, hl, s, pk, hb, ((C75_key_bytes _).1 pk).mpr rfl, key⟩

/-- C75: a signed message opens to the message that was signed; and it is the detached signature followed by the message. -/
theorem C75_sign_open (coins : ByteArr 32) (pk : Rust.PublicKey) (sk : Rust.SecretKey) (m : Bytes) (sm : Rust.SignedMessage)
    (hk : Rust.keypairDet C H coins = some (pk, sk)) (hs : Rust.sign C H m sk = some sm) :
    Rust.openSigned C H sm pk = some (.ok m) ∧
    ∃ s b, Rust.detachedSign C H m sk = some s ∧ s.asBytes = some b ∧ sm.vec = b ++ m := by
  unfold Rust.sign at hs
  cases hc : cryptoSign C H m sk.arr.1 with
  | none => rw [hc] at hs; simp at hs
  | some v =>
    rw [hc] at hs
    simp only [Option.pure_def, Option.bind_eq_bind, Option.bind_some, Option.some.injEq] at hs
    have hk' := hk
    unfold Rust.keypairDet at hk
    cases hk0 : Dilithium.keypairDet C H coins.1 with
    | none => rw [hk0] at hk; simp at hk
    | some p =>
      obtain ⟨pk0, sk0⟩ := p
      rw [hk0] at hk
      simp only [Option.pure_def, Option.bind_eq_bind, Option.bind_some, Option.some.injEq, Prod.mk.injEq] at hk
      obtain ⟨l1, l2⟩ := C62_sizes coins.1 pk0 sk0 hk0
      have e1 : pk.arr.1 = pk0 := by rw [← hk.1]; exact filled_eq l1
      have e2 : sk.arr.1 = sk0 := by rw [← hk.2]; exact filled_eq l2
      rw [e2] at hc
      constructor
      · unfold Rust.openSigned
        rw [e1, ← hs, C62_open_sign coins.1 pk0 sk0 m v hk0 hc]
        rfl
      · have hc' := hc
        unfold cryptoSign at hc
        cases hs0 : signature C H m sk0 with
        | none => rw [hs0] at hc; simp at hc
        | some sig =>
          rw [hs0] at hc
          simp only [Option.pure_def, Option.bind_eq_bind, Option.bind_some, Option.some.injEq] at hc
          have hd : Rust.detachedSign C H m sk = some ⟨Rust.filled SIGLEN sig, SIGLEN⟩ := by
            unfold Rust.detachedSign; rw [e2, hs0]; rfl
          have hl := (C62_verify_sign coins.1 pk0 sk0 m sig hk0 hs0).2
          refine ⟨_, sig, hd, ?_, ?_⟩
          · unfold Rust.DetachedSignature.asBytes
            rw [if_pos (le_refl _)]
            simp only
            rw [filled_eq hl, List.take_of_length_le (le_of_eq hl)]
          · rw [← hs, ← hc]

/-- C75: `open` returns a message only if the first 2420 bytes verify as its signature and the rest is the message; otherwise the error is always
`InvalidSignature`. -/
theorem C75_open_exact (sm : Rust.SignedMessage) (pk : Rust.PublicKey) (r) (h : Rust.openSigned C H sm pk = some r) :
    (∀ m, r = .ok m → sm.vec = sm.vec.take 2420 ++ m ∧ 2420 ≤ sm.vec.length ∧ verify C H (sm.vec.take 2420) m pk.asBytes = some true) ∧
    (∀ e, r = .err e → e = .invalidSignature) ∧ r ≠ .panic := by
  unfold Rust.openSigned at h
  unfold cryptoOpen at h
  unfold Rust.PublicKey.asBytes
  by_cases hl : sm.vec.length < SIGLEN
  · simp only [hl, if_true] at h
    simp [Rust.ofRc] at h
    subst h
    simp
  · simp only [hl, if_false] at h
    cases hv : verify C H (sm.vec.take SIGLEN) (sm.vec.drop SIGLEN) pk.arr.1 with
    | none => rw [hv] at h; simp at h
    | some ok =>
      rw [hv] at h
      cases ok
      · simp [Rust.ofRc] at h
        subst h
        simp
      · simp [Rust.ofRc] at h
        subst h
        refine ⟨?_, ?_, ?_⟩
        · intro m hm
          simp only [Res.ok.injEq] at hm
          subst hm
          exact ⟨(List.take_append_drop _ _).symm, Nat.not_lt.mp hl, hv⟩
        · simp
        · simp

/-- C75: `open` returns a message exactly if the signed message is a signature of the right length that verifies, followed by the message; otherwise the error
is `InvalidSignature`. -/
theorem C75_open_iff (sm : Rust.SignedMessage) (pk : Rust.PublicKey) (r) (h : Rust.openSigned C H sm pk = some r) :
    (∀ m, r = .ok m ↔ ∃ sig, sm.vec = sig ++ m ∧ sig.length = SIGLEN ∧ verify C H sig m pk.asBytes = some true) ∧
    ((∃ m, r = .ok m) ∨ r = .err .invalidSignature) := by
  unfold Rust.openSigned at h
  unfold cryptoOpen at h
  unfold Rust.PublicKey.asBytes
  by_cases hl : sm.vec.length < SIGLEN
  · rw [if_pos hl] at h
    simp [Rust.ofRc] at h
    subst h
    refine ⟨fun m => ⟨fun h => (by cases h), ?_⟩, Or.inr rfl⟩
    rintro ⟨sig, e, e2, -⟩
    rw [e, List.length_append] at hl
    omega
  · rw [if_neg hl] at h
    have sp : ∀ (m sig : Bytes), sm.vec = sig ++ m → sig.length = SIGLEN → sm.vec.take SIGLEN = sig ∧ sm.vec.drop SIGLEN = m := fun m sig e e2 => by
      rw [e, ← e2]
      exact ⟨List.take_left, List.drop_left⟩
    cases hv : verify C H (sm.vec.take SIGLEN) (sm.vec.drop SIGLEN) pk.arr.1 with
    | none => rw [hv] at h; simp at h
    | some ok =>
      rw [hv] at h
      cases ok
      · simp [Rust.ofRc] at h
        subst h
        refine ⟨fun m => ⟨fun h => (by cases h), ?_⟩, Or.inr rfl⟩
        rintro ⟨sig, e, e2, v⟩
        obtain ⟨s1, s2⟩ := sp m sig e e2
        rw [s1, s2, v] at hv
        cases hv
      · simp [Rust.ofRc] at h
        subst h
        refine ⟨fun m => ⟨fun h => ?_, ?_⟩, Or.inl ⟨_, rfl⟩⟩
        · cases h
          exact ⟨_, (List.take_append_drop _ _).symm, by rw [List.length_take]; omega, hv⟩
        · rintro ⟨sig, e, e2, v⟩
          rw [(sp m sig e e2).2]

end rust

/-! ## C76 -/

/-- Ed25519 with its laws is a correct SIGMA-R signature scheme: all SIGMA-R theorems apply to it. -/
theorem C76_ed25519_scheme (G : Ed25519) (hG : G.Correct) : (edScheme G).Correct := ⟨fun sk _ m => hG.verify_sign sk m, hG.pk_roundtrip⟩

/-- With these key-generation coins the key pair is generated, and `m` is signed, after finitely many rejections. -/
def DilithiumSigns (C : CSem) (H : Shake) (kc : ByteArr 32) (m : Bytes) : Prop :=
  ∃ pk sk s, Rust.keypairDet C H kc = some (pk, sk) ∧ Rust.detachedSign C H m sk = some s

/-- C76: the Dilithium2 arm: whenever the signer returns, its output is accepted; public keys survive their encoding. -/
theorem C76_dilithium_scheme (C : CSem) (H : Shake) :
    (∀ kc sc m, DilithiumSigns C H kc m → SigmaScheme.SignsOk (dilithiumScheme C H) kc sc m) ∧
    ∀ pk, (dilithiumScheme C H).pkFromBytes ((dilithiumScheme C H).pkToBytes pk) = some pk := by
  refine ⟨fun kc sc m ⟨pk, sk, s, hk, hs⟩ => ?_, fun pk => rfl⟩
  have hl : s.len = SIGLEN := by
    unfold Rust.detachedSign at hs
    cases h : signature C H m sk.arr.1 with
    | none => rw [h] at hs; simp at hs
    | some sig =>
      rw [h] at hs
      simp only [Option.pure_def, Option.bind_eq_bind, Option.bind_some, Option.some.injEq] at hs
      rw [← hs]
  have hv := (C75_sign_verify C H kc pk sk m s hk hs).1
  unfold SigmaScheme.SignsOk dilithiumScheme
  simp only [hk, Option.getD_some, hs, Option.map_some]
  obtain ⟨arr, len⟩ := s
  simp only at hl
  subst hl
  rw [hv]

/-- C76: SIGMA-R with Dilithium2 and LightSaber, as shipped: the two parties agree, provided the four signatures of the run are produced and the KEM
noise is within the thresholds. -/
theorem C76_sigma_dilithium_lightsaber (P : SymPrims) (C : CSem) (S : Shake) (H : Hashes) (mc ucI ucR : ByteArr 32) (nA nB : Nonce) (ssid : Ssid)
    (idI idR : Id) (c0 c1 c2 c3 c4 : SigmaCoins (dilithiumScheme C S) (lightKem H))
    (hs : SigmaRunSigned (dilithiumScheme C S) (fun kc _ m => DilithiumSigns C S kc m) mc ucI ucR () () nA nB ssid idI idR
      ((lightKem H).pkToBytes ((lightKem H).keygen c0.kem.key).1)
      ((lightKem H).encap c1.kem.enc ((lightKem H).pkFromBytes ((lightKem H).pkToBytes ((lightKem H).keygen c0.kem.key).1))).2 c2.sign c3.sign)
    (hn : LightNoiseOk H c0.kem.key c1.kem.enc) :
    IbkeAgrees (sigmaIbke P (dilithiumScheme C S) (lightKem H)) mc ucI ucR () () nA nB ssid idI idR [c0, c1, c2, c3, c4] :=
  have hd := C76_dilithium_scheme C S
  C31_sigma_agreement_signed P _ _ hd.2 mc ucI ucR () () nA nB ssid idI idR c0 c1 c2 c3 c4
    ⟨hd.1 _ _ _ hs.certI, hd.1 _ _ _ hs.certR, hd.1 _ _ _ hs.sigI, hd.1 _ _ _ hs.sigR⟩ (C52_light_kem_correct H _ _ hn)
    (C48_light_kem_reencode H _)

/-- C76: LATKE as shipped for the post-quantum suite: SIGMA-R (Dilithium2, LightSaber) over CAKE (LightSaber), main key derived from the password; both
parties finish after exactly 7 calls with the same key and each other's id, provided the signatures are produced and the KEM noise of
the two exchanges is within the thresholds. -/
theorem C76_latke_pq (P : SymPrims) (C : CSem) (S : Shake) (H : Hashes) (seedRng : ByteArr 32 → ByteArr 32) (password : Bytes) (idI idR : Id) (ssid : Ssid)
    (ucI ucR : ByteArr 32) (nI nR) (pre : Bool)
    (c1 c2 c3 c4 c5 c6 c7 : LatkeCoins (sigmaIbke P (dilithiumScheme C S) (lightKem H)) (cakePake P (lightKem H)))
    (k3 k4 k5 k6 : SigmaCoins (dilithiumScheme C S) (lightKem H))
    (e3 : c3.eue.ibke = k3) (e4 : c4.eue.ibke = k4) (e5 : c5.eue.ibke = k5) (e6 : c6.eue.ibke = k6)
    (hs : SigmaRunSigned (dilithiumScheme C S) (fun kc _ m => DilithiumSigns C S kc m) (seedRng (P.hash256 password)) ucI ucR () () c3.sess c4.sess ssid
      idI idR ((lightKem H).pkToBytes ((lightKem H).keygen k3.kem.key).1)
      ((lightKem H).encap k4.kem.enc ((lightKem H).pkFromBytes ((lightKem H).pkToBytes ((lightKem H).keygen k3.kem.key).1))).2 k5.sign k6.sign)
    (h1 : LightNoiseOk H c1.pake.key c2.pake.enc) (h2 : LightNoiseOk H k3.kem.key k4.kem.enc) :
    LatkeSucceeds (sigmaIbke P (dilithiumScheme C S) (lightKem H)) (cakePake P (lightKem H)) P seedRng password idI idR ssid ucI ucR () () nI nR pre
      [c1, c2, c3, c4, c5, c6, c7] := by
  have hd := C76_dilithium_scheme C S
  have hs' := hs.imp (G := dilithiumScheme C S) hd.1
  exact C12_sigma_cake_signed P (dilithiumScheme C S) (lightKem H) hd.2 seedRng password idI idR ssid ucI ucR () () nI nR pre c1 c2 c3 c4 c5 c6 c7
    k3 k4 k5 k6 e3 e4 e5 e6 hs' (C52_light_kem_correct H _ _ h1) (C52_light_kem_correct H _ _ h2) (C48_light_kem_reencode H _)

/-- With the toy SHAKE every key is generated and every message signed. -/
theorem toy_dilithium_signs (kc : ByteArr 32) (m : Bytes) : DilithiumSigns wrapSem toyH kc m := by
  obtain ⟨pk, sk, hk⟩ := toy_keypair kc.1
  obtain ⟨sig, hs⟩ := toy_signs kc.1 pk sk m hk
  have e2 : (Rust.filled SKLEN sk).1 = sk := filled_eq (C62_sizes kc.1 pk sk hk).2
  exact ⟨⟨Rust.filled PKLEN pk⟩, ⟨Rust.filled SKLEN sk⟩, ⟨Rust.filled SIGLEN sig, SIGLEN⟩, by unfold Rust.keypairDet; rw [hk]; rfl,
    by unfold Rust.detachedSign; simp only [e2]; rw [hs]; rfl⟩

/-- The hypotheses of C76 are met for every coins, with the toy hash functions. -/
example (P : SymPrims) (mc ucI ucR : ByteArr 32) (nA nB : Nonce) (ssid : Ssid) (idI idR : Id)
    (c : SigmaCoins (dilithiumScheme wrapSem toyH) (lightKem toyHashes)) :
    IbkeAgrees (sigmaIbke P (dilithiumScheme wrapSem toyH) (lightKem toyHashes)) mc ucI ucR () () nA nB ssid idI idR [c, c, c, c, c] :=
  C76_sigma_dilithium_lightsaber P wrapSem toyH toyHashes mc ucI ucR nA nB ssid idI idR c c c c c
    ⟨toy_dilithium_signs _ _, toy_dilithium_signs _ _, toy_dilithium_signs _ _, toy_dilithium_signs _ _⟩
    (fun i => le_trans (toy_noise _ _ _ i).1 (by split <;> omega))

/-- The same for the whole of LATKE. -/
example (P : SymPrims) (password : Bytes) (idI idR : Id) (ssid : Ssid) (ucI ucR : ByteArr 32) (pre : Bool)
    (c : LatkeCoins (sigmaIbke P (dilithiumScheme wrapSem toyH) (lightKem toyHashes)) (cakePake P (lightKem toyHashes))) :
    LatkeSucceeds (sigmaIbke P (dilithiumScheme wrapSem toyH) (lightKem toyHashes)) (cakePake P (lightKem toyHashes)) P (fun x => x) password idI idR
      ssid ucI ucR () () () () pre [c, c, c, c, c, c, c] := by
  have hn : ∀ kc ec, LightNoiseOk toyHashes kc ec := fun kc ec i => le_trans (toy_noise _ _ _ i).1 (by split <;> omega)
  exact C76_latke_pq P wrapSem toyH toyHashes (fun x => x) password idI idR ssid ucI ucR () () pre c c c c c c c _ _ _ _ rfl rfl rfl rfl
    ⟨toy_dilithium_signs _ _, toy_dilithium_signs _ _, toy_dilithium_signs _ _, toy_dilithium_signs _ _⟩ (hn _ _) (hn _ _)

end Verif.Props
