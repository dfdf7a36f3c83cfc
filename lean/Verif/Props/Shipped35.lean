import Verif.Props.Dilithium35
import Verif.Dilithium35.Wrapper

/-!
# C119: the Rust interface of Dilithium3 and Dilithium5
-/

namespace Verif.Props

section rust35
open Verif Verif.Dilithium35
open Verif.Dilithium (CSem Shake toyH wrapSem)

variable {md : Mode} (C : CSem) (H : Shake)

private theorem filled_eq {n : Nat} {b : Bytes} (h : b.length = n) : (Dilithium.Rust.filled n b).1 = b := by
  unfold Dilithium.Rust.filled
  simp only
  rw [← h, List.take_length, Nat.sub_self]
  simp

/-- C119: keys: exactly the right length is accepted, the bytes are kept, everything else is `BadLength`. -/
theorem C119_key_bytes (b : Bytes) :
    (∀ k, Rust.PublicKey.fromBytes md b = .ok k ↔ k.asBytes = b) ∧
    (b.length ≠ Spec.pkBytes md → Rust.PublicKey.fromBytes md b = .err (.badLength "PublicKey" b.length (Spec.pkBytes md))) ∧
    (∀ k, Rust.SecretKey.fromBytes md b = .ok k ↔ k.asBytes = b) ∧
    (b.length ≠ Spec.skBytes md → Rust.SecretKey.fromBytes md b = .err (.badLength "SecretKey" b.length (Spec.skBytes md))) := by
  rw [← d35_pk_len, ← d35_sk_len]
  refine ⟨fun k => ?_, fun h => ?_, fun k => ?_, fun h => ?_⟩
  · constructor
    · intro h
      unfold Rust.PublicKey.fromBytes Dilithium.Rust.arrFromBytes at h
      by_cases hl : b.length = md.PKLEN
      · simp only [hl, dite_true, Res.ok.injEq] at h
        rw [← h]; rfl
      · simp [hl] at h
    · intro h
      subst h
      unfold Rust.PublicKey.fromBytes Dilithium.Rust.arrFromBytes Rust.PublicKey.asBytes
      have := k.arr.2
      simp only [this, dite_true]
  · unfold Rust.PublicKey.fromBytes Dilithium.Rust.arrFromBytes
    have : ¬ b.length = md.PKLEN := h
    simp only [this, dite_false]
  · constructor
    · intro h
      unfold Rust.SecretKey.fromBytes Dilithium.Rust.arrFromBytes at h
      by_cases hl : b.length = md.SKLEN
      · simp only [hl, dite_true, Res.ok.injEq] at h
        rw [← h]; rfl
      · simp [hl] at h
    · intro h
      subst h
      unfold Rust.SecretKey.fromBytes Dilithium.Rust.arrFromBytes Rust.SecretKey.asBytes
      have := k.arr.2
      simp only [this, dite_true]
  · unfold Rust.SecretKey.fromBytes Dilithium.Rust.arrFromBytes
    have : ¬ b.length = md.SKLEN := h
    simp only [this, dite_false]

private theorem arrEq_iff {n : Nat} (a b : ByteArr n) : Dilithium.Rust.arrEq a.1 b.1 = true ↔ a = b := by
  obtain ⟨a, ha⟩ := a
  obtain ⟨b, hb⟩ := b
  simp only [Subtype.mk.injEq]
  have hl : a.length = b.length := ha.trans hb.symm
  clear ha hb
  unfold Dilithium.Rust.arrEq
  induction a generalizing b with
  | nil => cases b <;> simp_all
  | cons x a ih =>
    cases b with
    | nil => simp at hl
    | cons y b =>
      have := ih b (by simpa using hl)
      simp only [List.zip_cons_cons, List.all_cons, Bool.and_eq_true, beq_iff_eq, List.cons.injEq]
      exact and_congr_right fun _ => this

/-- C119: key equality is equality of the bytes. -/
theorem C119_key_eq (a b : Rust.PublicKey md) (x y : Rust.SecretKey md) :
    (a.eq b = true ↔ a.asBytes = b.asBytes) ∧ (x.eq y = true ↔ x.asBytes = y.asBytes) := by
  constructor
  · unfold Rust.PublicKey.eq; rw [arrEq_iff]; exact Subtype.ext_iff
  · unfold Rust.SecretKey.eq; rw [arrEq_iff]; exact Subtype.ext_iff

/-- C119: a detached signature is any string of at most `signature_bytes` bytes, kept exactly; longer ones are `BadLength`. -/
theorem C119_signature_bytes (b : Bytes) :
    (b.length ≤ Spec.sigBytes md → ∃ s, Rust.DetachedSignature.fromBytes md b = .ok s ∧ s.asBytes = some b) ∧
    (Spec.sigBytes md < b.length → Rust.DetachedSignature.fromBytes md b = .err (.badLength "DetachedSignature" b.length (Spec.sigBytes md))) := by
  rw [← d35_sig_len]
  unfold Rust.DetachedSignature.fromBytes Rust.DetachedSignature.asBytes
  refine ⟨fun h => ?_, fun h => ?_⟩
  · have h' : ¬ b.length > md.SIGLEN := Nat.not_lt.mpr h
    rw [if_neg h']
    refine ⟨_, rfl, ?_⟩
    have h2 : b.length ≤ md.SIGLEN := h
    simp only [if_pos h2, Dilithium.Rust.filled]
    rw [List.take_of_length_le h2, List.take_left']
    rfl
  · have h' : b.length > md.SIGLEN := h
    rw [if_pos h']

/-- C119: verification of a parsed signature is the C verification of exactly the given bytes; it never reports an unknown error. -/
theorem C119_verify_exact (b m : Bytes) (pk : Rust.PublicKey md) (s : Rust.DetachedSignature md) (hs : Rust.DetachedSignature.fromBytes md b = .ok s) :
    Rust.verifyDetachedSignature C H s m pk =
      (verify md C H b m pk.asBytes).map fun ok => if ok then .ok () else .err .invalidSignature := by
  unfold Rust.DetachedSignature.fromBytes at hs
  by_cases hl : b.length > md.SIGLEN
  · rw [if_pos hl] at hs; cases hs
  rw [if_neg hl] at hs
  cases hs
  unfold Rust.verifyDetachedSignature Rust.PublicKey.asBytes
  have h2 : b.length ≤ md.SIGLEN := Nat.not_lt.mp hl
  have : (Dilithium.Rust.filled md.SIGLEN b).1.take b.length = b := by
    simp only [Dilithium.Rust.filled]
    rw [List.take_of_length_le h2, List.take_left']
    rfl
  simp only [this]
  cases verify md C H b m pk.arr.1 with
  | none => rfl
  | some ok => cases ok <;> rfl

/-- C119: a signature shorter than `signature_bytes` parses, and is rejected for every message and key. -/
theorem C119_short_signature_rejected (b m : Bytes) (pk : Rust.PublicKey md) (h : b.length < Spec.sigBytes md) :
    ∃ s, Rust.DetachedSignature.fromBytes md b = .ok s ∧ Rust.verifyDetachedSignature C H s m pk = some (.err .invalidSignature) := by
  obtain ⟨s, hs, _⟩ := (C119_signature_bytes b).1 (le_of_lt h)
  refine ⟨s, hs, ?_⟩
  rw [C119_verify_exact C H b m pk s hs, C115_reject b m pk.asBytes (Or.inl (Nat.ne_of_lt h))]
  rfl

/-- C119: a signature made under a generated key verifies, also after key and signature have been serialised and parsed; it has the advertised length. -/
theorem C119_sign_verify (coins : ByteArr 32) (pk : Rust.PublicKey md) (sk : Rust.SecretKey md) (m : Bytes) (s : Rust.DetachedSignature md)
    (hk : Rust.keypairDet C H md coins = some (pk, sk)) (hs : Rust.detachedSign C H m sk = some s) :
    Rust.verifyDetachedSignature C H s m pk = some (.ok ()) ∧
    ∃ b, s.asBytes = some b ∧ b.length = Spec.sigBytes md ∧
      ∃ s' pk', Rust.DetachedSignature.fromBytes md b = .ok s' ∧ Rust.PublicKey.fromBytes md pk.asBytes = .ok pk' ∧
        Rust.verifyDetachedSignature C H s' m pk' = some (.ok ()) := by
  unfold Rust.keypairDet at hk
  cases hk0 : Dilithium35.keypairDet md C H coins.1 with
  | none => rw [hk0] at hk; simp at hk
  | some p =>
    obtain ⟨pk0, sk0⟩ := p
    rw [hk0] at hk
    simp only [Option.pure_def, Option.bind_eq_bind, Option.bind_some, Option.some.injEq, Prod.mk.injEq] at hk
    obtain ⟨l1, l2⟩ := C115_sizes coins.1 pk0 sk0 hk0
    rw [← d35_pk_len] at l1
    rw [← d35_sk_len] at l2
    have e1 : pk.asBytes = pk0 := by rw [← hk.1]; exact filled_eq l1
    have e2 : sk.arr.1 = sk0 := by rw [← hk.2]; exact filled_eq l2
    unfold Rust.detachedSign at hs
    rw [e2] at hs
    cases hs0 : signature md C H m sk0 with
    | none => rw [hs0] at hs; simp at hs
    | some sig =>
      rw [hs0] at hs
      simp only [Option.pure_def, Option.bind_eq_bind, Option.bind_some, Option.some.injEq] at hs
      obtain ⟨hv, hl⟩ := C115_verify_sign coins.1 pk0 sk0 m sig hk0 hs0
      have hb : Rust.DetachedSignature.fromBytes md sig = .ok s := by
        unfold Rust.DetachedSignature.fromBytes
        rw [if_neg (by rw [d35_sig_len]; omega), ← hs]
        congr 2
        exact hl.trans (d35_sig_len md).symm
      have key := C119_verify_exact C H sig m pk s hb
      rw [e1, hv] at key
      have ha : s.asBytes = some sig := by
        obtain ⟨s', h1, h2⟩ := (C119_signature_bytes sig).1 (le_of_eq hl)
        rw [hb] at h1
        cases h1
        exact h2
      refine ⟨key, sig, ha, hl, s, pk, hb, ((C119_key_bytes _).1 pk).mpr rfl, key⟩

/-- C119: a signed message opens to the message that was signed; and it is the detached signature followed by the message. -/
theorem C119_sign_open (coins : ByteArr 32) (pk : Rust.PublicKey md) (sk : Rust.SecretKey md) (m : Bytes) (sm : Rust.SignedMessage)
    (hk : Rust.keypairDet C H md coins = some (pk, sk)) (hs : Rust.sign C H m sk = some sm) :
    Rust.openSigned C H sm pk = some (.ok m) ∧
    ∃ s b, Rust.detachedSign C H m sk = some s ∧ s.asBytes = some b ∧ sm.vec = b ++ m := by
  unfold Rust.sign at hs
  cases hc : cryptoSign md C H m sk.arr.1 with
  | none => rw [hc] at hs; simp at hs
  | some v =>
    rw [hc] at hs
    simp only [Option.pure_def, Option.bind_eq_bind, Option.bind_some, Option.some.injEq] at hs
    have hk' := hk
    unfold Rust.keypairDet at hk
    cases hk0 : Dilithium35.keypairDet md C H coins.1 with
    | none => rw [hk0] at hk; simp at hk
    | some p =>
      obtain ⟨pk0, sk0⟩ := p
      rw [hk0] at hk
      simp only [Option.pure_def, Option.bind_eq_bind, Option.bind_some, Option.some.injEq, Prod.mk.injEq] at hk
      obtain ⟨l1, l2⟩ := C115_sizes coins.1 pk0 sk0 hk0
      rw [← d35_pk_len] at l1
      rw [← d35_sk_len] at l2
      have e1 : pk.arr.1 = pk0 := by rw [← hk.1]; exact filled_eq l1
      have e2 : sk.arr.1 = sk0 := by rw [← hk.2]; exact filled_eq l2
      rw [e2] at hc
      constructor
      · unfold Rust.openSigned
        rw [e1, ← hs, C115_open_sign coins.1 pk0 sk0 m v hk0 hc]
        rfl
      · have hc' := hc
        unfold cryptoSign at hc
        cases hs0 : signature md C H m sk0 with
        | none => rw [hs0] at hc; simp at hc
        | some sig =>
          rw [hs0] at hc
          simp only [Option.pure_def, Option.bind_eq_bind, Option.bind_some, Option.some.injEq] at hc
          have hd : Rust.detachedSign C H m sk = some ⟨Dilithium.Rust.filled md.SIGLEN sig, md.SIGLEN⟩ := by
            unfold Rust.detachedSign; rw [e2, hs0]; rfl
          have hl := ((C115_verify_sign coins.1 pk0 sk0 m sig hk0 hs0).2).trans (d35_sig_len md).symm
          refine ⟨_, sig, hd, ?_, ?_⟩
          · unfold Rust.DetachedSignature.asBytes
            rw [if_pos (le_refl _)]
            simp only
            rw [filled_eq hl, List.take_of_length_le (le_of_eq hl)]
          · rw [← hs, ← hc]

/-- C119: `open` returns a message exactly if the signed message is a signature of the right length that verifies, followed by the message; otherwise the error
is `InvalidSignature`. -/
theorem C119_open_exact (sm : Rust.SignedMessage) (pk : Rust.PublicKey md) (r) (h : Rust.openSigned C H sm pk = some r) :
    (∀ m, r = .ok m ↔ ∃ sig, sm.vec = sig ++ m ∧ sig.length = Spec.sigBytes md ∧ verify md C H sig m pk.asBytes = some true) ∧
    ((∃ m, r = .ok m) ∨ r = .err .invalidSignature) := by
  rw [← d35_sig_len]
  unfold Rust.openSigned at h
  unfold cryptoOpen at h
  unfold Rust.PublicKey.asBytes
  by_cases hl : sm.vec.length < md.SIGLEN
  · rw [if_pos hl] at h
    simp [Dilithium.Rust.ofRc] at h
    subst h
    refine ⟨fun m => ⟨fun h => (by cases h), ?_⟩, Or.inr rfl⟩
    rintro ⟨sig, e, e2, -⟩
    rw [e, List.length_append] at hl
    omega
  · rw [if_neg hl] at h
    have sp : ∀ (m sig : Bytes), sm.vec = sig ++ m → sig.length = md.SIGLEN → sm.vec.take md.SIGLEN = sig ∧ sm.vec.drop md.SIGLEN = m := fun m sig e e2 => by
      rw [e, ← e2]
      exact ⟨List.take_left, List.drop_left⟩
    cases hv : verify md C H (sm.vec.take md.SIGLEN) (sm.vec.drop md.SIGLEN) pk.arr.1 with
    | none => rw [hv] at h; simp at h
    | some ok =>
      rw [hv] at h
      cases ok
      · simp [Dilithium.Rust.ofRc] at h
        subst h
        refine ⟨fun m => ⟨fun h => (by cases h), ?_⟩, Or.inr rfl⟩
        rintro ⟨sig, e, e2, v⟩
        obtain ⟨s1, s2⟩ := sp m sig e e2
        rw [s1, s2, v] at hv
        cases hv
      · simp [Dilithium.Rust.ofRc] at h
        subst h
        refine ⟨fun m => ⟨fun h => ?_, ?_⟩, Or.inl ⟨_, rfl⟩⟩
        · cases h
          exact ⟨_, (List.take_append_drop _ _).symm, by rw [List.length_take]; omega, hv⟩
        · rintro ⟨sig, e, e2, v⟩
          rw [(sp m sig e e2).2]

/-- Non-vacuity: for the toy hash every coin string gives keys, every message is signed both ways, and a one-byte signature parses and is refused. -/
example (coins : ByteArr 32) (m : Bytes) : ∃ pk sk s, Rust.keypairDet wrapSem toyH md coins = some (pk, sk) ∧ Rust.detachedSign wrapSem toyH m sk = some s ∧
    Rust.verifyDetachedSignature wrapSem toyH s m pk = some (.ok ()) := by
  obtain ⟨pk0, sk0, hk⟩ := toy_keypair (md := md) coins.1
  obtain ⟨sig, hs⟩ := toy_signs coins.1 pk0 sk0 m hk
  have l2 : sk0.length = md.SKLEN := (C115_sizes _ _ _ hk).2.trans (d35_sk_len md).symm
  have h1 : Rust.keypairDet wrapSem toyH md coins = some (⟨Dilithium.Rust.filled md.PKLEN pk0⟩, ⟨Dilithium.Rust.filled md.SKLEN sk0⟩) := by
    unfold Rust.keypairDet; rw [hk]; rfl
  have h2 : Rust.detachedSign wrapSem toyH m (⟨Dilithium.Rust.filled md.SKLEN sk0⟩ : Rust.SecretKey md) = some ⟨Dilithium.Rust.filled md.SIGLEN sig, md.SIGLEN⟩ := by
    unfold Rust.detachedSign; rw [filled_eq l2, hs]; rfl
  exact ⟨_, _, _, h1, h2, (C119_sign_verify wrapSem toyH coins _ _ m _ h1 h2).1⟩

end rust35
end Verif.Props
