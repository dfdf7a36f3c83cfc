import Verif.Neon.Machine
import Verif.Props.NeonLinked

/-!
# C112: Dilithium2 and LATKE as shipped, on x86_64 with and without AVX2 and on aarch64

`Rust.Machine` is the machine on which a call runs.  The functions with suffix `At` are the functions of pqcrypto-dilithium/src/dilithium2.rs on that machine.
`MatrixEnough fipsShake rho`: six blocks of SHAKE128 contain enough candidates for each of the sixteen entries of the matrix with seed `rho`, which is the
beginning of both keys.
-/

namespace Verif.Props
open Verif Verif.Latke Verif.Saber Verif.Keccak
open Verif.Dilithium hiding W32 toI32_id

/-- C112: what key generation and signing return is, on every machine, what the model of C75 returns with FIPS 202 for the hash functions: `keypair_det` always,
the others if six blocks are enough. -/
theorem C112_signing (x : Rust.Machine) (C : CSem) (coins : ByteArr 32) (m : Bytes) (sk : Rust.SecretKey) :
    Rust.keypairDetAt x coins = Rust.keypairDet C fipsShake coins ∧
    (MatrixEnough fipsShake ((Dilithium.shake256 fipsShake 128 coins.1).take 32) → Rust.keypairAt x coins = Rust.keypairDet C fipsShake coins) ∧
    (MatrixEnough fipsShake (sk.arr.1.take 32) →
      Rust.signAt x m sk = Rust.sign C fipsShake m sk ∧ Rust.detachedSignAt x m sk = Rust.detachedSign C fipsShake m sk) := by
  cases x with
  | x86 e =>
    obtain ⟨a, b, c, d⟩ := C100_signing e C coins m sk
    exact ⟨a, fun _ => b, fun _ => ⟨c, d⟩⟩
  | arm a =>
    obtain ⟨s1, s2, -, -⟩ := C111_same a.C C a.O a.O a.M a.E a.E'
    obtain ⟨l1, l2, l3, -, -⟩ := C85_linked_is_model C a.O
    obtain ⟨n1, -, -, -⟩ := C85_no_undefined_behaviour a.C C a.O a.O
    refine ⟨?_, fun h => ?_, fun h => ⟨?_, ?_⟩⟩
    · unfold Rust.keypairDetAt Rust.keypairDet
      dsimp only
      rw [n1 _ coins.2, l1 _ coins.2]
    · unfold Rust.keypairAt Rust.keypairDet
      dsimp only
      rw [s1 _ coins.2 h, l1 _ coins.2]
    · unfold Rust.signAt Rust.sign
      dsimp only
      rw [(s2 m _ sk.arr.2 h).2, l3 _ _ sk.arr.2]
    · unfold Rust.detachedSignAt Rust.detachedSign
      dsimp only
      rw [(s2 m _ sk.arr.2 h).1, l2 _ _ sk.arr.2]

/-- C112: an aarch64 machine verifies and opens as an x86_64 machine without AVX2 does, if six blocks are enough. -/
theorem C112_verifies (a : Rust.ArmEnv) (e : Rust.Env) (he : e.avx2 = false) (s : Rust.DetachedSignature) (sm : Rust.SignedMessage) (m : Bytes)
    (pk : Rust.PublicKey) (h : MatrixEnough fipsShake (pk.arr.1.take 32)) :
    Rust.verifyDetachedSignatureAt (.arm a) s m pk = Rust.verifyDetachedSignatureAt (.x86 e) s m pk ∧
    Rust.openSignedAt (.arm a) sm pk = Rust.openSignedAt (.x86 e) sm pk := by
  obtain ⟨-, -, s3, s4⟩ := C111_same a.C e.C a.O e.O a.M a.E a.E'
  constructor
  · unfold Rust.verifyDetachedSignatureAt Rust.verifyDetachedSignatureOn
    dsimp only
    rw [s3 _ _ _ pk.arr.2 h, he]
    rfl
  · unfold Rust.openSignedAt Rust.openSignedOn
    dsimp only
    rw [s4 _ _ pk.arr.2 h, he]
    rfl

theorem filled_self {n : Nat} {b : Bytes} (h : b.length = n) : (Rust.filled n b).1 = b := by
  unfold Rust.filled
  simp [h]

theorem rust_key {C : CSem} {H : Shake} {coins : ByteArr 32} {pk : Rust.PublicKey} {sk : Rust.SecretKey} (h : Rust.keypairDet C H coins = some (pk, sk)) :
    keypairDet C H coins.1 = some (pk.arr.1, sk.arr.1) := by
  unfold Rust.keypairDet at h
  cases hk : keypairDet C H coins.1 with
  | none => rw [hk] at h; simp at h
  | some q =>
    obtain ⟨p', s'⟩ := q
    obtain ⟨lp, ls⟩ : p'.length = PKLEN ∧ s'.length = SKLEN := Avx2.keypairDet_len hk
    rw [hk] at h
    simp only [Option.pure_def, Option.bind_eq_bind, Option.bind_some, Option.some.injEq, Prod.mk.injEq] at h
    rw [← h.1, ← h.2]
    show some (p', s') = some ((Rust.filled PKLEN p').1, (Rust.filled SKLEN s').1)
    rw [filled_self lp, filled_self ls]

theorem arm_key {a : Rust.ArmEnv} {coins : ByteArr 32} {pk : Rust.PublicKey} {sk : Rust.SecretKey} (h : Rust.keypairAt (.arm a) coins = some (pk, sk)) :
    Neon.Linked.keypair a.C a.O a.M a.E coins.1 = some (pk.arr.1, sk.arr.1) := by
  unfold Rust.keypairAt at h
  dsimp only at h
  cases hk : Neon.Linked.keypair a.C a.O a.M a.E coins.1 with
  | none => rw [hk] at h; simp at h
  | some q =>
    obtain ⟨p', s'⟩ := q
    have hk' := hk
    rw [Neon.Linked.keypair_eq _ _ _ _ _ coins.2] at hk'
    obtain ⟨-, -, lp, ls⟩ : _ ∧ _ ∧ p'.length = PKLEN ∧ s'.length = SKLEN := keypairN_rho hk'
    rw [hk] at h
    simp only [Option.pure_def, Option.bind_eq_bind, Option.bind_some, Option.some.injEq, Prod.mk.injEq] at h
    rw [← h.1, ← h.2]
    show some (p', s') = some ((Rust.filled PKLEN p').1, (Rust.filled SKLEN s').1)
    rw [filled_self lp, filled_self ls]

/-- Keys made on any machine are those of the model. -/
theorem machine_key (C : CSem) {x : Rust.Machine} {coins : ByteArr 32} {pk : Rust.PublicKey} {sk : Rust.SecretKey}
    (h6 : MatrixEnough fipsShake (pk.arr.1.take 32)) (hk : Rust.keypairAt x coins = some (pk, sk) ∨ Rust.keypairDetAt x coins = some (pk, sk)) :
    Rust.keypairDet C fipsShake coins = some (pk, sk) := by
  obtain ⟨a, b, -⟩ := C112_signing x C coins [] sk
  rcases hk with h | h
  · cases x with
    | x86 e =>
      rw [← (C100_signing e C coins [] sk).2.1]
      exact h
    | arm w =>
      have hk := arm_key h
      rw [Neon.Linked.keypair_eq _ _ _ _ _ coins.2] at hk
      have e := (keypairN_rho hk).1
      rw [List.take_of_length_le coins.2.le] at e
      rw [← b (by rw [← e]; exact h6)]
      exact h
  · rw [← a]; exact h

/-- C112: keys made on one machine by either function, a signature made on a second machine, verified on a third: it is accepted, and the signed message opens
to the message, if six blocks are enough for the key. -/
theorem C112_cross_machine (x1 x2 x3 : Rust.Machine) (coins : ByteArr 32) (pk : Rust.PublicKey) (sk : Rust.SecretKey) (m : Bytes)
    (h6 : MatrixEnough fipsShake (pk.arr.1.take 32)) (hk : Rust.keypairAt x1 coins = some (pk, sk) ∨ Rust.keypairDetAt x1 coins = some (pk, sk)) :
    (∀ s, Rust.detachedSignAt x2 m sk = some s → Rust.verifyDetachedSignatureAt x3 s m pk = some (.ok ())) ∧
    (∀ sm, Rust.signAt x2 m sk = some sm → Rust.openSignedAt x3 sm pk = some (.ok m)) := by
  have hsk : MatrixEnough fipsShake (sk.arr.1.take 32) := by
    obtain ⟨e1, e2, -⟩ := keypair_rho (rust_key (machine_key wrapSem h6 hk))
    rw [e2, ← e1]; exact h6
  cases x3 with
  | x86 e =>
    have hk' := machine_key e.C h6 hk
    rw [← (C100_signing e e.C coins m sk).1] at hk'
    obtain ⟨v, o⟩ := C100_cross_machine e e e coins pk sk m (Or.inr hk')
    obtain ⟨-, -, hs⟩ := C112_signing x2 e.C coins m sk
    refine ⟨fun s h => v s ?_, fun sm h => o sm ?_⟩
    · rw [(C100_signing e e.C coins m sk).2.2.2, ← (hs hsk).2]; exact h
    · rw [(C100_signing e e.C coins m sk).2.2.1, ← (hs hsk).1]; exact h
  | arm a =>
    have hkey := rust_key (machine_key a.C h6 hk)
    obtain ⟨v, o⟩ := C111_honest a.C a.O a.M a.M a.M a.E a.E a.E a.E' coins.1 pk.arr.1 sk.arr.1 m coins.2 h6
      (Or.inr (by rw [(C85_linked_is_model a.C a.O).1 _ coins.2]; exact hkey))
    obtain ⟨-, -, hs⟩ := C112_signing x2 a.C coins m sk
    obtain ⟨-, l2, l3, -, -⟩ := C85_linked_is_model a.C a.O
    refine ⟨fun s h => ?_, fun sm h => ?_⟩
    · rw [(hs hsk).2] at h
      unfold Rust.detachedSign at h
      simp only [Option.pure_def, Option.bind_eq_bind, Option.bind_eq_some_iff, Option.some.injEq] at h
      obtain ⟨sig, hsig, rfl⟩ := h
      have hl : sig.length = SIGLEN := (verify_signature hkey hsig).2
      have hv := (v sig (Or.inr (by rw [l2 _ _ sk.arr.2]; exact hsig))).1
      unfold Rust.verifyDetachedSignatureAt
      dsimp only
      rw [filled_self hl, List.take_of_length_le hl.le, hv]
      rfl
    · rw [(hs hsk).1] at h
      unfold Rust.sign at h
      simp only [Option.pure_def, Option.bind_eq_bind, Option.bind_eq_some_iff, Option.some.injEq] at h
      obtain ⟨w, hw, rfl⟩ := h
      have hv := (o w (Or.inr (by rw [l3 _ _ sk.arr.2]; exact hw))).1
      unfold Rust.openSignedAt
      dsimp only
      rw [hv]
      rfl

/-- C112: aarch64 machines among themselves need no condition when `keypair` makes the keys. -/
theorem C112_aarch64_own (a1 a2 a3 : Rust.ArmEnv) (coins : ByteArr 32) (pk : Rust.PublicKey) (sk : Rust.SecretKey) (m : Bytes)
    (hk : Rust.keypairAt (.arm a1) coins = some (pk, sk)) :
    (∀ s, Rust.detachedSignAt (.arm a2) m sk = some s → Rust.verifyDetachedSignatureAt (.arm a3) s m pk = some (.ok ())) ∧
    (∀ sm, Rust.signAt (.arm a2) m sk = some sm → Rust.openSignedAt (.arm a3) sm pk = some (.ok m)) := by
  obtain ⟨v, o⟩ := C111_own a1.C a2.C a3.C a1.O a2.O a3.O a1.M a2.M a3.M a1.E a2.E a3.E a2.E' coins.1 pk.arr.1 sk.arr.1 m coins.2 (arm_key hk)
  refine ⟨fun s h => ?_, fun sm h => ?_⟩
  · unfold Rust.detachedSignAt at h
    dsimp only at h
    simp only [Option.pure_def, Option.bind_eq_bind, Option.bind_eq_some_iff, Option.some.injEq] at h
    obtain ⟨sig, hsig, rfl⟩ := h
    have hv := v sig hsig
    have hl : sig.length = SIGLEN := by
      unfold Neon.Linked.verify at hv
      by_contra hn
      rw [if_pos hn] at hv
      cases hv
    unfold Rust.verifyDetachedSignatureAt
    dsimp only
    rw [filled_self hl, List.take_of_length_le hl.le, hv]
    rfl
  · unfold Rust.signAt at h
    dsimp only at h
    simp only [Option.pure_def, Option.bind_eq_bind, Option.bind_eq_some_iff, Option.some.injEq] at h
    obtain ⟨w, hw, rfl⟩ := h
    unfold Rust.openSignedAt
    dsimp only
    rw [o w hw]
    rfl

/-- Uninitialised memory that happens to be zero. -/
private def noJunk : Avx2.Junk := ⟨fun _ => 0, fun _ => 0, ⟨fun _ _ => 0, fun _ => 0⟩⟩

/-- C112: whether a signature is accepted can depend on the machine: there are a public key and a detached signature on the empty message that are accepted on
every x86_64 machine with AVX2 and rejected on every other, in particular on every aarch64 machine. -/
theorem C112_acceptance_depends_on_machine : ∃ (pkb sigb : Bytes) (pk : Rust.PublicKey) (s : Rust.DetachedSignature),
    Rust.PublicKey.fromBytes pkb = .ok pk ∧ Rust.DetachedSignature.fromBytes sigb = .ok s ∧
    (∀ e : Rust.Env, Rust.verifyDetachedSignatureAt (.x86 e) s [] pk = some (if e.avx2 then .ok () else .err .invalidSignature) ∧
      Rust.openSignedAt (.x86 e) ⟨sigb⟩ pk = some (if e.avx2 then .ok [] else .err .invalidSignature)) ∧
    ∀ a : Rust.ArmEnv, Rust.verifyDetachedSignatureAt (.arm a) s [] pk = some (.err .invalidSignature) ∧
      Rust.openSignedAt (.arm a) ⟨sigb⟩ pk = some (.err .invalidSignature) := by
  obtain ⟨pkb, sigb, hp, hs, hr, h⟩ := disagree_at
  obtain ⟨s, hs1, hs2⟩ := (C75_signature_bytes sigb).1 (by omega)
  have es : s.arr.1.take s.len = sigb := by
    unfold Rust.DetachedSignature.asBytes at hs2
    split at hs2
    · exact Option.some.inj hs2
    · cases hs2
  refine ⟨pkb, sigb, ⟨⟨pkb, hp⟩⟩, s, ((C75_key_bytes pkb).1 _).2 rfl, hs1, fun e => ?_, fun a => ?_⟩
  · obtain ⟨h1, h2, h3, h4⟩ := h e.C e.O e.vfK e.vfJ
    unfold Rust.verifyDetachedSignatureAt Rust.openSignedAt Rust.verifyDetachedSignatureOn Rust.openSignedOn
    simp only [es, h1, h2, h3, h4]
    cases e.avx2 <;> exact ⟨rfl, rfl⟩
  · obtain ⟨-, h2, -, h4⟩ := h a.C a.O (fun _ => ⟨fun _ _ _ => 0, fun _ _ => 0⟩) ⟨noJunk, fun _ => noJunk, fun _ => 0, fun _ _ => noJunk, fun _ _ => noJunk⟩
    obtain ⟨-, -, s3, s4⟩ := C111_same a.C a.C a.O a.O a.M a.E a.E'
    have h6 : MatrixEnough fipsShake (pkb.take 32) := by rw [hr]; exact kat_enough
    unfold Rust.verifyDetachedSignatureAt Rust.openSignedAt
    simp only [es, s3 _ _ _ hp h6, s4 _ _ hp h6, h2, h4]
    exact ⟨rfl, rfl⟩

/-! ## LATKE on any machines -/

/-- With these coins the key pair is generated and `m` is signed after finitely many rejections, and six blocks are enough for each entry of the matrix: a
property of SHAKE only. -/
def SignsAll (kc : ByteArr 32) (m : Bytes) : Prop :=
  SignsFips kc m ∧ MatrixEnough fipsShake ((Dilithium.shake256 fipsShake 128 kc.1).take 32)

theorem key_enough {C : CSem} {kc : ByteArr 32} {pk : Rust.PublicKey} {sk : Rust.SecretKey} (hk : Rust.keypairDet C fipsShake kc = some (pk, sk))
    (h : MatrixEnough fipsShake ((Dilithium.shake256 fipsShake 128 kc.1).take 32)) :
    MatrixEnough fipsShake (pk.arr.1.take 32) ∧ MatrixEnough fipsShake (sk.arr.1.take 32) := by
  obtain ⟨e1, e2, -⟩ := keypair_rho (rust_key hk)
  rw [List.take_of_length_le kc.2.le] at e1 e2
  rw [e1, e2]
  exact ⟨h, h⟩

theorem arm_keygen {x : Rust.Machine} {kc : ByteArr 32} {r : Rust.PublicKey × Rust.SecretKey} (hk : Rust.keypairDet wrapSem fipsShake kc = some r) :
    allCode.keygen x kc = r := by
  show (Rust.keypairDetAt x kc).getD _ = r
  obtain ⟨pk, sk⟩ := r
  rw [(C112_signing x wrapSem kc [] sk).1, hk, Option.getD_some]

theorem arm_same {x0 : Rust.Machine} {kc : ByteArr 32} {m : Bytes} (h : SignsAll kc m) : SameSignatures allCode x0 (allCode.keygen x0 kc).2 := by
  obtain ⟨⟨pk, sk, s, hk, -⟩, h6⟩ := h
  intro x m
  rw [arm_keygen hk]
  show ((Rust.detachedSignAt x m sk).map _).getD _ = ((Rust.detachedSignAt x0 m sk).map _).getD _
  have h6' := (key_enough hk h6).2
  rw [((C112_signing x wrapSem kc m sk).2.2 h6').2, ((C112_signing x0 wrapSem kc m sk).2.2 h6').2]

theorem arm_signs (x0 : Rust.Machine) (kc : ByteArr 32) (m : Bytes) (h : SignsAll kc m) : MachSigns allCode x0 kc m := by
  obtain ⟨⟨pk, sk, s, hk, hs⟩, h6⟩ := h
  obtain ⟨hp, hsk⟩ := key_enough hk h6
  intro x
  rw [arm_keygen hk]
  have hs0 : Rust.detachedSignAt x0 m sk = some s := by rw [((C112_signing x0 wrapSem kc m sk).2.2 hsk).2]; exact hs
  have hl : s.len = SIGLEN := by
    unfold Rust.detachedSign at hs
    simp only [Option.bind_eq_bind, Option.bind_eq_some_iff, Option.pure_def, Option.some.injEq] at hs
    obtain ⟨_, -, rfl⟩ := hs
    rfl
  have hv := (C112_cross_machine x0 x0 x kc pk sk m hp (Or.inr (by rw [(C112_signing x0 wrapSem kc m sk).1]; exact hk))).1 s hs0
  have e : allCode.sign x0 sk m = s.arr := by
    show ((Rust.detachedSignAt x0 m sk).map _).getD _ = _
    rw [hs0, Option.map_some, Option.getD_some]
  rw [e]
  obtain ⟨arr, len⟩ := s
  simp only at hl
  subst hl
  show (match Rust.verifyDetachedSignatureAt x ⟨arr, SIGLEN⟩ m pk with | some (.ok _) => true | _ => false) = true
  rw [hv]

/-- C112: SIGMA-R with Dilithium2: the two users agree although certificates and every call are handled by different machines, x86_64 with or without AVX2 or
aarch64, provided the four signatures of the run are produced, six blocks are enough for the three keys, and the KEM is correct for the coins used. -/
theorem C112_sigma_machines (P : SymPrims) (E : Kem) (x0 xI xR : Rust.Machine) (mc ucI ucR : ByteArr 32) (nA nB : Nonce) (ssid : Ssid) (idI idR : Id)
    (c0 c1 c2 c3 c4 : MachCoins Rust.Machine E)
    (hs : SigmaRunSigned (machScheme allCode x0) (fun kc _ m => SignsAll kc m) mc ucI ucR () () nA nB ssid idI idR
      (E.pkToBytes (E.keygen c0.kem.key).1) (E.encap c1.kem.enc (E.pkFromBytes (E.pkToBytes (E.keygen c0.kem.key).1))).2 () ())
    (hE : E.Correct c0.kem.key c1.kem.enc)
    (hpk : E.pkToBytes (E.pkFromBytes (E.pkToBytes (E.keygen c0.kem.key).1)) = E.pkToBytes (E.keygen c0.kem.key).1) :
    IbkeAgrees (machIbke P allCode x0 E) mc ucI ucR xI xR nA nB ssid idI idR [c0, c1, c2, c3, c4] :=
  mach_agrees P allCode E x0 xI xR mc ucI ucR (arm_same hs.certI) (arm_same hs.sigI) (arm_same hs.sigR) nA nB ssid idI idR c0 c1 c2 c3 c4
    (SigmaRunSigned.imp (fun kc _ m h => arm_signs x0 kc m h) hs) hE hpk

/-- C112: LATKE with the post-quantum suite (SIGMA-R with Dilithium2 and LightSaber over CAKE with LightSaber) succeeds between any two users on any
machines, even when every certificate and every call is handled by another one, provided the signatures are produced, six blocks are enough for the three
keys, and the KEM noise is within the thresholds. -/
theorem C112_latke_machines (P : SymPrims) (H : Hashes) (x0 xI xR : Rust.Machine) (seedRng : ByteArr 32 → ByteArr 32) (password : Bytes) (idI idR : Id)
    (ssid : Ssid) (ucI ucR : ByteArr 32) (nI nR) (pre : Bool)
    (c1 c2 c3 c4 c5 c6 c7 : LatkeCoins (machIbke P allCode x0 (lightKem H)) (cakePake P (lightKem H)))
    (k3 k4 : MachCoins Rust.Machine (lightKem H)) (e3 : c3.eue.ibke = k3) (e4 : c4.eue.ibke = k4)
    (hs : SigmaRunSigned (machScheme allCode x0) (fun kc _ m => SignsAll kc m) (seedRng (P.hash256 password)) ucI ucR () () c3.sess c4.sess ssid idI idR
      ((lightKem H).pkToBytes ((lightKem H).keygen k3.kem.key).1)
      ((lightKem H).encap k4.kem.enc ((lightKem H).pkFromBytes ((lightKem H).pkToBytes ((lightKem H).keygen k3.kem.key).1))).2 () ())
    (h1 : LightNoiseOk H c1.pake.key c2.pake.enc) (h2 : LightNoiseOk H k3.kem.key k4.kem.enc) :
    LatkeSucceeds (machIbke P allCode x0 (lightKem H)) (cakePake P (lightKem H)) P seedRng password idI idR ssid ucI ucR xI xR nI nR pre
      [c1, c2, c3, c4, c5, c6, c7] := by
  subst e3 e4
  exact mach_latke P (lightKem H) allCode x0 xI xR seedRng password idI idR ssid ucI ucR nI nR pre c1 c2 c3 c4 c5 c6 c7
    (C112_sigma_machines P (lightKem H) x0 xI xR (seedRng (P.hash256 password)) ucI ucR c3.sess c4.sess ssid idI idR c3.eue.ibke c4.eue.ibke c5.eue.ibke
      c6.eue.ibke c7.eue.ibke hs (C52_light_kem_correct H _ _ h2) (C48_light_kem_reencode H _)) (C52_light_kem_correct H _ _ h1)

/-! ## Not vacuous: the run of the known-answer test (`Props/Kat.lean`), with SHAKE itself -/

theorem all_of {m : Bytes} (h : SignsFips katCoins m) : SignsAll katCoins m := ⟨h, by
  show MatrixEnough fipsShake ((Dilithium.shake256 fipsShake 128 Kat.coins).take 32)
  rw [kat_pk_rho.2.2]
  exact kat_enough⟩

/-- The key of the test: six blocks are enough, all machines make it, all accept the signature of the test. -/
example (x1 x2 x3 : Rust.Machine) : MatrixEnough fipsShake (katPk.arr.1.take 32) ∧ Rust.keypairAt x1 katCoins = some (katPk, katSk) ∧
    ∃ s, Rust.detachedSignAt x2 Kat.msg0 katSk = some s ∧ s.arr.1 = Kat.sig0 ∧ Rust.verifyDetachedSignatureAt x3 s Kat.msg0 katPk = some (.ok ()) := by
  have h6 : MatrixEnough fipsShake (katPk.arr.1.take 32) := by
    show MatrixEnough fipsShake (Kat.pk.take 32)
    rw [kat_pk_rho.1]; exact kat_enough
  have h6' : MatrixEnough fipsShake (katSk.arr.1.take 32) := by
    show MatrixEnough fipsShake (Kat.sk.take 32)
    rw [kat_pk_rho.2.1]; exact kat_enough
  have hk : Rust.keypairAt x1 katCoins = some (katPk, katSk) := by
    rw [(C112_signing x1 wrapSem katCoins [] katSk).2.1 (all_of kat_signs).2]; exact kat_rust_keypair
  have hs := rust_sign_of Kat.msg0 Kat.sig0 (Dilithium.Eval.unb_len _ _) Kat.signatures.1
  rw [← ((C112_signing x2 wrapSem katCoins Kat.msg0 katSk).2.2 h6').2] at hs
  exact ⟨h6, hk, _, hs, rfl, (C112_cross_machine x1 x2 x3 katCoins katPk katSk Kat.msg0 h6 (Or.inl hk)).1 _ hs⟩

theorem arm_sign_on (x : Rust.Machine) (m s : Bytes) (hl : s.length = 2420) (h : signature wrapSem fipsShake m Kat.sk = some s) : (allCode.sign x katSk m).1 = s := by
  have := rust_sign_of m s hl h
  rw [← ((C112_signing x wrapSem katCoins m katSk).2.2 (by
    show MatrixEnough fipsShake (Kat.sk.take 32)
    rw [kat_pk_rho.2.1]; exact kat_enough)).2] at this
  have e : allCode.sign x katSk m = ((Rust.detachedSignAt x m katSk).map (·.arr)).getD (.rep SIGLEN 0) := rfl
  rw [e, this, Option.map_some, Option.getD_some]

open Verif.Dilithium.Kat (msg1 msg2 msg3 msg4 sig1 sig2 sig3 sig4) in
/-- The four signatures of the run. -/
theorem kat_run_all (x0 : Rust.Machine) : SigmaRunSigned (machScheme allCode x0) (fun kc _ m => SignsAll kc m) katCoins katCoins katCoins () () runNA runNB
    runSsid runIdI runIdR (ByteArr.rep 672 0) (ByteArr.rep 736 0) () () := by
  obtain ⟨-, g1, g2, g3, g4⟩ := Kat.signatures
  have m1 : runIdI.1 ++ katPk.arr.1 = msg1 := rfl
  have m2 : runIdR.1 ++ katPk.arr.1 = msg2 := rfl
  have m3 : [0x00] ++ runNB.1 ++ runSsid.1 ++ (ByteArr.rep 672 0).1 ++ (ByteArr.rep 736 0).1 ++ (runIdI.1 ++ katPk.arr.1 ++ sig1) = msg3 := rfl
  have m4 : [0x01] ++ runNA.1 ++ runSsid.1 ++ (ByteArr.rep 736 0).1 ++ (ByteArr.rep 672 0).1 ++ (runIdR.1 ++ katPk.arr.1 ++ sig2) = msg4 := rfl
  refine run_signed allCode x0 SignsAll katCoins katPk katSk ?_ runNA runNB runSsid runIdI runIdR _ _ sig1 sig2 ?_ ?_ ?_ ?_ ?_ ?_
  · exact arm_keygen kat_rust_keypair
  · rw [m1]; exact arm_sign_on x0 msg1 sig1 (Dilithium.Eval.unb_len _ _) g1
  · rw [m2]; exact arm_sign_on x0 msg2 sig2 (Dilithium.Eval.unb_len _ _) g2
  · rw [m1]; exact all_of (signs_of msg1 sig1 (Dilithium.Eval.unb_len _ _) g1)
  · rw [m2]; exact all_of (signs_of msg2 sig2 (Dilithium.Eval.unb_len _ _) g2)
  · rw [m3]; exact all_of (signs_of msg3 sig3 (Dilithium.Eval.unb_len _ _) g3)
  · rw [m4]; exact all_of (signs_of msg4 sig4 (Dilithium.Eval.unb_len _ _) g4)

/-- C112 with SHAKE itself: the machines, the symmetric primitives, the remaining coins of LightSaber and the nonces of the encryptions are arbitrary. -/
example (P : SymPrims) (x0 xI xR : Rust.Machine) (password : Bytes) (nI nR) (pre : Bool) (ns r : ByteArr 32)
    (c1 c2 c3 c4 c5 c6 c7 : LatkeCoins (machIbke P allCode x0 (lightKem toyHashes)) (cakePake P (lightKem toyHashes)))
    (k3 k4 : MachCoins Rust.Machine (lightKem toyHashes)) (e3 : c3.eue.ibke = k3) (e4 : c4.eue.ibke = k4) (h3 : k3.kem.key = (.rep 32 0, ns))
    (h4 : k4.kem.enc = (.rep 32 0, r)) (s3 : c3.sess = runNA) (s4 : c4.sess = runNB) :
    LatkeSucceeds (machIbke P allCode x0 (lightKem toyHashes)) (cakePake P (lightKem toyHashes)) P (fun _ => katCoins) password runIdI runIdR runSsid
      katCoins katCoins xI xR nI nR pre [c1, c2, c3, c4, c5, c6, c7] := by
  refine C112_latke_machines P toyHashes x0 xI xR (fun _ => katCoins) password runIdI runIdR runSsid katCoins katCoins nI nR pre c1 c2 c3 c4 c5 c6 c7 k3 k4
    e3 e4 ?_ (fun i => le_trans (toy_noise _ _ _ i).1 (by split <;> omega)) (fun i => le_trans (toy_noise _ _ _ i).1 (by split <;> omega))
  rw [h3, h4, s3, s4]
  exact run_toy _ _ _ _ _ _ _ _ _ _ _ _ _ _ (kat_run_all x0) ns r

end Verif.Props
