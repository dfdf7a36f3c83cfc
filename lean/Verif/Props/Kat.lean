import Verif.Dilithium.Kat.All
import Verif.Props.Machine
import Verif.Saber.Toy

/-! # Known-answer test

The coins, the message, the keys and the signature of the first known-answer test of Dilithium2 (the one whose SHA-256 is the `nistkat-sha256` of
pqcrypto/pqclean/crypto_sign/dilithium2/META.yml), evaluated in the kernel with the model of fips202.c.  It shows that the hypotheses of C85, C93, C94,
C99 and C100 (key generation and signing return something) are met with SHAKE itself, and that the model computes what the code computes on this input.
No claim for all inputs is made here. -/

namespace Verif.Props
open Verif Verif.Latke Verif.Saber Verif.Keccak Verif.Dilithium
open Verif.Dilithium.Kat (coins msg0 msg1 msg2 msg3 msg4 pk sk sig0 sig1 sig2 sig3 sig4)

theorem kat_len : coins.length = 32 ∧ msg0.length = 33 ∧ pk.length = 1312 ∧ sk.length = 2560 ∧ sig0.length = 2420 :=
  ⟨Eval.unb_len _ _, Eval.unb_len _ _, Eval.unb_len _ _, Eval.unb_len _ _, Eval.unb_len _ _⟩

private theorem filled_eq {n : Nat} {b : Bytes} (h : b.length = n) : (Rust.filled n b).1 = b := by
  unfold Rust.filled
  simp only
  rw [← h, List.take_length, Nat.sub_self]
  simp

/-- The linked program on the test: key pair, signature, verification; also for the signed message. -/
theorem kat_linked (C : CSem) (O : Oob) : Linked.keypairDet C O coins = some (pk, sk) ∧ Linked.signature C O msg0 sk = some sig0 ∧
    Linked.verify C O sig0 msg0 pk = some true ∧ Linked.cryptoSign C O msg0 sk = some (sig0 ++ msg0) ∧ Linked.cryptoOpen C O (sig0 ++ msg0) pk = some (some msg0) := by
  obtain ⟨lc, lm, lp, ls, lg⟩ := kat_len
  obtain ⟨n1, n2, -, -⟩ := C85_no_undefined_behaviour C wrapSem O someOob
  obtain ⟨l1, l2, -, -, -⟩ := C85_linked_is_model wrapSem someOob
  have hk : Linked.keypairDet C O coins = some (pk, sk) := by rw [n1 _ lc, l1 _ lc, Kat.kat_keypair]
  have hs : Linked.signature C O msg0 sk = some sig0 := by rw [n2 _ _ ls, l2 _ _ ls, Kat.signatures.1]
  have hsm : Linked.cryptoSign C O msg0 sk = some (sig0 ++ msg0) := by unfold Linked.cryptoSign; rw [hs]; rfl
  obtain ⟨v1, v2⟩ := C85_verify_sign C O coins pk sk msg0 lc hk
  exact ⟨hk, hs, (v1 _ hs).1, hsm, v2 _ hsm⟩

/-- The same for the AVX2 program, whatever uninitialised memory and registers contain. -/
theorem kat_avx2 (C : CSem) (O : Oob) : (∀ K K' J J', Avx2.Linked.keypairA C O K K' J J' coins = some (pk, sk)) ∧
    (∀ K K' J, Avx2.Linked.signatureA C O K K' J msg0 sk = some sig0) ∧ ∀ K J, Avx2.Linked.verifyA C O K J sig0 msg0 pk = some true := by
  obtain ⟨lc, lm, lp, ls, lg⟩ := kat_len
  obtain ⟨a1, a2, -⟩ := C99_same_keys_and_signatures C C O O
  obtain ⟨hk, hs, -, -, -⟩ := kat_linked C O
  exact ⟨fun K K' J J' => by rw [a1 _ _ _ _ _ lc, hk], fun K K' J => by rw [a2 _ _ _ _ _ ls, hs],
    fun K J => ((C99_honest C O K J coins pk sk msg0 sig0 [] lc (Or.inr hk)).1 (Or.inr hs)).1⟩

/-- The coins as an array. -/
def katCoins : ByteArr 32 := ⟨coins, kat_len.1⟩

/-- The public key of the test. -/
def katPk : Rust.PublicKey := ⟨⟨pk, kat_len.2.2.1⟩⟩
/-- The secret key of the test. -/
def katSk : Rust.SecretKey := ⟨⟨sk, kat_len.2.2.2.1⟩⟩

/-- The crate makes the key pair of the test. -/
theorem kat_rust_keypair : Rust.keypairDet wrapSem fipsShake katCoins = some (katPk, katSk) := by
  obtain ⟨lc, lm, lp, ls, lg⟩ := kat_len
  unfold Rust.keypairDet
  rw [show katCoins.1 = coins from rfl, Kat.kat_keypair, Option.bind_eq_bind, Option.bind_some]
  have e1 : Rust.filled PKLEN pk = ⟨pk, lp⟩ := Subtype.ext (filled_eq lp)
  have e2 : Rust.filled SKLEN sk = ⟨sk, ls⟩ := Subtype.ext (filled_eq ls)
  dsimp only
  rw [e1, e2]
  rfl

/-- The crate makes a detached signature from a signature. -/
theorem rust_sign_of (m s : Bytes) (hl : s.length = 2420) (h : signature wrapSem fipsShake m sk = some s) :
    Rust.detachedSign wrapSem fipsShake m katSk = some ⟨⟨s, hl⟩, SIGLEN⟩ := by
  unfold Rust.detachedSign
  rw [show katSk.arr.1 = sk from rfl, h, Option.bind_eq_bind, Option.bind_some]
  exact congrArg some (congrArg (fun a => (⟨a, SIGLEN⟩ : Rust.DetachedSignature)) (Subtype.ext (filled_eq hl)))

theorem signs_of (m s : Bytes) (hl : s.length = 2420) (h : signature wrapSem fipsShake m sk = some s) : SignsFips katCoins m :=
  ⟨katPk, katSk, _, kat_rust_keypair, rust_sign_of m s hl h⟩

/-- The crate on every machine: a key pair is generated from the coins of the test and the message is signed. -/
theorem kat_signs : SignsFips katCoins msg0 := signs_of _ _ (Eval.unb_len _ _) Kat.signatures.1

/-- The signature of the test, made on any machine, is accepted on every machine. -/
theorem kat_machines (e0 : Rust.Env) : MachSigns machCode e0 katCoins msg0 := mach_signs e0 katCoins msg0 kat_signs

/-! ## A run of SIGMA-R

The four signatures of a run in which the key-generation centre and both users have the key of the test. -/

/-- The four signatures, whatever the code. -/
theorem run_signed {X : Type} (M : MachCode X) (e0 : X) (ok : ByteArr 32 → Bytes → Prop) (kc : ByteArr 32) (pkR : Rust.PublicKey) (skR : Rust.SecretKey)
    (hk : M.keygen e0 kc = (pkR, skR)) (nA nB : Nonce) (ssid : Ssid) (idI idR : Id) (pkb : ByteArr 672) (ct : ByteArr 736) (s1 s2 : Bytes)
    (h1 : (M.sign e0 skR (idI.1 ++ pkR.arr.1)).1 = s1) (h2 : (M.sign e0 skR (idR.1 ++ pkR.arr.1)).1 = s2) (k1 : ok kc (idI.1 ++ pkR.arr.1))
    (k2 : ok kc (idR.1 ++ pkR.arr.1)) (k3 : ok kc ([0x00] ++ nB.1 ++ ssid.1 ++ pkb.1 ++ ct.1 ++ (idI.1 ++ pkR.arr.1 ++ s1)))
    (k4 : ok kc ([0x01] ++ nA.1 ++ ssid.1 ++ ct.1 ++ pkb.1 ++ (idR.1 ++ pkR.arr.1 ++ s2))) :
    SigmaRunSigned (machScheme M e0) (fun kc _ m => ok kc m) kc kc kc () () nA nB ssid idI idR pkb ct () () := by
  have e : (machScheme M e0).keygen kc = (pkR, skR) := hk
  have hc : ∀ (id : Id) s, (M.sign e0 skR (id.1 ++ pkR.arr.1)).1 = s → honestSigmaCert (machScheme M e0) kc kc () id = id.1 ++ pkR.arr.1 ++ s := by
    intro id s h
    unfold honestSigmaCert
    rw [e, ← h]
    rfl
  refine ⟨?_, ?_, ?_, ?_⟩
  · rw [e]; exact k1
  · rw [e]; exact k2
  · rw [hc _ _ h1]; exact k3
  · rw [hc _ _ h2]; exact k4

/-- The identities, the session identifier and the nonces of the run. -/
def runIdI : Id := ⟨Kat.idI, Eval.unb_len _ _⟩
@[inherit_doc runIdI] def runIdR : Id := ⟨Kat.idR, Eval.unb_len _ _⟩
@[inherit_doc runIdI] def runSsid : Ssid := ⟨Kat.ssid, Eval.unb_len _ _⟩
@[inherit_doc runIdI] def runNA : Nonce := ⟨Kat.nA, Eval.unb_len _ _⟩
@[inherit_doc runIdI] def runNB : Nonce := ⟨Kat.nB, Eval.unb_len _ _⟩

theorem kat_sign_on (e : Rust.Env) (m s : Bytes) (hl : s.length = 2420) (h : signature wrapSem fipsShake m sk = some s) : (machSign e katSk m).1 = s := by
  have := rust_sign_of m s hl h
  rw [← (C100_signing e wrapSem katCoins m katSk).2.2.2] at this
  rw [machSign_some this]

/-- The four signatures of the run, with SHAKE itself. -/
theorem kat_run (e0 : Rust.Env) : SigmaRunSigned (machScheme machCode e0) (fun kc _ m => SignsFips kc m) katCoins katCoins katCoins () () runNA runNB runSsid
    runIdI runIdR (ByteArr.rep 672 0) (ByteArr.rep 736 0) () () := by
  obtain ⟨-, g1, g2, g3, g4⟩ := Kat.signatures
  have m1 : runIdI.1 ++ katPk.arr.1 = msg1 := rfl
  have m2 : runIdR.1 ++ katPk.arr.1 = msg2 := rfl
  have m3 : [0x00] ++ runNB.1 ++ runSsid.1 ++ (ByteArr.rep 672 0).1 ++ (ByteArr.rep 736 0).1 ++ (runIdI.1 ++ katPk.arr.1 ++ sig1) = msg3 := rfl
  have m4 : [0x01] ++ runNA.1 ++ runSsid.1 ++ (ByteArr.rep 736 0).1 ++ (ByteArr.rep 672 0).1 ++ (runIdR.1 ++ katPk.arr.1 ++ sig2) = msg4 := rfl
  refine run_signed machCode e0 SignsFips katCoins katPk katSk ?_ runNA runNB runSsid runIdI runIdR _ _ sig1 sig2 ?_ ?_ ?_ ?_ ?_ ?_
  · have h := kat_rust_keypair
    rw [← (C100_signing e0 wrapSem katCoins [] katSk).1] at h
    unfold machCode
    dsimp only
    rw [machKeygen_some h]
  · rw [m1]; unfold machCode; dsimp only; exact kat_sign_on e0 msg1 sig1 (Eval.unb_len _ _) g1
  · rw [m2]; unfold machCode; dsimp only; exact kat_sign_on e0 msg2 sig2 (Eval.unb_len _ _) g2
  · rw [m1]; exact signs_of msg1 sig1 (Eval.unb_len _ _) g1
  · rw [m2]; exact signs_of msg2 sig2 (Eval.unb_len _ _) g2
  · rw [m3]; exact signs_of msg3 sig3 (Eval.unb_len _ _) g3
  · rw [m4]; exact signs_of msg4 sig4 (Eval.unb_len _ _) g4

/-- The public key of LightSaber on the toy hash functions. -/
theorem toy_pk0 (ns : ByteArr 32) : (lightKem toyHashes).pkToBytes ((lightKem toyHashes).keygen (.rep 32 0, ns)).1 = ByteArr.rep 672 0 := by
  apply Subtype.ext
  rw [toy_pk]
  show List.replicate 640 0 ++ List.replicate 32 0 = List.replicate 672 (0 : UInt8)
  rw [List.replicate_append_replicate]

/-- The run, with any scheme. -/
theorem run_toy (S : SigmaScheme) (ok) (mc ucI ucR : S.KeyCoins) (nA nB : Nonce) (ssid : Ssid) (idI idR : Id) (s1 s2 s3 s4 : S.SignCoins)
    (h : SigmaRunSigned S ok mc ucI ucR s1 s2 nA nB ssid idI idR (ByteArr.rep 672 0) (ByteArr.rep 736 0) s3 s4) (ns r : ByteArr 32) :
    SigmaRunSigned S ok mc ucI ucR s1 s2 nA nB ssid idI idR ((lightKem toyHashes).pkToBytes ((lightKem toyHashes).keygen (.rep 32 0, ns)).1)
      ((lightKem toyHashes).encap (.rep 32 0, r) ((lightKem toyHashes).pkFromBytes ((lightKem toyHashes).pkToBytes ((lightKem toyHashes).keygen
        (.rep 32 0, ns)).1))).2 s3 s4 := by
  rw [toy_ct, toy_pk0]
  exact h

/-- C100 with SHAKE itself: the machines, the symmetric primitives, the remaining coins of LightSaber and the nonces of the encryptions are arbitrary. -/
example (P : SymPrims) (e0 xI xR : Rust.Env) (ns r : ByteArr 32) (c0 c1 c2 c3 c4 : MachCoins Rust.Env (lightKem toyHashes)) (h0 : c0.kem.key = (.rep 32 0, ns))
    (h1 : c1.kem.enc = (.rep 32 0, r)) :
    IbkeAgrees (machIbke P machCode e0 (lightKem toyHashes)) katCoins katCoins katCoins xI xR runNA runNB runSsid runIdI runIdR [c0, c1, c2, c3, c4] := by
  refine C100_sigma_machines P (lightKem toyHashes) e0 xI xR katCoins katCoins katCoins runNA runNB runSsid runIdI runIdR c0 c1 c2 c3 c4 ?_
    (C52_light_kem_correct toyHashes _ _ fun i => le_trans (toy_noise _ _ _ i).1 (by split <;> omega)) (C48_light_kem_reencode toyHashes _)
  rw [h0, h1]
  exact run_toy _ _ _ _ _ _ _ _ _ _ _ _ _ _ (kat_run e0) ns r

/-- The same for LATKE with the post-quantum suite; the password hash is expanded to the coins of the test. -/
example (P : SymPrims) (e0 xI xR : Rust.Env) (password : Bytes) (nI nR) (pre : Bool) (ns r : ByteArr 32)
    (c1 c2 c3 c4 c5 c6 c7 : LatkeCoins (machIbke P machCode e0 (lightKem toyHashes)) (cakePake P (lightKem toyHashes)))
    (k3 k4 : MachCoins Rust.Env (lightKem toyHashes)) (e3 : c3.eue.ibke = k3) (e4 : c4.eue.ibke = k4) (h3 : k3.kem.key = (.rep 32 0, ns))
    (h4 : k4.kem.enc = (.rep 32 0, r)) (s3 : c3.sess = runNA) (s4 : c4.sess = runNB) :
    LatkeSucceeds (machIbke P machCode e0 (lightKem toyHashes)) (cakePake P (lightKem toyHashes)) P (fun _ => katCoins) password runIdI runIdR runSsid
      katCoins katCoins xI xR nI nR pre [c1, c2, c3, c4, c5, c6, c7] := by
  refine C100_latke_machines P toyHashes e0 xI xR (fun _ => katCoins) password runIdI runIdR runSsid katCoins katCoins nI nR pre c1 c2 c3 c4 c5 c6 c7 k3 k4
    e3 e4 ?_ (fun i => le_trans (toy_noise _ _ _ i).1 (by split <;> omega)) (fun i => le_trans (toy_noise _ _ _ i).1 (by split <;> omega))
  rw [h3, h4, s3, s4]
  exact run_toy _ _ _ _ _ _ _ _ _ _ _ _ _ _ (kat_run e0) ns r

end Verif.Props
