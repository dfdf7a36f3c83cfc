import Verif.Latke.Ibke.SigmaMachineLemmas
import Verif.Props.Avx2Linked
import Verif.Props.Shipped
import Verif.Props.EndToEnd

/-! # C100: Dilithium2 and LATKE as shipped, on machines with and without AVX2

`Rust.Env` is the machine on which a call runs: its processor, its uninitialised memory, its undefined behaviour.  The functions with suffix `On` are the
functions of pqcrypto-dilithium/src/dilithium2.rs on that machine. -/

namespace Verif.Props
open Verif Verif.Latke Verif.Saber Verif.Dilithium Verif.Keccak

/-- C100: what key generation and signing return does not depend on the machine: it is what the model of C75 returns with FIPS 202 for the hash
functions. -/
theorem C100_signing (e : Rust.Env) (C : CSem) (coins : ByteArr 32) (m : Bytes) (sk : Rust.SecretKey) :
    Rust.keypairDetOn e coins = Rust.keypairDet C fipsShake coins ∧ Rust.keypairOn e coins = Rust.keypairDet C fipsShake coins ∧
    Rust.signOn e m sk = Rust.sign C fipsShake m sk ∧ Rust.detachedSignOn e m sk = Rust.detachedSign C fipsShake m sk := by
  obtain ⟨a1, a2, a3⟩ := C99_same_keys_and_signatures e.C C e.O e.O
  obtain ⟨l1, l2, l3, -, -⟩ := C85_linked_is_model C e.O
  obtain ⟨n1, n2, -, -⟩ := C85_no_undefined_behaviour e.C C e.O e.O
  have n3 : Linked.cryptoSign e.C e.O m sk.arr.1 = Linked.cryptoSign C e.O m sk.arr.1 := by
    unfold Linked.cryptoSign
    rw [n2 _ _ sk.arr.2]
  refine ⟨?_, ?_, ?_, ?_⟩
  · unfold Rust.keypairDetOn Rust.keypairDet
    rw [n1 _ coins.2, l1 _ coins.2]
  · unfold Rust.keypairOn Rust.keypairDet
    rw [a1 _ _ _ _ _ coins.2, n1 _ coins.2, ite_self, l1 _ coins.2]
  · unfold Rust.signOn Rust.sign
    rw [a3 _ _ _ _ _ sk.arr.2, n3, ite_self, l3 _ _ sk.arr.2]
  · unfold Rust.detachedSignOn Rust.detachedSign
    rw [a2 _ _ _ _ _ sk.arr.2, n2 _ _ sk.arr.2, ite_self, l2 _ _ sk.arr.2]

/-- C100: keys made on one machine, a signature made on a second, verified on a third: it is accepted, and the signed message opens to the message. -/
theorem C100_cross_machine (e1 e2 e3 : Rust.Env) (coins : ByteArr 32) (pk : Rust.PublicKey) (sk : Rust.SecretKey) (m : Bytes)
    (hk : Rust.keypairOn e1 coins = some (pk, sk) ∨ Rust.keypairDetOn e1 coins = some (pk, sk)) :
    (∀ s, Rust.detachedSignOn e2 m sk = some s → Rust.verifyDetachedSignatureOn e3 s m pk = some (.ok ())) ∧
    (∀ sm, Rust.signOn e2 m sk = some sm → Rust.openSignedOn e3 sm pk = some (.ok m)) := by
  have hk' : Rust.keypairDet e3.C fipsShake coins = some (pk, sk) := by
    rcases hk with h | h
    · rw [← (C100_signing e1 e3.C coins m sk).2.1]; exact h
    · rw [← (C100_signing e1 e3.C coins m sk).1]; exact h
  have hkey : keypairDet e3.C fipsShake coins.1 = some (pk.arr.1, sk.arr.1) := by
    unfold Rust.keypairDet at hk'
    cases h : keypairDet e3.C fipsShake coins.1 with
    | none => rw [h] at hk'; simp at hk'
    | some q =>
      obtain ⟨p', s'⟩ := q
      obtain ⟨lp, ls⟩ : p'.length = 1312 ∧ s'.length = 2560 := Avx2.keypairDet_len h
      rw [h] at hk'
      simp only [Option.pure_def, Option.bind_eq_bind, Option.bind_some, Option.some.injEq, Prod.mk.injEq] at hk'
      have f : ∀ (n : Nat) (b : Bytes), b.length = n → (Rust.filled n b).1 = b := fun n b hb => by
        unfold Rust.filled
        simp [hb]
      rw [← hk'.1, ← hk'.2]
      show some (p', s') = some ((Rust.filled PKLEN p').1, (Rust.filled SKLEN s').1)
      rw [f _ _ lp, f _ _ ls]
  obtain ⟨v1, v2⟩ : (∀ sig, signature e3.C fipsShake m sk.arr.1 = some sig → Avx2.Linked.verifyA e3.C e3.O e3.vfK e3.vfJ sig m pk.arr.1 = some true ∧
      Linked.verify e3.C e3.O sig m pk.arr.1 = some true) ∧ ∀ sm, cryptoSign e3.C fipsShake m sk.arr.1 = some sm →
        Avx2.Linked.cryptoOpenA e3.C e3.O e3.vfK e3.vfJ sm pk.arr.1 = some (some m) ∧ Linked.cryptoOpen e3.C e3.O sm pk.arr.1 = some (some m) := by
    obtain ⟨l1, l2, l3, -, -⟩ := C85_linked_is_model e3.C e3.O
    have hk3 := hkey
    rw [← l1 _ coins.2] at hk3
    refine ⟨fun sig h => ?_, fun sm h => ?_⟩
    · exact (C99_honest e3.C e3.O e3.vfK e3.vfJ coins.1 _ _ m sig [] coins.2 (Or.inr hk3)).1 (Or.inr (by rw [l2 _ _ sk.arr.2]; exact h))
    · exact (C99_honest e3.C e3.O e3.vfK e3.vfJ coins.1 _ _ m [] sm coins.2 (Or.inr hk3)).2 (Or.inr (by rw [l3 _ _ sk.arr.2]; exact h))
  refine ⟨fun s hs => ?_, fun sm hs => ?_⟩
  · rw [(C100_signing e2 e3.C coins m sk).2.2.2] at hs
    unfold Rust.detachedSign at hs
    cases h : signature e3.C fipsShake m sk.arr.1 with
    | none => rw [h] at hs; simp at hs
    | some sig =>
      rw [h] at hs
      simp only [Option.pure_def, Option.bind_eq_bind, Option.bind_some, Option.some.injEq] at hs
      subst hs
      obtain ⟨a, b⟩ := v1 sig h
      have hl : sig.length = SIGLEN := (verify_signature hkey h).2
      have ef : ((Rust.filled SIGLEN sig).1).take SIGLEN = sig := by
        have : (Rust.filled SIGLEN sig).1 = sig := by
          unfold Rust.filled
          simp [hl]
        rw [this, List.take_of_length_le (by omega)]
      unfold Rust.verifyDetachedSignatureOn
      simp only [ef, a, b, ite_self]
      rfl
  · rw [(C100_signing e2 e3.C coins m sk).2.2.1] at hs
    unfold Rust.sign at hs
    cases h : cryptoSign e3.C fipsShake m sk.arr.1 with
    | none => rw [h] at hs; simp at hs
    | some w =>
      rw [h] at hs
      simp only [Option.pure_def, Option.bind_eq_bind, Option.bind_some, Option.some.injEq] at hs
      subst hs
      obtain ⟨a, b⟩ := v2 w h
      unfold Rust.openSignedOn
      simp only [a, b, ite_self]
      rfl

/-- C100: whether a signature is accepted can depend on the machine: there are a public key and a detached signature on the empty message that are accepted
on every machine with AVX2 and rejected on every machine without. -/
theorem C100_acceptance_depends_on_machine : ∃ (pkb sigb : Bytes) (pk : Rust.PublicKey) (s : Rust.DetachedSignature),
    Rust.PublicKey.fromBytes pkb = .ok pk ∧ Rust.DetachedSignature.fromBytes sigb = .ok s ∧
    ∀ e : Rust.Env, Rust.verifyDetachedSignatureOn e s [] pk = some (if e.avx2 then .ok () else .err .invalidSignature) ∧
      Rust.openSignedOn e ⟨sigb⟩ pk = some (if e.avx2 then .ok [] else .err .invalidSignature) := by
  obtain ⟨pkb, sigb, hp, hs, h⟩ := C99_builds_disagree
  obtain ⟨s, hs1, hs2⟩ := (C75_signature_bytes sigb).1 (by omega)
  refine ⟨pkb, sigb, ⟨⟨pkb, hp⟩⟩, s, ((C75_key_bytes pkb).1 _).2 rfl, hs1, fun e => ?_⟩
  obtain ⟨h1, h2, h3, h4⟩ := h e.C e.O e.vfK e.vfJ
  have es : s.arr.1.take s.len = sigb := by
    unfold Rust.DetachedSignature.asBytes at hs2
    split at hs2
    · exact Option.some.inj hs2
    · cases hs2
  unfold Rust.verifyDetachedSignatureOn Rust.openSignedOn
  simp only [es, h1, h2, h3, h4]
  cases e.avx2 <;> exact ⟨rfl, rfl⟩

/-! ## LATKE on any machines -/

/-- With these coins the key pair is generated, and `m` is signed, after finitely many rejections: a property of SHAKE only. -/
abbrev SignsFips (kc : ByteArr 32) (m : Bytes) : Prop := DilithiumSigns wrapSem fipsShake kc m

theorem machSign_eq (e e0 : Rust.Env) : machSign e = machSign e0 := by
  funext sk m
  unfold machSign
  rw [(C100_signing e wrapSem (.rep 32 0) m sk).2.2.2, (C100_signing e0 wrapSem (.rep 32 0) m sk).2.2.2]

theorem machKeygen_some {e : Rust.Env} {kc : ByteArr 32} {r : Rust.PublicKey × Rust.SecretKey} (h : Rust.keypairDetOn e kc = some r) :
    machKeygen e kc = r := by
  unfold machKeygen
  rw [h, Option.getD_some]

theorem machSign_some {e : Rust.Env} {sk : Rust.SecretKey} {m : Bytes} {s : Rust.DetachedSignature} (h : Rust.detachedSignOn e m sk = some s) :
    machSign e sk m = s.arr := by
  unfold machSign
  rw [h, Option.map_some, Option.getD_some]

theorem machVerify_ok {e : Rust.Env} {pk : Rust.PublicKey} {m : Bytes} {s : ByteArr SIGLEN}
    (h : Rust.verifyDetachedSignatureOn e ⟨s, SIGLEN⟩ m pk = some (.ok ())) : machVerify e pk m s = true := by
  unfold machVerify
  rw [h]

/-- A message signed with these coins is accepted by every machine. -/
def MachSigns {X : Type} (M : MachCode X) (e0 : X) (kc : ByteArr 32) (m : Bytes) : Prop :=
  ∀ e, M.verify e (M.keygen e0 kc).1 m (M.sign e0 (M.keygen e0 kc).2 m) = true

theorem mach_signs (e0 : Rust.Env) (kc : ByteArr 32) (m : Bytes) (h : SignsFips kc m) : MachSigns machCode e0 kc m := by
  obtain ⟨pk, sk, s, hk, hs⟩ := h
  rw [← (C100_signing e0 wrapSem kc m sk).1] at hk
  rw [← (C100_signing e0 wrapSem kc m sk).2.2.2] at hs
  have hl : s.len = SIGLEN := by
    rw [(C100_signing e0 wrapSem kc m sk).2.2.2] at hs
    unfold Rust.detachedSign at hs
    simp only [Option.bind_eq_bind, Option.bind_eq_some_iff, Option.pure_def, Option.some.injEq] at hs
    obtain ⟨_, -, rfl⟩ := hs
    rfl
  intro e
  unfold machCode
  dsimp only
  rw [machKeygen_some hk]
  dsimp only
  rw [machSign_some hs]
  have := (C100_cross_machine e0 e0 e kc pk sk m (Or.inr hk)).1 s hs
  obtain ⟨arr, len⟩ := s
  simp only at hl
  subst hl
  exact machVerify_ok this

/-! ### The protocol, whatever the code -/

section
variable {X : Type} (P : SymPrims) (M : MachCode X) (E : Kem) (e0 : X)

/-- The signature scheme whose verification is that of all machines together. -/
noncomputable def strictScheme : SigmaScheme :=
  (machScheme M e0).withCode (fun _ => M.sign e0) (fun pk m s => open Classical in decide (∀ e, M.verify e pk m s = true))

theorem strict_signs (kc : ByteArr 32) (sc : Unit) (m : Bytes) (h : MachSigns M e0 kc m) : SigmaScheme.SignsOk (strictScheme M e0) kc sc m :=
  @decide_eq_true _ (Classical.propDecidable _) h

/-- All machines make the same signatures with this secret key. -/
def SameSignatures (sk : Rust.SecretKey) : Prop := ∀ e m, M.sign e sk m = M.sign e0 sk m

theorem mach_extract (x : X) (mc uc : ByteArr 32) (hsg : SameSignatures M e0 (M.keygen e0 mc).2) (id : Id) :
    (machIbke P M e0 E).extract x ((machIbke P M e0 E).genMain mc).2 id ((machIbke P M e0 E).genUser uc).1 =
    (machIbke P M e0 E).extract e0 ((machIbke P M e0 E).genMain mc).2 id ((machIbke P M e0 E).genUser uc).1 :=
  congrArg (SigmaCert.mk (G := machScheme M e0) id (M.keygen e0 uc).1) (hsg x (id.1 ++ (M.keygen e0 uc).1.arr.1))

theorem mach_agrees (xI xR : X) (mc ucI ucR : ByteArr 32) (hsg : SameSignatures M e0 (M.keygen e0 mc).2) (hsI : SameSignatures M e0 (M.keygen e0 ucI).2)
    (hsR : SameSignatures M e0 (M.keygen e0 ucR).2) (nA nB : Nonce) (ssid : Ssid) (idI idR : Id)
    (c0 c1 c2 c3 c4 : MachCoins X E)
    (hs : SigmaRunSigned (machScheme M e0) (fun kc _ m => MachSigns M e0 kc m) mc ucI ucR () () nA nB ssid idI idR (E.pkToBytes (E.keygen c0.kem.key).1)
      (E.encap c1.kem.enc (E.pkFromBytes (E.pkToBytes (E.keygen c0.kem.key).1))).2 () ())
    (hE : E.Correct c0.kem.key c1.kem.enc)
    (hpk : E.pkToBytes (E.pkFromBytes (E.pkToBytes (E.keygen c0.kem.key).1)) = E.pkToBytes (E.keygen c0.kem.key).1) :
    IbkeAgrees (machIbke P M e0 E) mc ucI ucR xI xR nA nB ssid idI idR [c0, c1, c2, c3, c4] := by
  let g : MachCoins X E → SigmaCoins (strictScheme M e0) E := fun c => ⟨c.kem, (), c.ae⟩
  have hs' : SigmaRunSigned (strictScheme M e0) (SigmaScheme.SignsOk (strictScheme M e0)) mc ucI ucR () () nA nB ssid idI idR
      (E.pkToBytes (E.keygen c0.kem.key).1) (E.encap c1.kem.enc (E.pkFromBytes (E.pkToBytes (E.keygen c0.kem.key).1))).2 () () :=
    ⟨strict_signs M e0 _ _ _ hs.certI, strict_signs M e0 _ _ _ hs.certR, strict_signs M e0 _ _ _ hs.sigI, strict_signs M e0 _ _ _ hs.sigR⟩
  obtain ⟨tr, sI, sR, k, h1, h2, h3, h4, h5⟩ := C31_sigma_agreement_signed P (strictScheme M e0) E (fun _ => rfl) mc ucI ucR () () nA nB ssid idI idR
    (g c0) (g c1) (g c2) (g c3) (g c4) hs' hE hpk
  have hsim := converse_sim (run := IdSigmaR.run (G := strictScheme M e0) (E := E) P) (done := fun s => s.done) (run' := machRun P M e0 E)
    (done' := fun s => s.done) (fun s => s.uncode) g (fun s => rfl)
    (fun s => SameSignatures M e0 s.sigPrivkey) (fun s c m s' o hi h => by rw [IdSigmaR.run_sigPrivkey P h]; exact hi) (fun s c m s' o hi h => by
      have hr := IdSigmaR.run_recode (G := strictScheme M e0) (sg := fun _ => M.sign c.env) (vf := M.verify c.env) P
        (fun b pk h => by cases h; rfl) (fun _ => rfl) (fun pk m x h => (@of_decide_eq_true _ (Classical.propDecidable _) h) c.env)
        (fun _ m => hi c.env m) h
      unfold machRun
      have e : IdSigmaR.run (G := (machScheme M e0).withCode (fun _ => M.sign c.env) (M.verify c.env)) P
          (IdSigmaR.recode (fun _ => M.sign c.env) (M.verify c.env) s.uncode) ⟨c.kem, (), c.ae⟩ m =
          .ok (IdSigmaR.recode (G := machScheme M e0) (fun _ => M.sign c.env) (M.verify c.env) s'.uncode) o := hr
      rw [e]
      rfl)
  refine ⟨tr, sI.uncode, sR.uncode, k, ?_, h2, h3, h4, h5⟩
  have := hsim [c0, c1, c2, c3, c4] _ _ [] tr sI sR hsI hsR h1
  rw [mach_extract P M E e0 xI mc ucI hsg, mach_extract P M E e0 xR mc ucR hsg]
  exact this

end

theorem mach_same (e0 : Rust.Env) (sk : Rust.SecretKey) : SameSignatures machCode e0 sk := fun e m => congrFun (congrFun (machSign_eq e e0) sk) m

/-- C100: SIGMA-R with Dilithium2: the two users agree although certificates and every call are handled by different machines, provided the four signatures of
the run are produced and the KEM is correct for the coins used. -/
theorem C100_sigma_machines (P : SymPrims) (E : Kem) (e0 xI xR : Rust.Env) (mc ucI ucR : ByteArr 32) (nA nB : Nonce) (ssid : Ssid) (idI idR : Id)
    (c0 c1 c2 c3 c4 : MachCoins Rust.Env E)
    (hs : SigmaRunSigned (machScheme machCode e0) (fun kc _ m => SignsFips kc m) mc ucI ucR () () nA nB ssid idI idR
      (E.pkToBytes (E.keygen c0.kem.key).1) (E.encap c1.kem.enc (E.pkFromBytes (E.pkToBytes (E.keygen c0.kem.key).1))).2 () ())
    (hE : E.Correct c0.kem.key c1.kem.enc)
    (hpk : E.pkToBytes (E.pkFromBytes (E.pkToBytes (E.keygen c0.kem.key).1)) = E.pkToBytes (E.keygen c0.kem.key).1) :
    IbkeAgrees (machIbke P machCode e0 E) mc ucI ucR xI xR nA nB ssid idI idR [c0, c1, c2, c3, c4] :=
  mach_agrees P machCode E e0 xI xR mc ucI ucR (mach_same e0 _) (mach_same e0 _) (mach_same e0 _) nA nB ssid idI idR c0 c1 c2 c3 c4
    (SigmaRunSigned.imp (fun kc _ m h => mach_signs e0 kc m h) hs) hE hpk

theorem mach_latke {X : Type} (P : SymPrims) (E : Kem) (M : MachCode X) (e0 xI xR : X) (seedRng : ByteArr 32 → ByteArr 32) (password : Bytes) (idI idR : Id)
    (ssid : Ssid) (ucI ucR : ByteArr 32) (nI nR) (pre : Bool) (c1 c2 c3 c4 c5 c6 c7 : LatkeCoins (machIbke P M e0 E) (cakePake P E))
    (hag : IbkeAgrees (machIbke P M e0 E) (seedRng (P.hash256 password)) ucI ucR xI xR c3.sess c4.sess ssid idI idR
      [c3.eue.ibke, c4.eue.ibke, c5.eue.ibke, c6.eue.ibke, c7.eue.ibke])
    (h1 : E.Correct c1.pake.key c2.pake.enc) :
    LatkeSucceeds (machIbke P M e0 E) (cakePake P E) P seedRng password idI idR ssid ucI ucR xI xR nI nR pre
      [c1, c2, c3, c4, c5, c6, c7] := by
  have hid : ∀ (c) (msk) (i) (u), (machIbke P M e0 E).certId ((machIbke P M e0 E).extract c msk i u) = i := fun _ _ _ _ => rfl
  have hP : ∀ input, ∃ tr qI qR k, converse (cakePake P E).run (cakePake P E).isDone (([c1, c2] ++ [c3]).map (·.pake)) ((cakePake P E).new nI ssid input .initiator)
      ((cakePake P E).new nR ssid input .responder) [] = some (tr, qI, qR) ∧ (cakePake P E).finalize qI = some k ∧ (cakePake P E).finalize qR = some k := fun input => by
      obtain ⟨m1, m2, qI, qR, k, hc, _, _, _, _, h1, h2⟩ := C20_cake_agreement P E ssid input c1.pake c2.pake c3.pake h1
      exact ⟨_, qI, qR, k, hc, h1, h2⟩
  exact C12_composed_odd P hid seedRng password idI idR ssid ucI ucR xI xR nI nR pre [c1, c2] c3 c4 [c5, c6, c7] (by rw [List.length_cons, List.length_cons, List.length_nil]) hP hag

/-- C100: LATKE with the post-quantum suite (SIGMA-R with Dilithium2 and LightSaber over CAKE with LightSaber) succeeds between any two users on any
machines, even when every certificate and every call is handled by another one, provided the signatures are produced and the KEM noise is within the
thresholds. -/
theorem C100_latke_machines (P : SymPrims) (H : Hashes) (e0 xI xR : Rust.Env) (seedRng : ByteArr 32 → ByteArr 32) (password : Bytes) (idI idR : Id)
    (ssid : Ssid) (ucI ucR : ByteArr 32) (nI nR) (pre : Bool)
    (c1 c2 c3 c4 c5 c6 c7 : LatkeCoins (machIbke P machCode e0 (lightKem H)) (cakePake P (lightKem H)))
    (k3 k4 : MachCoins Rust.Env (lightKem H)) (e3 : c3.eue.ibke = k3) (e4 : c4.eue.ibke = k4)
    (hs : SigmaRunSigned (machScheme machCode e0) (fun kc _ m => SignsFips kc m) (seedRng (P.hash256 password)) ucI ucR () () c3.sess c4.sess ssid idI idR
      ((lightKem H).pkToBytes ((lightKem H).keygen k3.kem.key).1)
      ((lightKem H).encap k4.kem.enc ((lightKem H).pkFromBytes ((lightKem H).pkToBytes ((lightKem H).keygen k3.kem.key).1))).2 () ())
    (h1 : LightNoiseOk H c1.pake.key c2.pake.enc) (h2 : LightNoiseOk H k3.kem.key k4.kem.enc) :
    LatkeSucceeds (machIbke P machCode e0 (lightKem H)) (cakePake P (lightKem H)) P seedRng password idI idR ssid ucI ucR xI xR nI nR pre
      [c1, c2, c3, c4, c5, c6, c7] := by
  subst e3 e4
  exact mach_latke P (lightKem H) machCode e0 xI xR seedRng password idI idR ssid ucI ucR nI nR pre c1 c2 c3 c4 c5 c6 c7
    (C100_sigma_machines P (lightKem H) e0 xI xR (seedRng (P.hash256 password)) ucI ucR c3.sess c4.sess ssid idI idR c3.eue.ibke c4.eue.ibke c5.eue.ibke
      c6.eue.ibke c7.eue.ibke hs (C52_light_kem_correct H _ _ h2) (C48_light_kem_reencode H _)) (C52_light_kem_correct H _ _ h1)

end Verif.Props
