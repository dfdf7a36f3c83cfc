import Verif.Latke.Ibke.SigmaRLemmas
import Verif.Latke.IbkeSpec

/-! # SIGMA-R IBKE: C11, C14, C31, C32, C34, C37–C41 (both signature schemes, any KEM of LightSaber's sizes) -/

namespace Verif.Props
open Verif Verif.Latke

section
variable (P : SymPrims) (G : SigmaScheme) (E : Kem)

/-- The signer's output on `m` verifies, for this key pair and these signing coins. -/
def SigmaScheme.SignsOk (kc : G.KeyCoins) (sc : G.SignCoins) (m : Bytes) : Prop :=
  G.verify (G.keygen kc).1 m (G.sign sc (G.keygen kc).2 m) = true

/-- The certificate bytes `id ‖ upk ‖ signature` issued in an honest setup. -/
def honestSigmaCert (mc uc : G.KeyCoins) (xc : G.SignCoins) (id : Id) : Bytes :=
  id.1 ++ (G.pkToBytes (G.keygen uc).1).1 ++ (G.sign xc (G.keygen mc).2 (id.1 ++ (G.pkToBytes (G.keygen uc).1).1)).1

/-- `ok` holds for the four signatures of an honest run: the two certificates, and one per party on the exchanged values. -/
structure SigmaRunSigned (ok : G.KeyCoins → G.SignCoins → Bytes → Prop) (mc ucI ucR : G.KeyCoins) (xcI xcR : G.SignCoins) (nA nB : Nonce)
    (ssid : Ssid) (idI idR : Id) (pkb : ByteArr 672) (ct : ByteArr 736) (scI scR : G.SignCoins) : Prop where
  certI : ok mc xcI (idI.1 ++ (G.pkToBytes (G.keygen ucI).1).1)
  certR : ok mc xcR (idR.1 ++ (G.pkToBytes (G.keygen ucR).1).1)
  sigI : ok ucI scI ([0x00] ++ nB.1 ++ ssid.1 ++ pkb.1 ++ ct.1 ++ honestSigmaCert G mc ucI xcI idI)
  sigR : ok ucR scR ([0x01] ++ nA.1 ++ ssid.1 ++ ct.1 ++ pkb.1 ++ honestSigmaCert G mc ucR xcR idR)

theorem SigmaRunSigned.imp {G : SigmaScheme} {ok ok' : G.KeyCoins → G.SignCoins → Bytes → Prop} (h : ∀ kc sc m, ok kc sc m → ok' kc sc m)
    {mc ucI ucR : G.KeyCoins} {xcI xcR : G.SignCoins} {nA nB : Nonce} {ssid : Ssid} {idI idR : Id} {pkb : ByteArr 672} {ct : ByteArr 736}
    {scI scR : G.SignCoins} (hs : SigmaRunSigned G ok mc ucI ucR xcI xcR nA nB ssid idI idR pkb ct scI scR) :
    SigmaRunSigned G ok' mc ucI ucR xcI xcR nA nB ssid idI idR pkb ct scI scR :=
  ⟨h _ _ _ hs.certI, h _ _ _ hs.certR, h _ _ _ hs.sigI, h _ _ _ hs.sigR⟩

/-- C31, with the signature scheme only assumed correct on the four messages signed in this run (a Dilithium signer may in principle not
terminate on others). -/
theorem C31_sigma_agreement_signed (hkey : ∀ pk, G.pkFromBytes (G.pkToBytes pk) = some pk) (mc ucI ucR : G.KeyCoins) (xcI xcR : G.SignCoins)
    (nA nB : Nonce) (ssid : Ssid) (idI idR : Id) (c0 c1 c2 c3 c4 : SigmaCoins G E)
    (hsig : SigmaRunSigned G (SigmaScheme.SignsOk G) mc ucI ucR xcI xcR nA nB ssid idI idR (E.pkToBytes (E.keygen c0.kem.key).1)
      (E.encap c1.kem.enc (E.pkFromBytes (E.pkToBytes (E.keygen c0.kem.key).1))).2 c2.sign c3.sign)
    (hE : E.Correct c0.kem.key c1.kem.enc)
    (hpk : E.pkToBytes (E.pkFromBytes (E.pkToBytes (E.keygen c0.kem.key).1)) = E.pkToBytes (E.keygen c0.kem.key).1) :
    IbkeAgrees (sigmaIbke P G E) mc ucI ucR xcI xcR nA nB ssid idI idR [c0, c1, c2, c3, c4] := by
  let I := sigmaIbke P G E
  let certI : SigmaCert G := I.extract xcI (I.genMain mc).2 idI (I.genUser ucI).1
  let certR : SigmaCert G := I.extract xcR (I.genMain mc).2 idR (I.genUser ucR).1
  let mpk := (G.keygen mc).1
  let s0 : IdSigmaR G E := IdSigmaR.newSession nA ssid mpk certI (G.keygen ucI).2 .initiator
  let r0 : IdSigmaR G E := IdSigmaR.newSession nB ssid mpk certR (G.keygen ucR).2 .responder
  have vI : G.verify mpk certI.tbs certI.sig = true := hsig.certI
  have vR : G.verify mpk certR.tbs certR.sig = true := hsig.certR
  let pk := (E.keygen c0.kem.key).1
  let sk := (E.keygen c0.kem.key).2
  let pkb := E.pkToBytes pk
  let ss := (E.encap c1.kem.enc (E.pkFromBytes pkb)).1
  let ct := (E.encap c1.kem.enc (E.pkFromBytes pkb)).2
  have hss : E.decap ct sk = ss := hE
  let encA : AuthEncKey := P.hkdfExpand ss.1 (ascii "enc_key_a") 64
  let encB : AuthEncKey := P.hkdfExpand ss.1 (ascii "enc_key_b") 64
  let macKey := P.hkdfExpand ss.1 (ascii "mac_key") 32
  let sigA := G.sign c2.sign (G.keygen ucI).2 (IdSigmaR.tbsA nB ssid pkb ct certI.toBytes)
  let sigB := G.sign c3.sign (G.keygen ucR).2 (IdSigmaR.tbsB nA ssid ct pkb certR.toBytes)
  let m1 := nA.1 ++ pkb.1
  let m2 := nB.1 ++ ct.1
  let m3 := authEncrypt P c2.ae encA (sigA.1 ++ (P.hmac macKey.1 ([0x00] ++ idI.1)).1 ++ certI.toBytes)
  let m4 := authEncrypt P c3.ae encB (sigB.1 ++ (P.hmac macKey.1 ([0x01] ++ idR.1)).1 ++ certR.toBytes)
  have n1 : m1 ≠ [] := by intro h; have := congrArg List.length h; simp [m1, nA.2] at this
  have n2 : m2 ≠ [] := by intro h; have := congrArg List.length h; simp [m2, nB.2] at this
  have n3 : m3 ≠ [] := by intro h; have := congrArg List.length h; simp [m3, C02_authenc_length] at this
  have n4 : m4 ≠ [] := by intro h; have := congrArg List.length h; simp [m4, C02_authenc_length] at this
  let s1 : IdSigmaR G E := { s0 with kemPubkey := some pk, kemPrivkey := some sk, nextStep := 2 }
  let r1 : IdSigmaR G E := { IdSigmaR.withKeys P r0 ct ss with
    nonceA := some nA, kemPubkey := some (E.pkFromBytes pkb), nextStep := 3 }
  let s2 : IdSigmaR G E := { IdSigmaR.withKeys P s1 ct ss with nonceB := some nB, nextStep := 4 }
  have e1 : IdSigmaR.run P s0 c0 [] = .ok s1 (some m1) := by
    rw [IdSigmaR.step0 P _ rfl nA rfl]; rfl
  have e2 : IdSigmaR.run P r0 c1 m1 = .ok r1 (some m2) := IdSigmaR.step1_of P r0 rfl nB rfl c1 nA pkb
  have e3 : IdSigmaR.run P s1 c2 m2 = .ok s2 (some m3) := by
    have := IdSigmaR.step2_of P s1 rfl pk sk rfl rfl c2 nB ct
    rw [hss] at this
    exact this
  have w1 : IdSigmaR.verifyPeer P r1 macKey 0x00 (IdSigmaR.tbsA nB ssid pkb ct)
      (sigA.1 ++ (P.hmac macKey.1 ([0x00] ++ idI.1)).1 ++ certI.toBytes) = .ok { r1 with outputId := some idI } () :=
    IdSigmaR.verifyPeer_msg P hkey r1 macKey 0 _ sigA certI vI hsig.sigI
  have e4 : IdSigmaR.run P r1 c3 m3 = .ok { r1 with outputId := some idI, done := true, nextStep := 5 } (some m4) := by
    have hn : r1.nextStep = 3 := rfl
    have h1 : r1.encKeys = some (encA, encB) := rfl
    have h2 : r1.nonceA = some nA := rfl
    have h3 : r1.nonceB = some nB := rfl
    have h4 : r1.kemPubkey = some (E.pkFromBytes pkb) := rfl
    have h5 : r1.encappedKey = some ct := rfl
    have h6 : r1.macKey = some macKey := rfl
    have h7 : r1.ssid = ssid := rfl
    have h8 : r1.sigPrivkey = (G.keygen ucR).2 := rfl
    have h9 : r1.cert = certR := rfl
    simp only [IdSigmaR.run, hn, h1, h2, h3, h4, h5, h6, m3, C01_authenc_roundtrip, h7, w1, h8, h9,
      show E.pkToBytes (E.pkFromBytes pkb) = pkb from hpk]
    rfl
  have w2 : IdSigmaR.verifyPeer P s2 macKey 0x01 (IdSigmaR.tbsB nA ssid ct pkb)
      (sigB.1 ++ (P.hmac macKey.1 ([0x01] ++ idR.1)).1 ++ certR.toBytes) = .ok { s2 with outputId := some idR } () :=
    IdSigmaR.verifyPeer_msg P hkey s2 macKey 1 _ sigB certR vR hsig.sigR
  have e5 : IdSigmaR.run P s2 c4 m4 = .ok { s2 with outputId := some idR, done := true, nextStep := 6 } none := by
    have hn : s2.nextStep = 4 := rfl
    have h1 : s2.encKeys = some (encA, encB) := rfl
    have h2 : s2.nonceA = some nA := rfl
    have h4 : s2.kemPubkey = some pk := rfl
    have h5 : s2.encappedKey = some ct := rfl
    have h6 : s2.macKey = some macKey := rfl
    have h7 : s2.ssid = ssid := rfl
    simp only [IdSigmaR.run, hn, h1, h2, h4, h5, h6, m4, C01_authenc_roundtrip, h7, show E.pkToBytes pk = pkb from rfl, w2]
  refine ⟨[m1, m2, m3, m4], _, _, P.hkdfExpand ss.1 (ascii "output_key") 32, converse_cons rfl e1 n1 (converse_cons rfl e2 n2
    (converse_cons rfl e3 n3 (converse_cons rfl e4 n4 (converse_last rfl e5 rfl rfl)))), ?_⟩
  exact ⟨rfl, rfl, rfl, rfl⟩

/-- C31: two SIGMA-R users with certificates from the same main key agree, whatever the ids, ssid, nonces, keys and coins, provided the KEM is
correct for the key pair and encapsulation coins used and the public key re-encodes to the same bytes. -/
theorem C31_sigma_agreement (hG : G.Correct) (mc ucI ucR : G.KeyCoins) (xcI xcR : G.SignCoins) (nA nB : Nonce) (ssid : Ssid)
    (idI idR : Id) (c0 c1 c2 c3 c4 : SigmaCoins G E) (hE : E.Correct c0.kem.key c1.kem.enc)
    (hpk : E.pkToBytes (E.pkFromBytes (E.pkToBytes (E.keygen c0.kem.key).1)) = E.pkToBytes (E.keygen c0.kem.key).1) :
    IbkeAgrees (sigmaIbke P G E) mc ucI ucR xcI xcR nA nB ssid idI idR [c0, c1, c2, c3, c4] :=
  C31_sigma_agreement_signed P G E hG.pk_roundtrip mc ucI ucR xcI xcR nA nB ssid idI idR c0 c1 c2 c3 c4
    ⟨hG.verify_sign _ _ _, hG.verify_sign _ _ _, hG.verify_sign _ _ _, hG.verify_sign _ _ _⟩ hE hpk

/-- The hypotheses of C31 are satisfiable. -/
example (kc : toyKem.KeyCoins) (ec : toyKem.EncCoins) : toySigma.Correct ∧ toyKem.Correct kc ec ∧
    toyKem.pkToBytes (toyKem.pkFromBytes (toyKem.pkToBytes (toyKem.keygen kc).1)) = toyKem.pkToBytes (toyKem.keygen kc).1 :=
  ⟨toySigma_correct, toyKem_correct kc ec, rfl⟩

/-- The hypotheses of C34, C37 and C41 (a session that is done) are met: honest toy sessions reach completion in both roles. -/
example (mc ucI ucR : toySigma.KeyCoins) (xcI xcR : toySigma.SignCoins) (nA nB : Nonce) (ssid : Ssid) (idI idR : Id)
    (c : SigmaCoins toySigma toyKem) (P : SymPrims) :
    (∃ cert t, ∃ s : IdSigmaR toySigma toyKem, Trace (IdSigmaR.run P)
      (IdSigmaR.newSession nA ssid (toySigma.keygen mc).1 cert (toySigma.keygen ucI).2 .initiator) t s ∧ s.done = true) ∧
    (∃ cert t, ∃ s : IdSigmaR toySigma toyKem, Trace (IdSigmaR.run P)
      (IdSigmaR.newSession nB ssid (toySigma.keygen mc).1 cert (toySigma.keygen ucR).2 .responder) t s ∧ s.done = true) := by
  have := (C31_sigma_agreement P toySigma toyKem toySigma_correct mc ucI ucR xcI xcR nA nB ssid idI idR c c c c c
    (toyKem_correct _ _) rfl).traces
  exact ⟨⟨_, this.1⟩, ⟨_, this.2⟩⟩

/-- C32 (SIGMA-R certificates): parsing a serialised certificate returns it, it has the advertised size, and any other length is an
`InvalidLength` error rather than a panic. -/
theorem C32_sigma_cert_roundtrip (hG : G.Correct) (c : SigmaCert G) :
    SigmaCert.fromBytes c.toBytes = .ok c ∧ c.toBytes.length = 32 + G.pkLen + G.sigLen ∧
    ∀ b : Bytes, b.length ≠ 32 + G.pkLen + G.sigLen → (SigmaCert.fromBytes b : Res SigmaError (SigmaCert G)) = .err .invalidLength := by
  refine ⟨SigmaCert.fromBytes_toBytes hG.pk_roundtrip c, c.length_toBytes, ?_⟩
  intro b hb
  unfold SigmaCert.fromBytes
  exact if_pos hb

/-- C14 (SIGMA-R): the certificate extracted for an id carries that id and verifies under the main public key. -/
theorem C14_sigma_cert_verifies (hG : G.Correct) (mc uc : G.KeyCoins) (xc : G.SignCoins) (id : Id) :
    let I := sigmaIbke P G E
    let cert : SigmaCert G := I.extract xc (I.genMain mc).2 id (I.genUser uc).1
    cert.id = id ∧ G.verify (I.genMain mc).1 (cert.id.1 ++ (G.pkToBytes cert.upk).1) cert.sig = true :=
  ⟨rfl, hG.verify_sign _ _ _⟩

/-- C34 (initiator): in every history after which an initiator session is done — with `pk`, `sk` the KEM key pair of its first message
`nonceA ‖ pk`, and `ct` the ciphertext it accepted in its second call — the last call accepted a message that decrypts and
authenticates under "enc_key_b" of the decapsulated secret to `sig ‖ mac ‖ id ‖ upkb ‖ csig`, where `csig` verifies under the main
key on (id, upk), `sig` verifies under the certified key on (0x01, own nonce, own ssid, ct, pk, certificate), and `mac` is the HMAC
of (0x01, id) under "mac_key"; the output is that id and the "output_key". -/
theorem C34_sigma_authentication_initiator (nA : Nonce) (ssid : Ssid) (mpk : G.Pk) (cert : SigmaCert G) (usk : G.Sk) (t : List Event)
    (s : IdSigmaR G E) (h : Trace (IdSigmaR.run P) (IdSigmaR.newSession nA ssid mpk cert usk .initiator) t s)
    (hd : s.done = true) :
    ∃ (kc : E.KeyCoins) (pk : E.Pk) (sk : E.Sk) (nB : Nonce) (ct : ByteArr 736) (m3 m4 ss certBytes : Bytes)
        (sig csig : ByteArr G.sigLen) (upkb : ByteArr G.pkLen) (upk : G.Pk) (id : Id),
      E.keygen kc = (pk, sk) ∧
      t.take 2 = [⟨[], some (some (nA.1 ++ (E.pkToBytes pk).1))⟩, ⟨nB.1 ++ ct.1, some (some m3)⟩] ∧
      t.getLast? = some ⟨m4, some none⟩ ∧
      ss = (E.decap ct sk).1 ∧
      certBytes = id.1 ++ upkb.1 ++ csig.1 ∧
      authDecrypt P (P.hkdfExpand ss (ascii "enc_key_b") 64) m4
        = .ok (sig.1 ++ (P.hmac (P.hkdfExpand ss (ascii "mac_key") 32).1 ([0x01] ++ id.1)).1 ++ certBytes) ∧
      G.pkFromBytes upkb = some upk ∧
      G.verify mpk (id.1 ++ (G.pkToBytes upk).1) csig = true ∧
      G.verify upk ([0x01] ++ nA.1 ++ ssid.1 ++ ct.1 ++ (E.pkToBytes pk).1 ++ certBytes) sig = true ∧
      (sigmaIbke P G E).finalize s = some (id, P.hkdfExpand ss (ascii "output_key") 32) := by
  rcases IdSigmaR.trace_inv_init P nA ssid mpk cert usk t s h with ⟨rfl, rfl⟩ | ⟨kc, rfl, rfl⟩ |
    ⟨kc, nB, ct, m3, errs, he, ⟨i, rfl, rfl⟩ | ⟨m, pt, id, rfl, hdec, ⟨sig, csig, upkb, upk, hk, rfl, v1, v2⟩, rfl⟩⟩
  · simp [IdSigmaR.newSession] at hd
  · simp [IdSigmaR.newSession] at hd
  · simp [IdSigmaR.newSession, IdSigmaR.initSent, IdSigmaR.withKeys] at hd
  · exact ⟨kc, _, _, nB, ct, m3, m, _, _, sig, csig, upkb, upk, id, rfl, by simp, List.getLast?_concat, rfl, rfl, hdec, hk, v1, v2,
      rfl⟩

/-- C34 (responder): the mirror statement, with the role byte 0x00, "enc_key_a", the own nonce and the KEM values in the initiator's
order. -/
theorem C34_sigma_authentication_responder (nB : Nonce) (ssid : Ssid) (mpk : G.Pk) (cert : SigmaCert G) (usk : G.Sk) (t : List Event)
    (s : IdSigmaR G E) (h : Trace (IdSigmaR.run P) (IdSigmaR.newSession nB ssid mpk cert usk .responder) t s)
    (hd : s.done = true) :
    ∃ (ec : E.EncCoins) (ss : ByteArr 32) (ct : ByteArr 736) (nA : Nonce) (pkb : ByteArr 672) (m3 m4 certBytes : Bytes)
        (sig csig : ByteArr G.sigLen) (upkb : ByteArr G.pkLen) (upk : G.Pk) (id : Id),
      E.encap ec (E.pkFromBytes pkb) = (ss, ct) ∧
      t.head? = some ⟨nA.1 ++ pkb.1, some (some (nB.1 ++ ct.1))⟩ ∧
      t.getLast? = some ⟨m3, some (some m4)⟩ ∧
      certBytes = id.1 ++ upkb.1 ++ csig.1 ∧
      authDecrypt P (P.hkdfExpand ss.1 (ascii "enc_key_a") 64) m3
        = .ok (sig.1 ++ (P.hmac (P.hkdfExpand ss.1 (ascii "mac_key") 32).1 ([0x00] ++ id.1)).1 ++ certBytes) ∧
      G.pkFromBytes upkb = some upk ∧
      G.verify mpk (id.1 ++ (G.pkToBytes upk).1) csig = true ∧
      G.verify upk ([0x00] ++ nB.1 ++ ssid.1 ++ (E.pkToBytes (E.pkFromBytes pkb)).1 ++ ct.1 ++ certBytes) sig = true ∧
      (sigmaIbke P G E).finalize s = some (id, P.hkdfExpand ss.1 (ascii "output_key") 32) := by
  rcases IdSigmaR.trace_inv_resp P nB ssid mpk cert usk t s h with ⟨rfl, rfl⟩ |
    ⟨ec, nA, pkb, errs, he, ⟨i, rfl, rfl⟩ | ⟨m, m4, pt, id, rfl, hdec, ⟨sig, csig, upkb, upk, hk, rfl, v1, v2⟩, rfl⟩⟩
  · simp [IdSigmaR.newSession] at hd
  · simp [IdSigmaR.newSession, IdSigmaR.respSent, IdSigmaR.withKeys] at hd
  · exact ⟨ec, _, _, nA, pkb, m, m4, _, sig, csig, upkb, upk, id, rfl, by simp, List.getLast?_concat, rfl, hdec, hk, v1, v2, rfl⟩

/-- C37 (SIGMA-R): the strings signed in the two roles are never equal. -/
theorem C37_sigma_roles_disjoint (n n' : Nonce) (ssid ssid' : Ssid) (pk pk' : ByteArr 672) (ct ct' : ByteArr 736) (c c' : Bytes) :
    IdSigmaR.tbsA n ssid pk ct c ≠ IdSigmaR.tbsB n' ssid' ct' pk' c' := by
  simp [IdSigmaR.tbsA, IdSigmaR.tbsB]

/-- C37 (SIGMA-R): if in some history a session completes on a payload whose signature was made by any key `sk` signing as the *same* role
(any string `own` starting with the own role byte, so with any nonce, ssid, KEM values and certificate) — in particular its own payload
reflected — then that last message decrypts to `signature ‖ mac ‖ id ‖ upk ‖ csig` with a certificate valid under the main key, and the certified key
`upk` accepts the signature on a string that starts with the other role byte and this session's nonce and ssid: a forgery against `upk`. -/
theorem C37_sigma_no_reflection (n : Nonce) (ssid : Ssid) (mpk : G.Pk) (cert : SigmaCert G) (usk : G.Sk) (role : Role) (t : List Event)
    (s : IdSigmaR G E) (h : Trace (IdSigmaR.run P) (IdSigmaR.newSession n ssid mpk cert usk role) t s) (hd : s.done = true)
    (sc : G.SignCoins) (sk : G.Sk) (own : Bytes)
    (hown : own.head? = some (if role = .initiator then 0x00 else 0x01))
    (hsig : ∀ m o, t.getLast? = some ⟨m, o⟩ → ∃ (key : AuthEncKey) (rest : Bytes), some key = (s.encKeys.map fun k =>
      if role = .initiator then k.2 else k.1) ∧ authDecrypt P key m = .ok ((G.sign sc sk own).1 ++ rest)) :
    ∃ (m : Bytes) (o : Option (Option Bytes)) (key : AuthEncKey) (mac : ByteArr 32) (id : Id) (upkb : ByteArr G.pkLen) (csig : ByteArr G.sigLen)
        (upk : G.Pk) (kemValues : Bytes),
      t.getLast? = some ⟨m, o⟩ ∧ some key = (s.encKeys.map fun k => if role = .initiator then k.2 else k.1) ∧
      authDecrypt P key m = .ok ((G.sign sc sk own).1 ++ mac.1 ++ (id.1 ++ upkb.1 ++ csig.1)) ∧
      G.pkFromBytes upkb = some upk ∧ G.verify mpk (id.1 ++ (G.pkToBytes upk).1) csig = true ∧
      own ≠ [if role = .initiator then 0x01 else 0x00] ++ n.1 ++ ssid.1 ++ kemValues ++ (id.1 ++ upkb.1 ++ csig.1) ∧
      G.verify upk ([if role = .initiator then 0x01 else 0x00] ++ n.1 ++ ssid.1 ++ kemValues ++ (id.1 ++ upkb.1 ++ csig.1))
        (G.sign sc sk own) = true := by
  cases role with
  | initiator =>
    rcases IdSigmaR.trace_inv_init P n ssid mpk cert usk t s h with ⟨rfl, rfl⟩ | ⟨kc, rfl, rfl⟩ |
      ⟨kc, nB, ct, m3, errs, he, ⟨i, rfl, rfl⟩ | ⟨m, pt, id, rfl, hdec, ⟨sig, csig, upkb, upk, hk, rfl, v1, v2⟩, rfl⟩⟩
    · simp [IdSigmaR.newSession] at hd
    · simp [IdSigmaR.newSession] at hd
    · simp [IdSigmaR.newSession, IdSigmaR.initSent, IdSigmaR.withKeys] at hd
    · obtain ⟨key, rest, hkey, hdec'⟩ := hsig m _ List.getLast?_concat
      simp [IdSigmaR.initSent, IdSigmaR.withKeys] at hkey
      subst hkey
      rw [hdec] at hdec'
      simp only [Res.ok.injEq, List.append_assoc] at hdec'
      have e := (List.append_inj hdec' (by rw [sig.2, (G.sign sc sk own).2])).1
      have es := Subtype.ext e
      rw [es] at v2
      refine ⟨m, _, P.hkdfExpand (E.decap ct (E.keygen kc).2).1 (ascii "enc_key_b") 64, P.hmac (P.hkdfExpand (E.decap ct (E.keygen kc).2).1 (ascii "mac_key") 32).1 ([0x01] ++ id.1), id, upkb, csig, upk, ct.1 ++ (E.pkToBytes (E.keygen kc).1).1,
        List.getLast?_concat, ?_, ?_, hk, v1, ?_, ?_⟩
      · simp [IdSigmaR.initSent, IdSigmaR.withKeys]
      · rw [hdec, es]
      · intro hc
        rw [hc] at hown
        simp at hown
      · simpa [IdSigmaR.tbsB, List.append_assoc] using v2
  | responder =>
    rcases IdSigmaR.trace_inv_resp P n ssid mpk cert usk t s h with ⟨rfl, rfl⟩ |
      ⟨ec, nA, pkb, errs, he, ⟨i, rfl, rfl⟩ | ⟨m, m4, pt, id, rfl, hdec, ⟨sig, csig, upkb, upk, hk, rfl, v1, v2⟩, rfl⟩⟩
    · simp [IdSigmaR.newSession] at hd
    · simp [IdSigmaR.newSession, IdSigmaR.respSent, IdSigmaR.withKeys] at hd
    · obtain ⟨key, rest, hkey, hdec'⟩ := hsig m _ List.getLast?_concat
      simp [IdSigmaR.respSent, IdSigmaR.withKeys] at hkey
      subst hkey
      rw [hdec] at hdec'
      simp only [Res.ok.injEq, List.append_assoc] at hdec'
      have e := (List.append_inj hdec' (by rw [sig.2, (G.sign sc sk own).2])).1
      have es := Subtype.ext e
      rw [es] at v2
      refine ⟨m, _, P.hkdfExpand (E.encap ec (E.pkFromBytes pkb)).1.1 (ascii "enc_key_a") 64, P.hmac (P.hkdfExpand (E.encap ec (E.pkFromBytes pkb)).1.1 (ascii "mac_key") 32).1 ([0x00] ++ id.1), id, upkb, csig, upk, (E.pkToBytes (E.pkFromBytes pkb)).1 ++ (E.encap ec (E.pkFromBytes pkb)).2.1,
        List.getLast?_concat, ?_, ?_, hk, v1, ?_, ?_⟩
      · simp [IdSigmaR.respSent, IdSigmaR.withKeys]
      · rw [hdec, es]
      · intro hc
        rw [hc] at hown
        simp at hown
      · simpa [IdSigmaR.tbsA, List.append_assoc] using v2

/-- C38 (SIGMA-R): whenever `run` succeeds on a reachable or unreachable state, `run_sim` on the same state predicts the step number and the
presence of a message; its length is exact at the first two steps, and 12 bytes short of the real one at the two steps that send a
sealed message (`AEAD nonce not counted`). -/
theorem C38_sigma_sim_sizes (s s' : IdSigmaR G E) (u : SigmaCoins G E) (m : Bytes) (o : Option Bytes)
    (h : IdSigmaR.run P s u m = .ok s' o) :
    ∃ z n, IdSigmaR.runSim s = some (z, n) ∧ z.nextStep = s'.nextStep ∧
      o.map List.length = n.map (fun k => if s.nextStep = 2 ∨ s.nextStep = 3 then k + 12 else k) := by
  match hn : s.nextStep with
  | 0 =>
    by_cases hm : m = []
    · cases hnA : s.nonceA with
      | none => simp [IdSigmaR.run, hn, hm, hnA] at h
      | some nA =>
        rw [IdSigmaR.step0 P s hn nA hnA, if_pos hm] at h
        simp only [Step.ok.injEq] at h
        obtain ⟨rfl, rfl⟩ := h
        exact ⟨{ s with nextStep := 2 }, some (32 + 672), by simp [IdSigmaR.runSim, hn], rfl, by simp [nA.2, (E.pkToBytes _).2]⟩
    · simp [IdSigmaR.run, hn, hm] at h
  | 1 =>
    obtain ⟨nA, pkb, rfl⟩ := IdSigmaR.step1_shape P hn (by rw [h]; simp)
    cases hnB : s.nonceB with
    | none => simp [IdSigmaR.run, hn, hnB, splitAt?_append nA.2, toArr?_val] at h
    | some nB =>
      rw [IdSigmaR.step1_of P s hn nB hnB] at h
      simp only [Step.ok.injEq] at h
      obtain ⟨rfl, rfl⟩ := h
      exact ⟨{ s with nextStep := 3 }, some (32 + 736), by simp [IdSigmaR.runSim, hn], rfl, by simp [nB.2, (E.encap _ _).2.2]⟩
  | 2 =>
    obtain ⟨nB, ct, rfl⟩ := IdSigmaR.step2_shape P hn (by rw [h]; simp)
    cases hpk : s.kemPubkey with
    | none => simp [IdSigmaR.run, hn, hpk, splitAt?_append nB.2, toArr?_val] at h
    | some pk =>
      cases hsk : s.kemPrivkey with
      | none => simp [IdSigmaR.run, hn, hsk, splitAt?_append nB.2, toArr?_val] at h
      | some sk =>
        rw [IdSigmaR.step2_of P s hn pk sk hpk hsk] at h
        simp only [Step.ok.injEq] at h
        obtain ⟨rfl, rfl⟩ := h
        refine ⟨{ s with nextStep := 4 }, some (G.sigLen + 32 + SigmaCert.size G + TAGLEN), by simp [IdSigmaR.runSim, hn], rfl, ?_⟩
        simp [C02_authenc_length, (G.sign _ _ _).2, (P.hmac _ _).2, s.cert.length_toBytes, TAGLEN]
        omega
  | 3 =>
    have h0 := h
    simp only [IdSigmaR.run, hn] at h
    split at h
    · next encA encB nA nB pk ct mk h1 h2 h3 h4 h5 h6 =>
      obtain ⟨pt, id, _, _, rfl, rfl⟩ := IdSigmaR.step3_ok P hn h1 h2 h3 h4 h5 h6 h0
      refine ⟨{ s with done := true, nextStep := 5 }, some (G.sigLen + 32 + SigmaCert.size G + TAGLEN),
        by simp [IdSigmaR.runSim, hn], rfl, ?_⟩
      simp [IdSigmaR.reply, C02_authenc_length, (G.sign _ _ _).2, (P.hmac _ _).2, s.cert.length_toBytes, TAGLEN]
      omega
    · simp at h
  | 4 =>
    have h0 := h
    simp only [IdSigmaR.run, hn] at h
    split at h
    · next encA encB nA pk ct mk h1 h2 h4 h5 h6 =>
      obtain ⟨pt, id, _, _, rfl, rfl⟩ := IdSigmaR.step4_ok P hn h1 h2 h4 h5 h6 h0
      exact ⟨{ s with done := true, nextStep := 6 }, none, by simp [IdSigmaR.runSim, hn], rfl, by simp⟩
    · simp at h
  | k + 5 => rw [IdSigmaR.run_late P s (by omega)] at h; simp at h

/-- C39 (SIGMA-R): a session that is only simulated completes, after three steps (initiator) or two (responder). -/
theorem C39_sigma_sim_completes (n : Nonce) (ssid : Ssid) (mpk : G.Pk) (cert : SigmaCert G) (usk : G.Sk) :
    (∃ z1 z2 z3 : IdSigmaR G E, ∃ k1 k2,
      IdSigmaR.runSim (IdSigmaR.newSession n ssid mpk cert usk .initiator) = some (z1, some k1) ∧ z1.done = false ∧
      IdSigmaR.runSim z1 = some (z2, some k2) ∧ z2.done = false ∧
      IdSigmaR.runSim z2 = some (z3, none) ∧ z3.done = true) ∧
    (∃ z1 z2 : IdSigmaR G E, ∃ k1 k2,
      IdSigmaR.runSim (IdSigmaR.newSession n ssid mpk cert usk .responder) = some (z1, some k1) ∧ z1.done = false ∧
      IdSigmaR.runSim z1 = some (z2, some k2) ∧ z2.done = true) :=
  ⟨⟨_, _, _, _, _, rfl, rfl, rfl, rfl, rfl, rfl⟩, ⟨_, _, _, _, rfl, rfl, rfl, rfl⟩⟩

/-- C40 (negation for SIGMA-R): let an initiator have sent its second message (two successful calls, possibly errors since), and let it receive
a message that decrypts to a well-formed payload with a certificate for *any* id whose signature does not verify. `run`
reports a signature error, but `finalize` then returns that id and the session key, although the session is not done. -/
theorem C40_sigma_output_after_bad_certificate (hG : G.Correct) (n : Nonce) (ssid : Ssid) (mpk : G.Pk) (cert : SigmaCert G) (usk : G.Sk)
    (t : List Event) (s : IdSigmaR G E) (h : Trace (IdSigmaR.run P) (IdSigmaR.newSession n ssid mpk cert usk .initiator) t s)
    (htwo : okCount t = 2) (hnd : s.done = false)
    (u : SigmaCoins G E) (m : Bytes) (encA encB : AuthEncKey) (hkeys : s.encKeys = some (encA, encB))
    (sig : ByteArr G.sigLen) (mac : ByteArr 32) (evil : SigmaCert G)
    (hm : authDecrypt P encB m = .ok (sig.1 ++ mac.1 ++ evil.toBytes))
    (hbad : G.verify mpk (evil.id.1 ++ (G.pkToBytes evil.upk).1) evil.sig = false) :
    ∃ s', IdSigmaR.run P s u m = .err s' .sig ∧ s'.done = false ∧
      ∃ key, (sigmaIbke P G E).finalize s' = some (evil.id, key) := by
  rcases IdSigmaR.trace_inv_init P n ssid mpk cert usk t s h with ⟨rfl, rfl⟩ | ⟨kc, rfl, rfl⟩ |
    ⟨kc, nB, ct, m3, errs, he, ⟨i, rfl, rfl⟩ | ⟨m', pt, id, rfl, hdec, _, rfl⟩⟩
  · simp [okCount] at htwo
  · simp [okCount] at htwo
  · have hbad' : G.verify mpk evil.tbs evil.sig = false := hbad
    simp only [IdSigmaR.initSent, IdSigmaR.withKeys, Option.some.injEq, Prod.mk.injEq] at hkeys
    obtain ⟨rfl, rfl⟩ := hkeys
    refine ⟨IdSigmaR.initSent P n ssid mpk cert usk kc nB ct (some evil.id), ?_, rfl, _, rfl⟩
    simp only [IdSigmaR.run, IdSigmaR.initSent, IdSigmaR.withKeys, IdSigmaR.newSession, if_true, hm, IdSigmaR.verifyPeer,
      IdSigmaR.parsePayload_msg hG.pk_roundtrip, hbad', Bool.not_false]
  · simp [okCount] at hnd

/-- C40 (negation for SIGMA-R, responder): the same for a responder that answered the first message. -/
theorem C40_sigma_output_after_bad_certificate_responder (hG : G.Correct) (n : Nonce) (ssid : Ssid) (mpk : G.Pk) (cert : SigmaCert G)
    (usk : G.Sk) (t : List Event) (s : IdSigmaR G E)
    (h : Trace (IdSigmaR.run P) (IdSigmaR.newSession n ssid mpk cert usk .responder) t s)
    (hone : okCount t = 1) (hnd : s.done = false)
    (u : SigmaCoins G E) (m : Bytes) (encA encB : AuthEncKey) (hkeys : s.encKeys = some (encA, encB))
    (sig : ByteArr G.sigLen) (mac : ByteArr 32) (evil : SigmaCert G)
    (hm : authDecrypt P encA m = .ok (sig.1 ++ mac.1 ++ evil.toBytes))
    (hbad : G.verify mpk (evil.id.1 ++ (G.pkToBytes evil.upk).1) evil.sig = false) :
    ∃ s', IdSigmaR.run P s u m = .err s' .sig ∧ s'.done = false ∧
      ∃ key, (sigmaIbke P G E).finalize s' = some (evil.id, key) := by
  rcases IdSigmaR.trace_inv_resp P n ssid mpk cert usk t s h with ⟨rfl, rfl⟩ |
    ⟨ec, nA, pkb, errs, he, ⟨i, rfl, rfl⟩ | ⟨m', m4, pt, id, rfl, hdec, _, rfl⟩⟩
  · simp [okCount] at hone
  · have hbad' : G.verify mpk evil.tbs evil.sig = false := hbad
    simp only [IdSigmaR.respSent, IdSigmaR.withKeys, Option.some.injEq, Prod.mk.injEq] at hkeys
    obtain ⟨rfl, rfl⟩ := hkeys
    refine ⟨IdSigmaR.respSent P n ssid mpk cert usk ec nA pkb (some evil.id), ?_, rfl, _, rfl⟩
    simp only [IdSigmaR.run, IdSigmaR.respSent, IdSigmaR.withKeys, IdSigmaR.newSession, reduceCtorEq, if_false, hm,
      IdSigmaR.verifyPeer, IdSigmaR.parsePayload_msg hG.pk_roundtrip, hbad', Bool.not_false, if_true]
  · simp at hnd

/-- C41 (SIGMA-R): once done, every further call panics; an initiator makes at most three successful calls, a responder at most two, and it is
done exactly when it made them all. -/
theorem C41_sigma_one_shot (n : Nonce) (ssid : Ssid) (mpk : G.Pk) (cert : SigmaCert G) (usk : G.Sk) (role : Role) (t : List Event)
    (s : IdSigmaR G E) (h : Trace (IdSigmaR.run P) (IdSigmaR.newSession n ssid mpk cert usk role) t s) :
    (s.done = true → ∀ u m, IdSigmaR.run P s u m = .panic) ∧
    okCount t ≤ (if role = .initiator then 3 else 2) ∧ (s.done = true ↔ okCount t = if role = .initiator then 3 else 2) := by
  have hz : ∀ errs : List Event, (∀ e ∈ errs, e.outcome = none) → errs.countP (fun e => e.outcome.isSome) = 0 := by
    intro errs he
    rw [List.countP_eq_zero]
    intro e h'; simp [he e h']
  cases role with
  | initiator =>
    rcases IdSigmaR.trace_inv_init P n ssid mpk cert usk t s h with ⟨rfl, rfl⟩ | ⟨kc, rfl, rfl⟩ |
      ⟨kc, nB, ct, m3, errs, he, ⟨i, rfl, rfl⟩ | ⟨m', pt, id, rfl, hdec, _, rfl⟩⟩
    · simp [okCount, IdSigmaR.newSession]
    · simp [okCount, IdSigmaR.newSession]
    · simp [okCount, IdSigmaR.newSession, IdSigmaR.initSent, IdSigmaR.withKeys, hz errs he]
    · refine ⟨fun _ u m => IdSigmaR.run_late P _ (by simp) u m, ?_⟩
      simp [okCount, hz errs he]
  | responder =>
    rcases IdSigmaR.trace_inv_resp P n ssid mpk cert usk t s h with ⟨rfl, rfl⟩ |
      ⟨ec, nA, pkb, errs, he, ⟨i, rfl, rfl⟩ | ⟨m', m4, pt, id, rfl, hdec, _, rfl⟩⟩
    · simp [okCount, IdSigmaR.newSession]
    · simp [okCount, IdSigmaR.newSession, IdSigmaR.respSent, IdSigmaR.withKeys, hz errs he]
    · refine ⟨fun _ u m => IdSigmaR.run_late P _ (by simp) u m, ?_⟩
      simp [okCount, hz errs he]

/-- C11 (SIGMA-R): at every step except the initiator's first, an empty message panics. -/
theorem C11_sigma_empty_no_progress (s : IdSigmaR G E) (hs : s.nextStep ≠ 0) (u : SigmaCoins G E) :
    IdSigmaR.run P s u [] = .panic := by
  have hd : ∀ k, authDecrypt P k [] = .panic := by
    intro k
    exact (C04_decrypt_panics_iff_short P k []).2 (by simp)
  match hn : s.nextStep with
  | 0 => exact absurd hn hs
  | 1 => simp [IdSigmaR.run, hn, splitAt?]
  | 2 => simp [IdSigmaR.run, hn, splitAt?]
  | 3 =>
    simp only [IdSigmaR.run, hn]
    split
    · simp [hd]
    · rfl
  | 4 =>
    simp only [IdSigmaR.run, hn]
    split
    · simp [hd]
    · rfl
  | k + 5 => simp [IdSigmaR.run, hn]

end
end Verif.Props
