import Verif.Props.IbkeExact

/-! # C80: what the key exchanges send, exactly

C74 decides for every call of every history whether it succeeds; here is what a successful call sends.  Each theorem takes an arbitrary history `t` of a
session and a successful next call with coins `u` and incoming message `m`; `o` is what the call returns.  Where a theorem speaks of the fields of
`m` (`HmqvMsg1`, `FgMsg`, …), C74 shows that every accepted message has such fields. -/

namespace Verif.Props
open Verif Verif.Latke

private theorem okc (errs : List Event) (h : ∀ e ∈ errs, e.outcome = none) : okCount errs = 0 := by
  rw [okCount, List.countP_eq_zero]; intro e he; simp [h e he]

private theorem okc_append (a b : List Event) : okCount (a ++ b) = okCount a + okCount b := by simp [okCount]
private theorem okc_cons_some (m : Bytes) (o : Option Bytes) (b : List Event) : okCount (⟨m, some o⟩ :: b) = okCount b + 1 := by simp [okCount]
private theorem okc_nil : okCount [] = 0 := rfl

/-! ## Signed DH -/

/-- Specification: the message a Signed-DH party with role byte `b` sends: a fresh public key, its signature on (role byte, ssid, that key), and its certificate. -/
def sigDhHello (G : Ed25519) (D : X25519) (b : UInt8) (ssid : Ssid) (cert : SigDhCert G) (usk : G.Sk × D.Sk) (u : D.Sk) : Bytes :=
  (D.pub u).1 ++ (G.sign usk.1 ([b] ++ ssid.1 ++ (D.pub u).1)).1 ++ (cert.id.1 ++ (G.pkToBytes cert.sigPk).1 ++ cert.dhPk.1 ++ cert.sig.1)

/-- C80 (Signed DH): the initiator's first call and the responder's successful call send exactly `sigDhHello` for fresh coins; the initiator's
second successful call sends nothing. -/
theorem C80_sigdh_messages (P : SymPrims) (G : Ed25519) (D : X25519) (ssid : Ssid) (mpk : G.Pk) (cert : SigDhCert G) (usk : G.Sk × D.Sk)
    (role : Role) (t : List Event) (s s' : IdSigDh G D) (h : Trace (IdSigDh.run P) (IdSigDh.newSession ssid mpk cert usk role) t s)
    (u : D.Sk) (m : Bytes) (o : Option Bytes) (hr : IdSigDh.run P s u m = .ok s' o) :
    o = match role with
      | .initiator => if okCount t = 0 then some (sigDhHello G D 0x00 ssid cert usk u) else none
      | .responder => some (sigDhHello G D 0x01 ssid cert usk u) := by
  cases role with
  | initiator =>
    dsimp only
    rcases IdSigDh.trace_inv_init P ssid mpk cert usk t s h with ⟨rfl, rfl⟩ | ⟨x, errs, i, rfl, he, rfl⟩ | ⟨x, errs, m', eph, dh, id, rfl, he, ha, rfl⟩
    · rw [IdSigDh.step0 P _ rfl] at hr
      split at hr
      · simp only [Step.ok.injEq] at hr
        rw [← hr.2]; rfl
      · simp at hr
    · obtain ⟨_, _, _, _, _, rfl⟩ := IdSigDh.step2_ok P rfl rfl rfl hr
      rw [okc_cons_some, if_neg (by omega)]
    · rw [IdSigDh.run_late P _ (by simp)] at hr; simp at hr
  | responder =>
    dsimp only
    rcases IdSigDh.trace_inv_resp P ssid mpk cert usk t s h with ⟨i, he, rfl⟩ | ⟨x, errs, m', eph, dh, id, rfl, he, ha, rfl⟩
    · obtain ⟨_, _, _, _, _, rfl⟩ := IdSigDh.step1_ok P rfl hr
      rfl
    · rw [IdSigDh.run_late P _ (by simp)] at hr; simp at hr

/-! ## HMQV-C -/

/-- Specification: the confirmation (`label` is `mac0` or `mac1`) of a party with ephemeral `x` and static secret `usk`. -/
def hmqvMac (P : SymPrims) (R : Group) (label : String) (ssid : Ssid) (x usk : R.Scalar) (own peer : Id) (ephb : ByteArr 32) (eph upk : R.Pt) : Bytes :=
  (P.hkdfExpand (R.compress (hmqvPoint R x usk own peer ephb eph upk)).1 (ssid.1 ++ ascii label) 32).1

private theorem hmqv1_inj {R : Group} {m : Bytes} {e e' : ByteArr 32} {p p' u u' : R.Pt} {i i' : Id} {g g' : ByteArr 64}
    (h : HmqvMsg1 R m e p i u g) (h' : HmqvMsg1 R m e' p' i' u' g') : e = e' ∧ p = p' ∧ i = i' ∧ u = u' := by
  obtain ⟨b, h1, h2, rfl⟩ := h
  obtain ⟨b', h1', h2', h3⟩ := h'
  obtain ⟨q1, h3⟩ := List.append_inj h3 (by rw [e.2, e'.2])
  rw [List.append_assoc, List.append_assoc] at h3
  obtain ⟨q2, h3⟩ := List.append_inj h3 (by rw [i.2, i'.2])
  obtain ⟨q3, _⟩ := List.append_inj h3 (by rw [b.2, b'.2])
  obtain rfl := Subtype.ext q1
  obtain rfl := Subtype.ext q2
  obtain rfl := Subtype.ext q3
  exact ⟨rfl, Option.some.inj (h1.symm.trans h1'), rfl, Option.some.inj (h2.symm.trans h2')⟩

private theorem hmqv2_inj {R : Group} {m : Bytes} {e e' a a' : ByteArr 32} {p p' u u' : R.Pt} {i i' : Id} {g g' : ByteArr 64}
    (h : HmqvMsg2 R m e p a i u g) (h' : HmqvMsg2 R m e' p' a' i' u' g') : e = e' ∧ p = p' ∧ i = i' ∧ u = u' := by
  obtain ⟨b, h1, h2, rfl⟩ := h
  obtain ⟨b', h1', h2', h3⟩ := h'
  simp only [List.append_assoc] at h3
  obtain ⟨q1, h3⟩ := List.append_inj h3 (by rw [e.2, e'.2])
  obtain ⟨q0, h3⟩ := List.append_inj h3 (by rw [a.2, a'.2])
  obtain ⟨q2, h3⟩ := List.append_inj h3 (by rw [i.2, i'.2])
  obtain ⟨q3, _⟩ := List.append_inj h3 (by rw [b.2, b'.2])
  obtain rfl := Subtype.ext q1
  obtain rfl := Subtype.ext q2
  obtain rfl := Subtype.ext q3
  exact ⟨rfl, Option.some.inj (h1.symm.trans h1'), rfl, Option.some.inj (h2.symm.trans h2')⟩

/-- C80 (HMQV-C initiator): first a fresh point and the certificate; then, with `x` the secret of that point, the "mac0" confirmation for the
received fields. -/
theorem C80_hmqv_messages_initiator (P : SymPrims) (G : Ed25519) (R : Group) (ssid : Ssid) (mpk : G.Pk) (cert : HmqvCert R) (usk : R.Scalar)
    (t : List Event) (s s' : IdHmqvC G R) (h : Trace (IdHmqvC.run P) (IdHmqvC.newSession ssid mpk cert usk .initiator) t s)
    (u : R.Scalar) (m : Bytes) (o : Option Bytes) (hr : IdHmqvC.run P s u m = .ok s' o) :
    (okCount t = 0 → o = some ((R.compress (u • R.base)).1 ++ (cert.id.1 ++ (R.compress cert.upk).1 ++ cert.sig.1))) ∧
    (okCount t ≠ 0 → ∃ x, t.head? = some ⟨[], some (some ((R.compress (x • R.base)).1 ++ (cert.id.1 ++ (R.compress cert.upk).1 ++ cert.sig.1)))⟩ ∧
      ∀ ephb eph mac id upk sig, HmqvMsg2 R m ephb eph mac id upk sig →
        o = some (hmqvMac P R "mac0" ssid x usk cert.id id ephb eph upk)) := by
  rcases IdHmqvC.trace_inv_init P ssid mpk cert usk t s h with ⟨rfl, rfl⟩ | ⟨x, errs, i, k, rfl, he, rfl⟩ |
    ⟨x, errs, ephb, upkb, id, sig, eph, upk, rfl, he, h1, h2, h3, rfl⟩
  · rw [IdHmqvC.step0 P _ rfl] at hr
    split at hr
    · simp only [Step.ok.injEq] at hr
      exact ⟨fun _ => hr.2.symm, fun hc => absurd okc_nil hc⟩
    · simp at hr
  · refine ⟨fun hc => by rw [okc_cons_some] at hc; omega, fun _ => ⟨x, rfl, fun ephb eph mac id upk sig hm => ?_⟩⟩
    obtain ⟨ephb', upkb', id', sig', eph', upk', hm', g1, g2, _, _, rfl⟩ := IdHmqvC.step2_ok P rfl rfl rfl hr
    obtain ⟨rfl, rfl, rfl, rfl⟩ := hmqv2_inj hm ⟨upkb', g1, g2, hm'⟩
    rfl
  · rw [IdHmqvC.run_late P _ (by simp)] at hr; simp at hr

/-- C80 (HMQV-C responder): a fresh point, the "mac1" confirmation for the received fields, and the certificate; its second successful call sends
nothing. -/
theorem C80_hmqv_messages_responder (P : SymPrims) (G : Ed25519) (R : Group) (ssid : Ssid) (mpk : G.Pk) (cert : HmqvCert R) (usk : R.Scalar)
    (t : List Event) (s s' : IdHmqvC G R) (h : Trace (IdHmqvC.run P) (IdHmqvC.newSession ssid mpk cert usk .responder) t s)
    (u : R.Scalar) (m : Bytes) (o : Option Bytes) (hr : IdHmqvC.run P s u m = .ok s' o) :
    (okCount t = 0 → ∀ ephb eph id upk sig, HmqvMsg1 R m ephb eph id upk sig →
      o = some ((R.compress (u • R.base)).1 ++ hmqvMac P R "mac1" ssid u usk cert.id id ephb eph upk
        ++ (cert.id.1 ++ (R.compress cert.upk).1 ++ cert.sig.1))) ∧
    (okCount t ≠ 0 → o = none) := by
  rcases IdHmqvC.trace_inv_resp P ssid mpk cert usk t s h with ⟨he, rfl⟩ |
    ⟨x, errs, errs', ephb, upkb, id, sig, eph, upk, he, he', h1, h2, h3, ⟨rfl, rfl⟩ | ⟨rfl, rfl⟩⟩
  · refine ⟨fun _ ephb eph id upk sig hm => ?_, fun hc => absurd (okc t he) hc⟩
    obtain ⟨ephb', upkb', id', sig', eph', upk', hm', g1, g2, _, _, rfl⟩ := IdHmqvC.step1_ok P rfl hr
    obtain ⟨rfl, rfl, rfl, rfl⟩ := hmqv1_inj hm ⟨upkb', g1, g2, hm'⟩
    rfl
  · refine ⟨fun hc => by rw [okc_append, okc_cons_some] at hc; omega, fun _ => ?_⟩
    rw [IdHmqvC.step3 P _ rfl _ _ rfl] at hr
    split at hr
    · simp only [Step.ok.injEq] at hr; exact hr.2.symm
    · simp at hr
  · rw [IdHmqvC.run_late P _ (by simp)] at hr; simp at hr

/-! ## FG-IBKE-C -/

/-- Specification: the key message of an FG party: its id, its extracted `X` and a fresh point. -/
def fgHello (R : Group) (cert : FgCert R) (u : R.Scalar) : Bytes := cert.id.1 ++ (R.compress cert.X).1 ++ (R.compress (u • R.base)).1

/-- C80 (FG initiator): first its key message; then, with `x` the secret of the point sent, the first 32 bytes of the expansion of the shared points. -/
theorem C80_fg_messages_initiator (P : SymPrims) (R : Group) (ssid : Ssid) (mpkb : ByteArr 32) (cert : FgCert R) (t : List Event)
    (s s' : FgIbkeC R) (h : Trace (FgIbkeC.run P) (FgIbkeC.newSession ssid mpkb cert .initiator) t s)
    (u : R.Scalar) (m : Bytes) (o : Option Bytes) (hr : FgIbkeC.run P s u m = .ok s' o) :
    (okCount t = 0 → o = some (fgHello R cert u)) ∧
    (okCount t ≠ 0 → ∃ x, t.head? = some ⟨[], some (some (fgHello R cert x))⟩ ∧
      ∀ id xb X eph mac mpk, FgMsg R m id xb X eph mac → R.decompress mpkb = some mpk →
        o = some ((fgView P R x cert.xhat mpk id xb X eph).take 32)) := by
  rcases FgIbkeC.trace_inv_init P ssid mpkb cert t s h with ⟨rfl, rfl⟩ | ⟨x, errs, i, k, rfl, he, rfl⟩ |
    ⟨x, errs, id, xb, ephb, X, eph, mpk, rfl, he, h1, h2, h3, rfl⟩
  · rw [FgIbkeC.step0 P _ rfl] at hr
    split at hr
    · simp only [Step.ok.injEq] at hr
      exact ⟨fun _ => hr.2.symm, fun hc => absurd okc_nil hc⟩
    · simp at hr
  · refine ⟨fun hc => by rw [okc_cons_some] at hc; omega, fun _ => ⟨x, rfl, fun id xb X eph mac mpk hm hk => ?_⟩⟩
    obtain ⟨ephb, g1, g2, rfl⟩ := hm
    rw [FgIbkeC.step2_of P _ rfl x rfl u id xb ephb X eph mpk mac g1 g2 hk] at hr
    dsimp only at hr
    split at hr
    · simp only [Step.ok.injEq] at hr
      exact hr.2.symm
    · simp at hr
  · rw [FgIbkeC.run_late P _ (by simp)] at hr; simp at hr

/-- C80 (FG responder): its key message followed by bytes 32–63 of the expansion of the shared points; its second successful call sends nothing. -/
theorem C80_fg_messages_responder (P : SymPrims) (R : Group) (ssid : Ssid) (mpkb : ByteArr 32) (cert : FgCert R) (t : List Event)
    (s s' : FgIbkeC R) (h : Trace (FgIbkeC.run P) (FgIbkeC.newSession ssid mpkb cert .responder) t s)
    (u : R.Scalar) (m : Bytes) (o : Option Bytes) (hr : FgIbkeC.run P s u m = .ok s' o) :
    (okCount t = 0 → ∀ id xb X eph mpk, FgMsg R m id xb X eph [] → R.decompress mpkb = some mpk →
      o = some (fgHello R cert u ++ ((fgView P R u cert.xhat mpk id xb X eph).drop 32).take 32)) ∧
    (okCount t ≠ 0 → o = none) := by
  rcases FgIbkeC.trace_inv_resp P ssid mpkb cert t s h with ⟨rfl, rfl⟩ |
    ⟨x, errs, id, xb, ephb, X, eph, mpk, he, h1, h2, h3, ⟨rfl, rfl⟩ | ⟨rfl, rfl⟩⟩
  · refine ⟨fun _ id xb X eph mpk hm hk => ?_, fun hc => absurd okc_nil hc⟩
    obtain ⟨ephb, g1, g2, rfl⟩ := hm
    rw [List.append_nil, FgIbkeC.step1_of P _ rfl u id xb ephb X eph mpk g1 g2 hk] at hr
    simp only [Step.ok.injEq] at hr
    exact hr.2.symm
  · refine ⟨fun hc => by rw [okc_cons_some] at hc; omega, fun _ => ?_⟩
    rw [FgIbkeC.step3 P _ rfl _ _ rfl] at hr
    split at hr
    · simp only [Step.ok.injEq] at hr; exact hr.2.symm
    · simp at hr
  · rw [FgIbkeC.run_late P _ (by simp)] at hr; simp at hr

/-- Non-vacuity: an honest toy run, with its three messages, the first and second in the form the theorems give. -/
example :
    let I := fgIbke toyPrims toyGroup
    let mc : toyGroup.Scalar := (9 : Fin 251)
    let ca := I.extract (3 : Fin 251) mc (.rep 32 1) ()
    let cb := I.extract (4 : Fin 251) mc (.rep 32 2) ()
    let a := I.newSession () (.rep 32 0) (I.genMain mc).1 ca () .initiator
    let b := I.newSession () (.rep 32 0) (I.genMain mc).1 cb () .responder
    let c : toyGroup.Scalar := (11 : Fin 251)
    let ms := honest I.run c 9 a b []
    ms.length = 3 ∧ ms[0]! = fgHello toyGroup ca c ∧ (ms[1]!).take 96 = fgHello toyGroup cb c ∧ (ms[1]!).length = 128 ∧ (ms[2]!).length = 32 := by
  decide +kernel

/-! ## SIGMA-R -/

/-- Specification: the sealed payload of a SIGMA-R party with role byte `b`: signature on (role byte, session data, certificate), MAC on
(role byte, own id) and certificate, encrypted under `ekey` with the nonce `n`. -/
def sigmaSealed (P : SymPrims) (G : SigmaScheme) (b : UInt8) (sc : G.SignCoins) (n : ByteArr 12) (ekey : AuthEncKey) (mkey : ByteArr 32)
    (usk : G.Sk) (cert : SigmaCert G) (signed : Bytes) : Bytes :=
  let certBytes := cert.id.1 ++ (G.pkToBytes cert.upk).1 ++ cert.sig.1
  authEncrypt P n ekey ((G.sign sc usk ([b] ++ signed ++ certBytes)).1 ++ (P.hmac mkey.1 ([b] ++ cert.id.1)).1 ++ certBytes)

/-- C80 (SIGMA-R initiator): first its nonce and a fresh encapsulation key; then, for the received nonce `nB` and ciphertext `ct`, a sealed payload
under "enc_key_a" signing (0x00, nB, ssid, key, ct, certificate); its third successful call sends nothing. -/
theorem C80_sigma_messages_initiator (P : SymPrims) (G : SigmaScheme) (E : Kem) (nA : Nonce) (ssid : Ssid) (mpk : G.Pk) (cert : SigmaCert G)
    (usk : G.Sk) (t : List Event) (s s' : IdSigmaR G E)
    (h : Trace (IdSigmaR.run P) (IdSigmaR.newSession nA ssid mpk cert usk .initiator) t s)
    (u : SigmaCoins G E) (m : Bytes) (o : Option Bytes) (hr : IdSigmaR.run P s u m = .ok s' o) :
    (okCount t = 0 → o = some (nA.1 ++ (E.pkToBytes (E.keygen u.kem.key).1).1)) ∧
    (okCount t = 1 → ∃ kc, t = [⟨[], some (some (nA.1 ++ (E.pkToBytes (E.keygen kc).1).1))⟩] ∧
      ∀ (nB : Nonce) (ct : ByteArr 736), m = nB.1 ++ ct.1 →
        o = some (sigmaSealed P G 0x00 u.sign u.ae (P.hkdfExpand (E.decap ct (E.keygen kc).2).1 (ascii "enc_key_a") 64)
          (P.hkdfExpand (E.decap ct (E.keygen kc).2).1 (ascii "mac_key") 32) usk cert
          (nB.1 ++ ssid.1 ++ (E.pkToBytes (E.keygen kc).1).1 ++ ct.1))) ∧
    (2 ≤ okCount t → o = none) := by
  rcases IdSigmaR.trace_inv_init P nA ssid mpk cert usk t s h with ⟨rfl, rfl⟩ | ⟨kc, rfl, rfl⟩ |
    ⟨kc, nB, ct, m3, errs, he, ⟨i, rfl, rfl⟩ | ⟨m', pt, id, rfl, hd, hg, rfl⟩⟩
  · rw [IdSigmaR.step0 P _ rfl nA rfl] at hr
    split at hr
    · simp only [Step.ok.injEq] at hr
      exact ⟨fun _ => hr.2.symm, fun hc => by rw [okc_nil] at hc; omega, fun hc => by rw [okc_nil] at hc; omega⟩
    · simp at hr
  · refine ⟨fun hc => by rw [okc_cons_some] at hc; omega, fun _ => ⟨kc, rfl, fun nB ct hm => ?_⟩, fun hc => by rw [okc_cons_some, okc_nil] at hc; omega⟩
    subst hm
    rw [IdSigmaR.step2_of P _ rfl (E.keygen kc).1 (E.keygen kc).2 rfl rfl] at hr
    simp only [Step.ok.injEq] at hr
    rw [← hr.2]
    simp only [sigmaSealed, IdSigmaR.tbsA, SigmaCert.toBytes, IdSigmaR.newSession, List.append_assoc]
  · refine ⟨fun hc => by rw [okc_cons_some] at hc; omega, fun hc => by rw [okc_cons_some, okc_cons_some] at hc; omega, fun _ => ?_⟩
    obtain ⟨_, _, _, _, _, rfl⟩ := IdSigmaR.step4_ok P rfl rfl rfl rfl rfl rfl hr
    rfl
  · rw [IdSigmaR.run_late P _ (by simp)] at hr; simp at hr

/-- C80 (SIGMA-R responder): first its nonce and an encapsulation to the received key; then, with `nA`, `pkb` the received nonce and key and `ss`, `ct` that encapsulation, a sealed
payload under "enc_key_b" signing (0x01, nA, ssid, ct, key, certificate). -/
theorem C80_sigma_messages_responder (P : SymPrims) (G : SigmaScheme) (E : Kem) (nB : Nonce) (ssid : Ssid) (mpk : G.Pk) (cert : SigmaCert G)
    (usk : G.Sk) (t : List Event) (s s' : IdSigmaR G E)
    (h : Trace (IdSigmaR.run P) (IdSigmaR.newSession nB ssid mpk cert usk .responder) t s)
    (u : SigmaCoins G E) (m : Bytes) (o : Option Bytes) (hr : IdSigmaR.run P s u m = .ok s' o) :
    (okCount t = 0 → ∀ (nA : Nonce) (pkb : ByteArr 672), m = nA.1 ++ pkb.1 →
      o = some (nB.1 ++ (E.encap u.kem.enc (E.pkFromBytes pkb)).2.1)) ∧
    (okCount t ≠ 0 → ∃ ec nA pkb ss ct, E.encap ec (E.pkFromBytes pkb) = (ss, ct) ∧
      t.head? = some ⟨(nA : Nonce).1 ++ pkb.1, some (some (nB.1 ++ ct.1))⟩ ∧
      o = some (sigmaSealed P G 0x01 u.sign u.ae (P.hkdfExpand ss.1 (ascii "enc_key_b") 64) (P.hkdfExpand ss.1 (ascii "mac_key") 32) usk cert
          (nA.1 ++ ssid.1 ++ ct.1 ++ (E.pkToBytes (E.pkFromBytes pkb)).1))) := by
  rcases IdSigmaR.trace_inv_resp P nB ssid mpk cert usk t s h with ⟨rfl, rfl⟩ |
    ⟨ec, nA, pkb, errs, he, ⟨i, rfl, rfl⟩ | ⟨m', m4, pt, id, rfl, hd, hg, rfl⟩⟩
  · refine ⟨fun _ nA pkb hm => ?_, fun hc => absurd okc_nil hc⟩
    subst hm
    rw [IdSigmaR.step1_of P _ rfl nB rfl] at hr
    simp only [Step.ok.injEq] at hr
    exact hr.2.symm
  · refine ⟨fun hc => by rw [okc_cons_some] at hc; omega, fun _ => ⟨ec, nA, pkb, _, _, rfl, rfl, ?_⟩⟩
    obtain ⟨_, _, _, _, _, rfl⟩ := IdSigmaR.step3_ok P rfl rfl rfl rfl rfl rfl rfl hr
    simp only [IdSigmaR.reply, sigmaSealed, IdSigmaR.tbsB, SigmaCert.toBytes, IdSigmaR.respSent, IdSigmaR.withKeys, IdSigmaR.newSession, List.append_assoc]
  · rw [IdSigmaR.run_late P _ (by simp)] at hr; simp at hr

end Verif.Props
