import Verif.Props.SaberKem
import Verif.Props.AuthEnc
import Verif.Saber.Failure

/-!
# C103: an honest LightSaber exchange that fails

C53 shows that the 3-bit packing defect of saber-rust lowers the noise LightSaber tolerates at the positions `≡ 5 (mod 8)`.  Here: that this matters.  With SHAKE128 as
standardised, explicit coins of an honest key generation and encapsulation give noise that is less than half of what the parameter set tolerates, and the two sides
still get different secrets; consequences for CAKE and SIGMA-R.
-/

namespace Verif.Props

open Verif.Saber Verif.Latke

/-- The coins of the failing exchange: key generation from two seeds of zero bytes; message zero, noise seed `81 AE 00 … 00`. -/
structure FailingCoins (seed ns m r : ByteArr 32) : Prop where
  seed : seed.1 = List.replicate 32 0
  noiseseed : ns.1 = List.replicate 32 0
  message : m.1 = List.replicate 32 0
  encNoiseseed : r.1 = [0x81, 0xAE] ++ List.replicate 30 0

private theorem FailingCoins.eq {seed ns m r : ByteArr 32} (h : FailingCoins seed ns m r) :
    seed = Failure.zero ∧ ns = Failure.zero ∧ m = Failure.zero ∧ r = Failure.coin :=
  ⟨Subtype.ext h.1, Subtype.ext h.2, Subtype.ext h.3, Subtype.ext h.4⟩

/-- There are such coins. -/
example : FailingCoins (.rep 32 0) (.rep 32 0) (.rep 32 0) Failure.coin := ⟨rfl, rfl, rfl, rfl⟩

open private cpaPk_roundtrip from Verif.Props.Saber in
/-- C103: with these coins and the SHAKE128 of FIPS 202, for the public key of the key pair, serialised or not: the accumulated rounding noise is at most `8·71` at
every position (LightSaber tolerates `8·192` where the defect does not strike, C52), but the decapsulated secret differs from the encapsulated one: in bit 117, and only there. -/
theorem C103_lightsaber_fails (H : Hashes) (hH : H.shake128 = fipsShake.shake128) (seed ns m r : ByteArr 32) (hc : FailingCoins seed ns m r) (pk : CpaPk light)
    (hpk : pk = (cpaKeypair H light seed ns).1 ∨ pk = CpaPk.fromBytes (cpaKeypair H light seed ns).1.toBytes) :
    (∀ i, |noise (genMatrix H light seed) (genSecret H light ns) (genSecret H light r) i| ≤ 8 * 71) ∧
    ∀ i, msgBit (decapsulateCpa light (encapsulateCpa H light m r pk).2 (cpaKeypair H light seed ns).2) i ≠ msgBit (encapsulateCpa H light m r pk).1 i ↔ i = 117 := by
  obtain ⟨rfl, rfl, rfl, rfl⟩ := hc.eq
  have hn : ∀ i : Fin 256, |noise (genMatrix H light Failure.zero) (genSecret H light Failure.zero) (genSecret H light Failure.coin) i|
      ≤ if i.1 = 117 then 8 * 71 else if i.1 % 8 = 5 then 8 * 64 else 8 * 71 := fun i => by
    rw [Failure.noise_eq H hH i]; exact Failure.chk_noise i
  refine ⟨fun i => (hn i).trans (by split <;> [rfl; split] <;> norm_num), fun i => ⟨fun h => ?_, ?_⟩⟩
  · by_contra hi
    have hi' : i.1 ≠ 117 := fun e => hi (Fin.ext e)
    have hni := hn i
    rw [if_neg hi'] at hni
    refine h ?_
    by_cases h5 : i.1 % 8 = 5
    · rw [if_pos h5] at hni
      exact C53_light_bit5 H _ _ _ _ pk hpk i h5 hni
    · rw [if_neg h5] at hni
      exact C52_light_bit H _ _ _ _ pk hpk i h5 (by omega)
  · rintro rfl
    have hs : pk.seed = Failure.zero ∧ pk.toBytes = (cpaKeypair H light Failure.zero Failure.zero).1.toBytes := by
      rcases hpk with rfl | rfl
      · exact ⟨rfl, rfl⟩
      · exact ⟨(cpaPk_roundtrip light _).1, cpaPk_bytes light _⟩
    have h1 := Failure.bit117 H hH pk hs.1 hs.2
    intro e
    have e' := h1.symm.trans e
    rw [show (encapsulateCpa H light Failure.zero Failure.coin pk).1 = Failure.zero from rfl, show msgBit Failure.zero 117 = false by decide +kernel] at e'
    exact Bool.noConfusion e'

/-- C103: the KEM as the protocols use it is not correct for these coins. -/
theorem C103_kem_incorrect (H : Hashes) (hH : H.shake128 = fipsShake.shake128) (kc ec : ByteArr 32 × ByteArr 32) (hc : FailingCoins kc.1 kc.2 ec.1 ec.2) :
    ¬ (lightKem H).Correct kc ec := by
  intro h
  have h' : decapsulateCpa light (encapsulateCpa H light ec.1 ec.2 (CpaPk.fromBytes (cpaKeypair H light kc.1 kc.2).1.toBytes)).2 (cpaKeypair H light kc.1 kc.2).2
      = (encapsulateCpa H light ec.1 ec.2 (CpaPk.fromBytes (cpaKeypair H light kc.1 kc.2).1.toBytes)).1 := h
  exact ((C103_lightsaber_fails H hH _ _ _ _ hc _ (.inr rfl)).2 117).2 rfl (by rw [h'])

private theorem cake_keys (P : SymPrims) (E : Kem) (ssid : Ssid) (pw : Bytes) (c0 c1 c2 : KemCoins E) :
    ∃ m1 m2 qI qR, converse (cakePake P E).run (cakePake P E).isDone [c0, c1, c2]
        ((cakePake P E).new () ssid pw .initiator) ((cakePake P E).new () ssid pw .responder) [] = some ([m1, m2], qI, qR) ∧
      (cakePake P E).isDone qI = true ∧ (cakePake P E).isDone qR = true ∧
      (cakePake P E).finalize qI = some (E.decap (E.encap c1.enc (E.pkFromBytes (E.pkToBytes (E.keygen c0.key).1))).2 (E.keygen c0.key).2) ∧
      (cakePake P E).finalize qR = some (E.encap c1.enc (E.pkFromBytes (E.pkToBytes (E.keygen c0.key).1))).1 := by
  obtain ⟨y, e1, l1, r1⟩ := Cake.run0 P (Cake.new E ssid pw .initiator) (by simp [Cake.new]) c0
  obtain ⟨y', e1', d1', l1'⟩ := ic_inv P 0 ssid.1 pw (E.pkToBytes (E.keygen c0.key).1).1 (by simp [(E.pkToBytes _).2])
  have hy : y' = y := by
    have : icEncrypt P 0 ssid.1 pw (E.pkToBytes (E.keygen c0.key).1).1 = some y := e1
    rw [e1'] at this; simpa using this
  subst hy
  obtain ⟨pk, z, d2, e2, l2, r2⟩ := Cake.run1 P (Cake.new E ssid pw .responder) (by simp [Cake.new]) c1 y' l1
  have hpk : pk = E.pkToBytes (E.keygen c0.key).1 := by
    have : icDecrypt P 0 ssid.1 pw y' = some pk.1 := d2
    rw [d1'] at this
    exact Subtype.ext (by simpa using this.symm)
  subst hpk
  obtain ⟨ct, d3, r3⟩ := Cake.run2 P { Cake.new E ssid pw .initiator with
      ephPk := some (E.keygen c0.key).1, ephSk := some (E.keygen c0.key).2, nextStep := 2 } rfl _ rfl c2 z l2
  obtain ⟨z', e3, d3', l3⟩ := ic_inv P 1 ssid.1 pw
    (E.encap c1.enc (E.pkFromBytes (E.pkToBytes (E.keygen c0.key).1))).2.1 (by simp [(E.encap _ _).2.2])
  have hz : z' = z := by
    have : icEncrypt P 1 ssid.1 pw _ = some z := e2
    rw [e3] at this; simpa using this
  subst hz
  have hct : ct = (E.encap c1.enc (E.pkFromBytes (E.pkToBytes (E.keygen c0.key).1))).2 := by
    have : icDecrypt P 1 ssid.1 pw z' = some ct.1 := d3
    rw [d3'] at this
    exact Subtype.ext (by simpa using this.symm)
  subst hct
  have n1 : y' ≠ [] := by intro h; simp [h] at l1
  have n2 : z' ≠ [] := by intro h; simp [h] at l2
  exact ⟨y', z', _, _, converse_cons rfl r1 n1 (converse_cons rfl r2 n2 (converse_last rfl r3 rfl rfl)), rfl, rfl, rfl, rfl⟩

/-- C103: CAKE.  For every password, session id and choice of the other primitives, an honest run with these coins reaches its end on both sides without any
error — and the two sides return different keys. -/
theorem C103_cake_disagrees (P : SymPrims) (H : Hashes) (hH : H.shake128 = fipsShake.shake128) (ssid : Ssid) (pw : Bytes) (c0 c1 c2 : KemCoins (lightKem H))
    (hc : FailingCoins c0.key.1 c0.key.2 c1.enc.1 c1.enc.2) :
    ∃ m1 m2 qI qR kI kR, converse (cakePake P (lightKem H)).run (cakePake P (lightKem H)).isDone [c0, c1, c2]
        ((cakePake P (lightKem H)).new () ssid pw .initiator) ((cakePake P (lightKem H)).new () ssid pw .responder) [] = some ([m1, m2], qI, qR) ∧
      (cakePake P (lightKem H)).isDone qI = true ∧ (cakePake P (lightKem H)).isDone qR = true ∧
      (cakePake P (lightKem H)).finalize qI = some kI ∧ (cakePake P (lightKem H)).finalize qR = some kR ∧ kI ≠ kR := by
  obtain ⟨m1, m2, qI, qR, h, d1, d2, f1, f2⟩ := cake_keys P (lightKem H) ssid pw c0 c1 c2
  exact ⟨m1, m2, qI, qR, _, _, h, d1, d2, f1, f2, C103_kem_incorrect H hH c0.key c1.enc hc⟩

/-- A concrete failing CAKE run: password `[1, 2]`, the SHAKE128 of FIPS 202. -/
example : ∃ m1 m2 qI qR kI kR, let E := lightKem { toyHashes with shake128 := fipsShake.shake128 }
    let c : KemCoins E := ⟨(.rep 32 0, .rep 32 0), (.rep 32 0, Failure.coin)⟩
    converse (cakePake toyPrims E).run (cakePake toyPrims E).isDone [c, c, c]
        ((cakePake toyPrims E).new () (.rep 32 1) [1, 2] .initiator) ((cakePake toyPrims E).new () (.rep 32 1) [1, 2] .responder) [] = some ([m1, m2], qI, qR) ∧
      (cakePake toyPrims E).isDone qI = true ∧ (cakePake toyPrims E).isDone qR = true ∧
      (cakePake toyPrims E).finalize qI = some kI ∧ (cakePake toyPrims E).finalize qR = some kR ∧ kI ≠ kR :=
  C103_cake_disagrees toyPrims { toyHashes with shake128 := fipsShake.shake128 } rfl (.rep 32 1) [1, 2] _ _ _ ⟨rfl, rfl, rfl, rfl⟩

private theorem authDecrypt_wrong (P : SymPrims) (nonce : ByteArr 12) (k k' : AuthEncKey) (msg : Bytes) :
    authDecrypt P k (authEncrypt P nonce k' msg) = .err .mk ∨ ∃ body, P.hmac (k.1.drop 32) body = P.hmac (k'.1.drop 32) body := by
  unfold authEncrypt
  dsimp only
  generalize xorBytes msg (P.keystream (k'.1.take 32) nonce.1 msg.length).1 = ct
  by_cases h : P.hmac (k.1.drop 32) (ct ++ nonce.1) = P.hmac (k'.1.drop 32) (ct ++ nonce.1)
  · exact .inr ⟨_, h⟩
  · left
    unfold authDecrypt
    have e1 : splitEnd? TAGLEN (ct ++ nonce.1 ++ (P.hmac (k'.1.drop 32) (ct ++ nonce.1)).1) = some (ct ++ nonce.1, (P.hmac (k'.1.drop 32) (ct ++ nonce.1)).1) :=
      splitEnd?_append (P.hmac (k'.1.drop 32) (ct ++ nonce.1)).2
    have e2 : splitEnd? 12 (ct ++ nonce.1) = some (ct, nonce.1) := splitEnd?_append nonce.2
    dsimp only
    rw [e1]; dsimp only
    rw [e2]; dsimp only
    rw [if_neg fun e => h (Subtype.ext e)]

private theorem sigma_wrong (P : SymPrims) (G : SigmaScheme) (E : Kem) (nA nB : Nonce) (ssid : Ssid) (mpkI mpkR : G.Pk) (certI certR : SigmaCert G) (uskI uskR : G.Sk)
    (c0 c1 c2 c3 : SigmaCoins G E) :
    ∃ m1 m2 m3 s1 r1 s2, IdSigmaR.run P (IdSigmaR.newSession (E := E) nA ssid mpkI certI uskI .initiator) c0 [] = .ok s1 (some m1) ∧
      IdSigmaR.run P (IdSigmaR.newSession nB ssid mpkR certR uskR .responder) c1 m1 = .ok r1 (some m2) ∧
      IdSigmaR.run P s1 c2 m2 = .ok s2 (some m3) ∧ r1.done = false ∧ r1.outputId = none ∧
      (IdSigmaR.run P r1 c3 m3 = .err r1 .mac ∨ ∃ body,
        P.hmac ((P.hkdfExpand (E.encap c1.kem.enc (E.pkFromBytes (E.pkToBytes (E.keygen c0.kem.key).1))).1.1 (ascii "enc_key_a") 64).1.drop 32) body
          = P.hmac ((P.hkdfExpand (E.decap (E.encap c1.kem.enc (E.pkFromBytes (E.pkToBytes (E.keygen c0.kem.key).1))).2 (E.keygen c0.kem.key).2).1
              (ascii "enc_key_a") 64).1.drop 32) body) := by
  refine ⟨_, _, _, _, _, _, IdSigmaR.step0 P _ rfl nA rfl c0 [], IdSigmaR.step1_of P _ rfl nB rfl c1 nA _, IdSigmaR.step2_of P _ rfl _ _ rfl rfl c2 nB _, rfl, rfl, ?_⟩
  rcases authDecrypt_wrong P c2.ae (P.hkdfExpand (E.encap c1.kem.enc (E.pkFromBytes (E.pkToBytes (E.keygen c0.kem.key).1))).1.1 (ascii "enc_key_a") 64)
    (P.hkdfExpand (E.decap (E.encap c1.kem.enc (E.pkFromBytes (E.pkToBytes (E.keygen c0.kem.key).1))).2 (E.keygen c0.kem.key).2).1 (ascii "enc_key_a") 64) _ with h | h
  · left
    simp only [IdSigmaR.run, IdSigmaR.withKeys, IdSigmaR.newSession, if_neg (show ¬ Role.responder = Role.initiator by decide)]
    rw [h]
  · exact .inr h

/-- C103: SIGMA-R.  In an honest run with these coins, whatever the identities, certificates, signature scheme and other primitives, the first three messages are sent;
the responder then rejects the third with a MAC error and does not finish — unless the MAC keys derived from two different KEM secrets produce the same HMAC tag for the
same string. -/
theorem C103_sigma_fails (P : SymPrims) (G : SigmaScheme) (H : Hashes) (hH : H.shake128 = fipsShake.shake128) (nA nB : Nonce) (ssid : Ssid) (mpkI mpkR : G.Pk)
    (certI certR : SigmaCert G) (uskI uskR : G.Sk) (c0 c1 c2 c3 : SigmaCoins G (lightKem H)) (hc : FailingCoins c0.kem.key.1 c0.kem.key.2 c1.kem.enc.1 c1.kem.enc.2) :
    ∃ m1 m2 m3 s1 r1 s2, IdSigmaR.run P (IdSigmaR.newSession nA ssid mpkI certI uskI .initiator) c0 [] = .ok s1 (some m1) ∧
      IdSigmaR.run P (IdSigmaR.newSession nB ssid mpkR certR uskR .responder) c1 m1 = .ok r1 (some m2) ∧
      IdSigmaR.run P s1 c2 m2 = .ok s2 (some m3) ∧ r1.done = false ∧ r1.outputId = none ∧
      (IdSigmaR.run P r1 c3 m3 = .err r1 .mac ∨ ∃ (ss ss' : ByteArr 32) (body : Bytes), ss ≠ ss' ∧
        P.hmac ((P.hkdfExpand ss.1 (ascii "enc_key_a") 64).1.drop 32) body = P.hmac ((P.hkdfExpand ss'.1 (ascii "enc_key_a") 64).1.drop 32) body) := by
  obtain ⟨m1, m2, m3, s1, r1, s2, h1, h2, h3, h4, h5, h6⟩ := sigma_wrong P G (lightKem H) nA nB ssid mpkI mpkR certI certR uskI uskR c0 c1 c2 c3
  refine ⟨m1, m2, m3, s1, r1, s2, h1, h2, h3, h4, h5, h6.imp id ?_⟩
  rintro ⟨body, hb⟩
  exact ⟨_, _, body, fun e => C103_kem_incorrect H hH c0.kem.key c1.kem.enc hc e.symm, hb⟩

end Verif.Props
