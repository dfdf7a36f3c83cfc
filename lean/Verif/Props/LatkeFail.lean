import Verif.Props.LightFail
import Verif.Props.Replay

/-! # C103 for LATKE: two honest users with the right password who do not get through -/

namespace Verif.Props

open Verif.Saber Verif.Latke

open private cake_keys from Verif.Props.LightFail in
/-- C103: LATKE over CAKE with LightSaber.  Two honest users with the same PAKE input (hence the same password), the coins of C103, and any wrapped key exchange whose
initiator starts with a non-empty message: however many calls they make they never complete, the responder panicking on the first encrypted message — unless the tag of
that message is right under the keys derived from two different PAKE keys. -/
theorem C103_latke_fails (P : SymPrims) (H : Hashes) (hH : H.shake128 = fipsShake.shake128) (I : Ibke) (ssid : Ssid) (pwI pwR : LatkePwfile I) (peerI peerR : PeerModel)
    (hpw : Latke.pakeInput pwI .initiator peerI = Latke.pakeInput pwR .responder peerR)
    (c0 c1 c2 : LatkeCoins I (cakePake P (lightKem H))) (rest : List (LatkeCoins I (cakePake P (lightKem H)))) (k0 k1 : KemCoins (lightKem H))
    (h0 : c0.pake = k0) (h1 : c1.pake = k1) (hc : FailingCoins k0.key.1 k0.key.2 k1.enc.1 k1.enc.2)
    (z : I.State) (m : Bytes) (hm : m ≠ [])
    (hI : I.run (I.newSession c2.sess ssid pwI.mpk pwI.cert pwI.usk .initiator) c2.eue.ibke [] = .ok z (some m)) :
    Latke.drive P (c0 :: c1 :: c2 :: rest) (Latke.newSession () ssid pwI .initiator peerI) (Latke.newSession () ssid pwR .responder peerR) [] = none ∨
      ∃ kI kR : SessKey, kI ≠ kR ∧ TagClash P (msgKeyAt P kI ssid 0) (msgKeyAt P kR ssid 0) (authEncrypt P c2.eue.nonce (msgKeyAt P kI ssid 0) m) := by
  obtain ⟨m1, m2, qI, qR, h, _, _, f1, f2⟩ := cake_keys P (lightKem H) ssid (Latke.pakeInput pwI .initiator peerI) k0 k1 c2.pake
  have hne := C103_kem_incorrect H hH k0.key k1.enc hc
  have hP : converse (cakePake P (lightKem H)).run (cakePake P (lightKem H)).isDone (([c0, c1] ++ [c2]).map (·.pake))
      ((cakePake P (lightKem H)).new () ssid (Latke.pakeInput pwI .initiator peerI) .initiator)
      ((cakePake P (lightKem H)).new () ssid (Latke.pakeInput pwR .responder peerR) .responder) [] = some ([m1, m2], qI, qR) := by
    rw [← hpw]
    simp only [List.cons_append, List.nil_append, List.map_cons, List.map_nil, h0, h1]
    exact h
  exact (C104_keys_differ_odd I (cakePake P (lightKem H)) P ssid pwI pwR peerI peerR () () [c0, c1] c2 rest (by simp) _ qI qR _ _ hP f1 f2 z m hm hI).imp id
    fun ht => ⟨_, _, hne, ht⟩

/-- C103: the same with SIGMA-R as the wrapped key exchange, over any signature scheme and any KEM. -/
theorem C103_latke_sigma_fails (P : SymPrims) (H : Hashes) (hH : H.shake128 = fipsShake.shake128) (G : SigmaScheme) (E : Kem) (ssid : Ssid)
    (pwI pwR : LatkePwfile (sigmaIbke P G E)) (peerI peerR : PeerModel) (hpw : Latke.pakeInput pwI .initiator peerI = Latke.pakeInput pwR .responder peerR)
    (c0 c1 c2 : LatkeCoins (sigmaIbke P G E) (cakePake P (lightKem H))) (rest : List (LatkeCoins (sigmaIbke P G E) (cakePake P (lightKem H))))
    (k0 k1 : KemCoins (lightKem H)) (h0 : c0.pake = k0) (h1 : c1.pake = k1) (hc : FailingCoins k0.key.1 k0.key.2 k1.enc.1 k1.enc.2) :
    Latke.drive P (c0 :: c1 :: c2 :: rest) (Latke.newSession () ssid pwI .initiator peerI) (Latke.newSession () ssid pwR .responder peerR) [] = none ∨
      ∃ (kI kR : SessKey) (w : Bytes), kI ≠ kR ∧ TagClash P (msgKeyAt P kI ssid 0) (msgKeyAt P kR ssid 0) w := by
  have hs := IdSigmaR.step0 P (IdSigmaR.newSession (G := G) (E := E) c2.sess ssid pwI.mpk pwI.cert pwI.usk .initiator) rfl c2.sess rfl c2.eue.ibke []
  rw [if_pos rfl] at hs
  refine (C103_latke_fails P H hH (sigmaIbke P G E) ssid pwI pwR peerI peerR hpw c0 c1 c2 rest k0 k1 h0 h1 hc _ _ ?_ hs).imp id
    fun ⟨kI, kR, hne, ht⟩ => ⟨kI, kR, _, hne, ht⟩
  have h736 : ∀ (x : Bytes) (y : ByteArr 672), x ++ y.1 ≠ [] := fun x y h => by
    have := y.2
    rw [(List.append_eq_nil_iff.mp h).2] at this
    cases this
  exact h736 _ _

/-- There are such users and coins: same password file, the SHAKE128 of FIPS 202, the toy scheme. -/
example : let H := { toyHashes with shake128 := fipsShake.shake128 }
    let c : LatkeCoins (sigmaIbke toyPrims toySigma toyKem) (cakePake toyPrims (lightKem H)) → LatkeCoins (sigmaIbke toyPrims toySigma toyKem) (cakePake toyPrims (lightKem H)) :=
      fun c => { c with pake := (⟨(.rep 32 0, .rep 32 0), (.rep 32 0, Failure.coin)⟩ : KemCoins (lightKem H)) }
    ∀ d ssid pw rest, Latke.drive toyPrims (c d :: c d :: c d :: rest) (Latke.newSession () ssid pw .initiator .postSpecified)
        (Latke.newSession () ssid pw .responder .postSpecified) [] = none ∨
      ∃ (kI kR : SessKey) (w : Bytes), kI ≠ kR ∧ TagClash toyPrims (msgKeyAt toyPrims kI ssid 0) (msgKeyAt toyPrims kR ssid 0) w := by
  intro H c d ssid pw rest
  exact C103_latke_sigma_fails toyPrims H rfl toySigma toyKem ssid pw pw .postSpecified .postSpecified rfl (c d) (c d) (c d) rest _ _ rfl rfl ⟨rfl, rfl, rfl, rfl⟩

end Verif.Props
