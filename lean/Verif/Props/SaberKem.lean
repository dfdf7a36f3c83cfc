import Verif.Props.Saber
import Verif.Props.EndToEnd
import Verif.Saber.Kem

/-!
# CAKE, SIGMA-R and LATKE over the modelled LightSaber

The KEM hypotheses of C12, C20 and C31 discharged from the model of saber-rust: what is left is the noise bound of C52/C53 on the coins drawn.
-/

namespace Verif.Props

open Verif.Saber Verif.Latke

/-- The coins of a key generation and an encapsulation produce rounding noise within LightSaber's (defect-reduced) thresholds. -/
def LightNoiseOk (H : Hashes) (kc ec : ByteArr 32 × ByteArr 32) : Prop :=
  ∀ i : Fin 256, |noise (genMatrix H light kc.1) (genSecret H light kc.2) (genSecret H light ec.2) i| ≤ 8 * (if i.1 % 8 = 5 then 64 else 192)

/-- C52/C53: LightSaber decapsulates correctly through the serialised public key whenever the noise is within the thresholds. -/
theorem C52_light_kem_correct (H : Hashes) (kc ec : ByteArr 32 × ByteArr 32) (h : LightNoiseOk H kc ec) : (lightKem H).Correct kc ec := by
  show cpaDec light (cpaKeypair H light kc.1 kc.2).2 (cpaEnc H light ec.1 ec.2 (CpaPk.fromBytes (cpaKeypair H light kc.1 kc.2).1.toBytes)) = ec.1
  apply msgBit_ext
  intro i
  have := h i
  by_cases hi : i.1 % 8 = 5
  · rw [if_pos hi] at this; exact C53_light_bit5 H _ _ _ _ _ (.inr rfl) i hi this
  · rw [if_neg hi] at this; exact C52_light_bit H _ _ _ _ _ (.inr rfl) i hi this

/-- C48: the KEM public key re-encodes to the same bytes, as SIGMA-R's signature over the parsed key needs. -/
theorem C48_light_kem_reencode (H : Hashes) (b : ByteArr 672) : (lightKem H).pkToBytes ((lightKem H).pkFromBytes b) = b :=
  cpaPk_bytes light b

/-- C20 with the modelled KEM: CAKE over LightSaber agrees whenever the noise is within the thresholds. -/
theorem C20_cake_lightsaber (P : SymPrims) (H : Hashes) (ssid : Ssid) (pw : Bytes) (c0 c1 c2 : KemCoins (lightKem H))
    (hn : LightNoiseOk H c0.key c1.enc) :
    ∃ m1 m2 qI qR k, converse (cakePake P (lightKem H)).run (cakePake P (lightKem H)).isDone [c0, c1, c2]
        ((cakePake P (lightKem H)).new () ssid pw .initiator) ((cakePake P (lightKem H)).new () ssid pw .responder) []
          = some ([m1, m2], qI, qR) ∧
      m1.length = 672 ∧ m2.length = 736 ∧
      (cakePake P (lightKem H)).isDone qI = true ∧ (cakePake P (lightKem H)).isDone qR = true ∧
      (cakePake P (lightKem H)).finalize qI = some k ∧ (cakePake P (lightKem H)).finalize qR = some k :=
  C20_cake_agreement P (lightKem H) ssid pw c0 c1 c2 (C52_light_kem_correct H _ _ hn)

/-- C31 with the modelled KEM: SIGMA-R over LightSaber agrees whenever the noise is within the thresholds. -/
theorem C31_sigma_lightsaber (P : SymPrims) (G : SigmaScheme) (H : Hashes) (hG : G.Correct) (mc ucI ucR : G.KeyCoins) (xcI xcR : G.SignCoins)
    (nA nB : Nonce) (ssid : Ssid) (idI idR : Id) (c0 c1 c2 c3 c4 : SigmaCoins G (lightKem H)) (hn : LightNoiseOk H c0.kem.key c1.kem.enc) :
    IbkeAgrees (sigmaIbke P G (lightKem H)) mc ucI ucR xcI xcR nA nB ssid idI idR [c0, c1, c2, c3, c4] :=
  C31_sigma_agreement P G (lightKem H) hG mc ucI ucR xcI xcR nA nB ssid idI idR c0 c1 c2 c3 c4 (C52_light_kem_correct H _ _ hn)
    (C48_light_kem_reencode H _)

/-- C12 with the modelled KEM: LATKE with SIGMA-R over CAKE, both over LightSaber, succeeds whenever the noise of the two exchanges is within
the thresholds. -/
theorem C12_sigma_cake_lightsaber (P : SymPrims) (G : SigmaScheme) (H : Hashes) (hG : G.Correct)
    (seedRng) (password : Bytes) (idI idR : Id) (ssid : Ssid) (ucI ucR) (ecI ecR) (nI nR) (pre : Bool)
    (c1 c2 c3 c4 c5 c6 c7 : LatkeCoins (sigmaIbke P G (lightKem H)) (cakePake P (lightKem H)))
    (h1 : LightNoiseOk H c1.pake.key c2.pake.enc) (h2 : LightNoiseOk H c3.eue.ibke.kem.key c4.eue.ibke.kem.enc) :
    LatkeSucceeds (sigmaIbke P G (lightKem H)) (cakePake P (lightKem H)) P seedRng password idI idR ssid ucI ucR ecI ecR nI nR pre
      [c1, c2, c3, c4, c5, c6, c7] :=
  C12_sigma_cake P G (lightKem H) hG seedRng password idI idR ssid ucI ucR ecI ecR nI nR pre c1 c2 c3 c4 c5 c6 c7
    (C52_light_kem_correct H _ _ h1) (C52_light_kem_correct H _ _ h2) (C48_light_kem_reencode H _)

/-- The noise hypothesis is met with non-zero secrets. -/
example (kc ec : ByteArr 32 × ByteArr 32) : LightNoiseOk toyHashes kc ec := fun i => le_trans (toy_noise _ _ _ i).1 (by split <;> omega)

end Verif.Props
