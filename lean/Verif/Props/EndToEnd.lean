import Verif.Props.Latke
import Verif.Props.Pake
import Verif.Props.SigDh
import Verif.Props.Hmqv
import Verif.Props.Fg
import Verif.Props.SigmaR

/-! # C12 for the protocol pairs the crate tests (latke.rs:203-207), with no hypothesis left about the sub-protocols -/

namespace Verif.Props
open Verif Verif.Latke

/-- The peer models of the two users in the crate's test: both post-specified, or both naming the other. -/
def peerModels (pre : Bool) (idI idR : Id) : PeerModel × PeerModel :=
  if pre then (.preSpecified idR, .preSpecified idI) else (.postSpecified, .postSpecified)

/-- The end-to-end scenario of the crate's test (`latke_correctness_generic`, latke.rs:209-262), for given values of everything that is
drawn at random: two password files from one password, two sessions with the same ssid, the driver loop; it runs for exactly one call
per element of `coins`, both users are done, each reports the other's id, and the keys are equal. -/
def LatkeSucceeds (I : Ibke) (K : Pake) (P : SymPrims) (seedRng : ByteArr 32 → I.MainCoins) (password : Bytes) (idI idR : Id)
    (ssid : Ssid) (ucI ucR : I.UserCoins) (ecI ecR : I.ExtractCoins) (nI nR : K.NewCoins) (pre : Bool)
    (coins : List (LatkeCoins I K)) : Prop :=
  ∃ (sent : List (Option Bytes)) (LI LR : Latke I K) (key : SessKey),
    Latke.drive P coins
      (Latke.newSession (K := K) nI ssid (Latke.genPwfile I P seedRng ucI ecI password idI) .initiator (peerModels pre idI idR).1)
      (Latke.newSession (K := K) nR ssid (Latke.genPwfile I P seedRng ucR ecR password idR) .responder (peerModels pre idI idR).2)
      [] = some (sent, LI, LR) ∧
    sent.length = coins.length ∧
    LI.isDone = true ∧ LR.isDone = true ∧
    LI.finalize P = some (idR, key) ∧ LR.finalize P = some (idI, key)

private theorem drive_length {I : Ibke} {K : Pake} (P : SymPrims) (cs : List (LatkeCoins I K)) :
    ∀ (a p : Latke I K) (inc : Bytes) (sent) (a' p' : Latke I K), Latke.drive P cs a p inc = some (sent, a', p') →
      sent.length = cs.length := by
  induction cs with
  | nil =>
    intro a p inc sent a' p' h
    simp only [Latke.drive] at h
    split at h
    · simp only [Option.some.injEq, Prod.mk.injEq] at h; obtain ⟨rfl, _⟩ := h; rfl
    · simp at h
  | cons c cs ih =>
    intro a p inc sent a' p' h
    simp only [Latke.drive] at h
    split at h
    · simp at h
    · split at h
      · simp at h
      · split at h
        · simp at h
        · next hd =>
          simp only [Option.some.injEq, Prod.mk.injEq] at h
          obtain ⟨rfl, _⟩ := h
          simp [ih _ _ _ _ _ _ hd]

private theorem pakeInput_eq {I : Ibke} (P : SymPrims) (hid : ∀ ec msk id upk, I.certId (I.extract ec msk id upk) = id)
    (seedRng : ByteArr 32 → I.MainCoins) (password : Bytes) (idI idR : Id) (ucI ucR : I.UserCoins) (ecI ecR : I.ExtractCoins)
    (pre : Bool) :
    Latke.pakeInput (Latke.genPwfile I P seedRng ucR ecR password idR) .responder (peerModels pre idI idR).2 =
    Latke.pakeInput (Latke.genPwfile I P seedRng ucI ecI password idI) .initiator (peerModels pre idI idR).1 := by
  cases pre <;> simp [peerModels, Latke.pakeInput, Latke.genPwfile, hid]

section
variable {I : Ibke} {K : Pake} (P : SymPrims) (hid : ∀ ec msk id upk, I.certId (I.extract ec msk id upk) = id)
  (seedRng : ByteArr 32 → I.MainCoins) (password : Bytes) (idI idR : Id) (ssid : Ssid) (ucI ucR : I.UserCoins)
  (ecI ecR : I.ExtractCoins) (nI nR : K.NewCoins) (pre : Bool)
include hid

/-- C12, composed: any PAKE that agrees on equal inputs in an odd number of calls and any IBKE that agrees. -/
theorem C12_composed_odd (cs : List (LatkeCoins I K)) (c0 c1 : LatkeCoins I K) (rest : List (LatkeCoins I K)) (hpar : cs.length % 2 = 0)
    (hP : ∀ input, ∃ tr qI qR k, converse K.run K.isDone ((cs ++ [c0]).map (·.pake)) (K.new nI ssid input .initiator)
      (K.new nR ssid input .responder) [] = some (tr, qI, qR) ∧ K.finalize qI = some k ∧ K.finalize qR = some k)
    (hI : IbkeAgrees I (seedRng (P.hash256 password)) ucI ucR ecI ecR c0.sess c1.sess ssid idI idR ((c0 :: c1 :: rest).map (·.eue.ibke))) :
    LatkeSucceeds I K P seedRng password idI idR ssid ucI ucR ecI ecR nI nR pre (cs ++ c0 :: c1 :: rest) := by
  obtain ⟨trP, qI, qR, k, hc, k1, k2⟩ := hP (Latke.pakeInput (Latke.genPwfile I P seedRng ucI ecI password idI) .initiator
    (peerModels pre idI idR).1)
  obtain ⟨trI, sI, sR, kk, hci, _, _, f1, f2⟩ := hI
  obtain ⟨LI, LR, wire, hd, _, d1, d2, g1, g2⟩ := C12_agreement_initiator_ends_pake I K P ssid
    (Latke.genPwfile I P seedRng ucI ecI password idI) (Latke.genPwfile I P seedRng ucR ecR password idR)
    (peerModels pre idI idR).1 (peerModels pre idI idR).2 nI nR cs c0 c1 rest hpar trP qI qR k
    (by rw [pakeInput_eq P hid seedRng password idI idR ucI ucR ecI ecR pre]; exact hc) k1 k2 trI sI sR idR idI kk hci f1 f2
  exact ⟨_, LI, LR, _, hd, drive_length P _ _ _ _ _ _ _ hd, d1, d2, g1, g2⟩

/-- C12, composed: any PAKE that agrees on equal inputs in an even number of calls and any IBKE that agrees. -/
theorem C12_composed_even (cs : List (LatkeCoins I K)) (c0 c1 : LatkeCoins I K) (rest : List (LatkeCoins I K)) (hpar : cs.length % 2 = 1)
    (hP : ∀ input, ∃ tr qI qR k, converse K.run K.isDone ((cs ++ [c0]).map (·.pake)) (K.new nI ssid input .initiator)
      (K.new nR ssid input .responder) [] = some (tr, qI, qR) ∧ K.finalize qI = some k ∧ K.finalize qR = some k)
    (hI : IbkeAgrees I (seedRng (P.hash256 password)) ucI ucR ecI ecR c1.sess c0.sess ssid idI idR ((c1 :: rest).map (·.eue.ibke))) :
    LatkeSucceeds I K P seedRng password idI idR ssid ucI ucR ecI ecR nI nR pre (cs ++ c0 :: c1 :: rest) := by
  obtain ⟨trP, qI, qR, k, hc, k1, k2⟩ := hP (Latke.pakeInput (Latke.genPwfile I P seedRng ucI ecI password idI) .initiator
    (peerModels pre idI idR).1)
  obtain ⟨trI, sI, sR, kk, hci, _, _, f1, f2⟩ := hI
  obtain ⟨LI, LR, wire, hd, _, d1, d2, g1, g2⟩ := C12_agreement_responder_ends_pake I K P ssid
    (Latke.genPwfile I P seedRng ucI ecI password idI) (Latke.genPwfile I P seedRng ucR ecR password idR)
    (peerModels pre idI idR).1 (peerModels pre idI idR).2 nI nR cs c0 c1 rest hpar trP qI qR k
    (by rw [pakeInput_eq P hid seedRng password idI idR ucI ucR ecI ecR pre]; exact hc) k1 k2 trI sI sR idR idI kk hci f1 f2
  exact ⟨_, LI, LR, _, hd, drive_length P _ _ _ _ _ _ _ hd, d1, d2, g1, g2⟩

end

private theorem kc_hP (P : SymPrims) (S : Spake2) (hS : S.Correct) (ssid : Ssid) (nI nR : S.Coins) (cs : List Unit)
    (h : cs.length = 4) (input : Bytes) :
    ∃ tr qI qR k, converse (kcSpake2Pake P S).run (kcSpake2Pake P S).isDone cs ((kcSpake2Pake P S).new nI ssid input .initiator)
      ((kcSpake2Pake P S).new nR ssid input .responder) [] = some (tr, qI, qR) ∧
      (kcSpake2Pake P S).finalize qI = some k ∧ (kcSpake2Pake P S).finalize qR = some k := by
  obtain ⟨m1, m2, m3, qI, qR, k, hc, _, _, h1, h2⟩ := C23_kcspake2_agreement P S hS ssid input nI nR
  match cs, h with
  | [(), (), (), ()], _ => exact ⟨_, qI, qR, k, hc, h1, h2⟩

/-- C12 for Signed-DH over KC-SPAKE2: succeeds after exactly 7 calls. -/
theorem C12_sigdh_kcspake2 (P : SymPrims) (G : Ed25519) (D : X25519) (S : Spake2) (hG : G.Correct) (hD : D.Correct) (hS : S.Correct)
    (seedRng) (password : Bytes) (idI idR : Id) (ssid : Ssid) (ucI ucR) (ecI ecR) (nI nR) (pre : Bool)
    (c1 c2 c3 c4 c5 c6 c7 : LatkeCoins (sigDhIbke P G D) (kcSpake2Pake P S)) :
    LatkeSucceeds (sigDhIbke P G D) (kcSpake2Pake P S) P seedRng password idI idR ssid ucI ucR ecI ecR nI nR pre
      [c1, c2, c3, c4, c5, c6, c7] :=
  C12_composed_even P (fun _ _ _ _ => rfl) seedRng password idI idR ssid ucI ucR ecI ecR nI nR pre [c1, c2, c3] c4 c5 [c6, c7] (by simp)
    (kc_hP P S hS ssid nI nR _ rfl) (C28_sigdh_agreement P G D hG hD _ ucI ucR ssid idI idR _ _ _)

/-- C12 for HMQV-C over KC-SPAKE2: succeeds after exactly 8 calls. -/
theorem C12_hmqv_kcspake2 (P : SymPrims) (G : Ed25519) (R : Group) (S : Spake2) (hG : G.Correct) (hR : R.Correct) (hS : S.Correct)
    (seedRng) (password : Bytes) (idI idR : Id) (ssid : Ssid) (ucI ucR) (ecI ecR) (nI nR) (pre : Bool)
    (c1 c2 c3 c4 c5 c6 c7 c8 : LatkeCoins (hmqvIbke P G R) (kcSpake2Pake P S)) :
    LatkeSucceeds (hmqvIbke P G R) (kcSpake2Pake P S) P seedRng password idI idR ssid ucI ucR ecI ecR nI nR pre
      [c1, c2, c3, c4, c5, c6, c7, c8] :=
  C12_composed_even P (fun _ _ _ _ => rfl) seedRng password idI idR ssid ucI ucR ecI ecR nI nR pre [c1, c2, c3] c4 c5 [c6, c7, c8] (by simp)
    (kc_hP P S hS ssid nI nR _ rfl) (C29_hmqv_agreement P G R hG hR _ ucI ucR ssid idI idR _ _ _ _)

/-- C12 for Fiore-Gennaro over KC-SPAKE2: succeeds after exactly 8 calls. -/
theorem C12_fg_kcspake2 (P : SymPrims) (R : Group) (S : Spake2) (hR : R.Correct) (hS : S.Correct)
    (seedRng) (password : Bytes) (idI idR : Id) (ssid : Ssid) (ucI ucR) (ecI ecR) (nI nR) (pre : Bool)
    (c1 c2 c3 c4 c5 c6 c7 c8 : LatkeCoins (fgIbke P R) (kcSpake2Pake P S)) :
    LatkeSucceeds (fgIbke P R) (kcSpake2Pake P S) P seedRng password idI idR ssid ucI ucR ecI ecR nI nR pre
      [c1, c2, c3, c4, c5, c6, c7, c8] :=
  C12_composed_even P (fun _ _ _ _ => rfl) seedRng password idI idR ssid ucI ucR ecI ecR nI nR pre [c1, c2, c3] c4 c5 [c6, c7, c8] (by simp)
    (kc_hP P S hS ssid nI nR _ rfl) (C30_fg_agreement P R hR _ ecI ecR ssid idI idR _ _ _ _)

/-- C12 for SIGMA-R over CAKE, the signature scheme only assumed correct on the four messages signed in the run. -/
theorem C12_sigma_cake_signed (P : SymPrims) (G : SigmaScheme) (E : Kem) (hkey : ∀ pk, G.pkFromBytes (G.pkToBytes pk) = some pk)
    (seedRng : ByteArr 32 → G.KeyCoins) (password : Bytes) (idI idR : Id) (ssid : Ssid) (ucI ucR : G.KeyCoins) (ecI ecR : G.SignCoins) (nI nR) (pre : Bool)
    (c1 c2 c3 c4 c5 c6 c7 : LatkeCoins (sigmaIbke P G E) (cakePake P E)) (k3 k4 k5 k6 : SigmaCoins G E)
    (e3 : c3.eue.ibke = k3) (e4 : c4.eue.ibke = k4) (e5 : c5.eue.ibke = k5) (e6 : c6.eue.ibke = k6)
    (hsig : SigmaRunSigned G (SigmaScheme.SignsOk G) (seedRng (P.hash256 password)) ucI ucR ecI ecR c3.sess c4.sess ssid idI idR
      (E.pkToBytes (E.keygen k3.kem.key).1)
      (E.encap k4.kem.enc (E.pkFromBytes (E.pkToBytes (E.keygen k3.kem.key).1))).2 k5.sign k6.sign)
    (hE1 : E.Correct c1.pake.key c2.pake.enc) (hE2 : E.Correct k3.kem.key k4.kem.enc)
    (hpk : E.pkToBytes (E.pkFromBytes (E.pkToBytes (E.keygen k3.kem.key).1)) = E.pkToBytes (E.keygen k3.kem.key).1) :
    LatkeSucceeds (sigmaIbke P G E) (cakePake P E) P seedRng password idI idR ssid ucI ucR ecI ecR nI nR pre
      [c1, c2, c3, c4, c5, c6, c7] := by
  subst e3 e4 e5 e6
  exact C12_composed_odd P (fun _ _ _ _ => rfl) seedRng password idI idR ssid ucI ucR ecI ecR nI nR pre [c1, c2] c3 c4 [c5, c6, c7] (by simp)
    (fun input => by
      obtain ⟨m1, m2, qI, qR, k, hc, _, _, _, _, h1, h2⟩ := C20_cake_agreement P E ssid input c1.pake c2.pake c3.pake hE1
      exact ⟨_, qI, qR, k, hc, h1, h2⟩)
    (C31_sigma_agreement_signed P G E hkey _ ucI ucR ecI ecR _ _ ssid idI idR _ _ _ _ _ hsig hE2 hpk)

/-- C12 for SIGMA-R (either signature scheme) over CAKE: succeeds after exactly 7 calls, provided the two KEM exchanges (CAKE's and SIGMA-R's)
decapsulate correctly and the ephemeral KEM key re-encodes to the same bytes. -/
theorem C12_sigma_cake (P : SymPrims) (G : SigmaScheme) (E : Kem) (hG : G.Correct)
    (seedRng) (password : Bytes) (idI idR : Id) (ssid : Ssid) (ucI ucR) (ecI ecR) (nI nR) (pre : Bool)
    (c1 c2 c3 c4 c5 c6 c7 : LatkeCoins (sigmaIbke P G E) (cakePake P E))
    (hE1 : E.Correct c1.pake.key c2.pake.enc) (hE2 : E.Correct c3.eue.ibke.kem.key c4.eue.ibke.kem.enc)
    (hpk : E.pkToBytes (E.pkFromBytes (E.pkToBytes (E.keygen c3.eue.ibke.kem.key).1)) = E.pkToBytes (E.keygen c3.eue.ibke.kem.key).1) :
    LatkeSucceeds (sigmaIbke P G E) (cakePake P E) P seedRng password idI idR ssid ucI ucR ecI ecR nI nR pre
      [c1, c2, c3, c4, c5, c6, c7] :=
  C12_composed_odd P (fun _ _ _ _ => rfl) seedRng password idI idR ssid ucI ucR ecI ecR nI nR pre [c1, c2] c3 c4 [c5, c6, c7] (by simp)
    (fun input => by
      obtain ⟨m1, m2, qI, qR, k, hc, _, _, _, _, h1, h2⟩ := C20_cake_agreement P E ssid input c1.pake c2.pake c3.pake hE1
      exact ⟨_, qI, qR, k, hc, h1, h2⟩)
    (C31_sigma_agreement P G E hG _ ucI ucR ecI ecR _ _ ssid idI idR _ _ _ _ _ hE2 hpk)

/-- C12 for SIGMA-R over CPace (a pair the crate allows but does not test). -/
theorem C12_sigma_cpace (P : SymPrims) (G : SigmaScheme) (E : Kem) (L : CpaceLib) (hG : G.Correct) (hL : L.Correct)
    (seedRng) (password : Bytes) (idI idR : Id) (ssid : Ssid) (ucI ucR) (ecI ecR) (nI nR) (pre : Bool)
    (c1 c2 c3 c4 c5 c6 c7 : LatkeCoins (sigmaIbke P G E) (cpacePake L))
    (hE2 : E.Correct c3.eue.ibke.kem.key c4.eue.ibke.kem.enc)
    (hpk : E.pkToBytes (E.pkFromBytes (E.pkToBytes (E.keygen c3.eue.ibke.kem.key).1)) = E.pkToBytes (E.keygen c3.eue.ibke.kem.key).1) :
    LatkeSucceeds (sigmaIbke P G E) (cpacePake L) P seedRng password idI idR ssid ucI ucR ecI ecR nI nR pre
      [c1, c2, c3, c4, c5, c6, c7] :=
  C12_composed_odd P (fun _ _ _ _ => rfl) seedRng password idI idR ssid ucI ucR ecI ecR nI nR pre [c1, c2] c3 c4 [c5, c6, c7] (by simp)
    (fun input => by
      obtain ⟨m1, m2, qI, qR, k, hc, _, _, h1, h2⟩ := C22_cpace_agreement L hL ssid input c1.pake c2.pake c3.pake
      exact ⟨_, qI, qR, k, hc, h1, h2⟩)
    (C31_sigma_agreement P G E hG _ ucI ucR ecI ecR _ _ ssid idI idR _ _ _ _ _ hE2 hpk)

/-- The hypotheses of the C12 instances are met by the toy instances. -/
example : toyEd.Correct ∧ toyDh.Correct ∧ toyGroup.Correct ∧ toySpake2.Correct ∧ toyCpace.Correct ∧ toySigma.Correct ∧
    (∀ kc ec, toyKem.Correct kc ec) :=
  ⟨toyEd_correct, toyDh_correct, toyGroup_correct, toySpake2_correct, toyCpace_correct, toySigma_correct, toyKem_correct⟩

/-- C16 is not vacuous and applies to SIGMA-R over CAKE as the crate uses it: an insider holding a certificate for `idC` under the same
password makes the initiator, who named `idB` as its only acceptable peer, complete and report `idC`. -/
theorem C16_sigma_cake_insider (P : SymPrims) (G : SigmaScheme) (E : Kem) (hG : G.Correct)
    (seedRng) (password : Bytes) (idI idB idC : Id) (hne : idB ≠ idC) (ssid : Ssid) (ucI ucC) (ecI ecC) (nI : (cakePake P E).NewCoins)
    (c1 c2 c3 c4 c5 c6 c7 : LatkeCoins (sigmaIbke P G E) (cakePake P E))
    (hE1 : E.Correct c1.pake.key c2.pake.enc) (hE2 : E.Correct c3.eue.ibke.kem.key c4.eue.ibke.kem.enc)
    (hpk : E.pkToBytes (E.pkFromBytes (E.pkToBytes (E.keygen c3.eue.ibke.kem.key).1)) = E.pkToBytes (E.keygen c3.eue.ibke.kem.key).1) :
    let I := sigmaIbke P G E
    ∃ (adversary LI LR : Latke I (cakePake P E)) (trace : List (Option Bytes)) (key : SessKey),
      adversary.pwfile = Latke.genPwfile I P seedRng ucC ecC password idC ∧
      Latke.drive P [c1, c2, c3, c4, c5, c6, c7]
        (Latke.newSession nI ssid (Latke.genPwfile I P seedRng ucI ecI password idI) .initiator (.preSpecified idB)) adversary []
          = some (trace, LI, LR) ∧
      LI.isDone = true ∧ LI.finalize P = some (idC, key) ∧ idC ≠ idB := by
  intro I
  obtain ⟨m1, m2, qI, qR, k, hc, _, _, _, _, h1, h2⟩ := C20_cake_agreement P E ssid
    (Latke.pakeInput (Latke.genPwfile I P seedRng ucI ecI password idI) .initiator (.preSpecified idB)) c1.pake c2.pake c3.pake hE1
  obtain ⟨trI, sI, sR, kk, hci, _, _, f1, f2⟩ := C31_sigma_agreement P G E hG (seedRng (P.hash256 password)) ucI ucC ecI ecC
    c3.sess c4.sess ssid idI idC _ _ c5.eue.ibke c6.eue.ibke c7.eue.ibke hE2 hpk
  obtain ⟨LI, LR, wire, hd, _, d1, _, g1, _⟩ := latke_agreement_odd I (cakePake P E) P ssid
    (Latke.genPwfile I P seedRng ucI ecI password idI) (Latke.genPwfile I P seedRng ucC ecC password idC)
    ((cakePake P E).new nI ssid (Latke.pakeInput (Latke.genPwfile I P seedRng ucI ecI password idI) .initiator (.preSpecified idB)) .initiator)
    ((cakePake P E).new () ssid (Latke.pakeInput (Latke.genPwfile I P seedRng ucI ecI password idI) .initiator (.preSpecified idB)) .responder)
    [c1, c2] c3 c4 [c5, c6, c7] (by simp) _ qI qR k hc h1 h2 trI sI sR idC idI kk hci f1 f2
  exact ⟨_, LI, LR, _, _, rfl, hd, d1, g1, hne.symm⟩

end Verif.Props
