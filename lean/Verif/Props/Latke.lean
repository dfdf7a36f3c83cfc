import Verif.Latke.LatkeLemmas
import Verif.Latke.Toy

/-! # C12–C19: the LATKE protocol, generic in the PAKE and the IBKE -/

namespace Verif.Props
open Verif Verif.Latke

/-- C12/C18, case "the initiator makes the last PAKE call" (an odd number of PAKE calls, e.g. CAKE and CPace).
If the PAKE alone succeeds with equal keys and the IBKE alone succeeds with equal keys on the coins the LATKE calls use, then
the LATKE driver loop terminates after exactly (PAKE calls + IBKE calls - 1) calls, none of them panicking, both users are done and
they output `(id of the peer, common key)`; the wire carries the PAKE messages followed by the encrypted IBKE messages, and the
key is the KDF of exactly that transcript and the IBKE key. -/
theorem C12_agreement_initiator_ends_pake (I : Ibke) (K : Pake) (P : SymPrims) (ssid : Ssid)
    (pwI pwR : LatkePwfile I) (peerI peerR : PeerModel) (nI nR : K.NewCoins)
    (pre : List (LatkeCoins I K)) (c0 c1 : LatkeCoins I K) (rest : List (LatkeCoins I K))
    (hpar : pre.length % 2 = 0)
    (trP : List Bytes) (qI qR : K.State) (k : SessKey)
    (hP : converse K.run K.isDone ((pre ++ [c0]).map (·.pake))
        (K.new nI ssid (Latke.pakeInput pwI .initiator peerI) .initiator)
        (K.new nR ssid (Latke.pakeInput pwR .responder peerR) .responder) [] = some (trP, qI, qR))
    (hkI : K.finalize qI = some k) (hkR : K.finalize qR = some k)
    (trI : List Bytes) (sI sR : I.State) (idOfR idOfI : Id) (kk : SessKey)
    (hI : converse I.run I.isDone ((c0 :: c1 :: rest).map (·.eue.ibke))
        (I.newSession c0.sess ssid pwI.mpk pwI.cert pwI.usk .initiator)
        (I.newSession c1.sess ssid pwR.mpk pwR.cert pwR.usk .responder) [] = some (trI, sI, sR))
    (hfI : I.finalize sI = some (idOfR, kk)) (hfR : I.finalize sR = some (idOfI, kk)) :
    ∃ LI LR wire, Latke.drive P (pre ++ c0 :: c1 :: rest)
        (Latke.newSession (I := I) (K := K) nI ssid pwI .initiator peerI)
        (Latke.newSession (I := I) (K := K) nR ssid pwR .responder peerR) []
          = some (wire.map some ++ [none], LI, LR) ∧
      wire = trP ++ encryptFrom P k ssid 0 ((c0 :: c1 :: rest).map (·.eue)) trI ∧
      LI.isDone = true ∧ LR.isDone = true ∧
      LI.finalize P = some (idOfR, latkeFinalKey P wire.flatten kk) ∧
      LR.finalize P = some (idOfI, latkeFinalKey P wire.flatten kk) :=
  latke_agreement_odd I K P ssid pwI pwR _ _ pre c0 c1 rest hpar trP qI qR k hP hkI hkR trI sI sR idOfR idOfI kk hI hfI hfR

/-- C12/C18, case "the responder makes the last PAKE call" (an even number of PAKE calls, e.g. KC-SPAKE2): the loop takes exactly
(PAKE calls + IBKE calls) calls. -/
theorem C12_agreement_responder_ends_pake (I : Ibke) (K : Pake) (P : SymPrims) (ssid : Ssid)
    (pwI pwR : LatkePwfile I) (peerI peerR : PeerModel) (nI nR : K.NewCoins)
    (pre : List (LatkeCoins I K)) (c0 c1 : LatkeCoins I K) (rest : List (LatkeCoins I K))
    (hpar : pre.length % 2 = 1)
    (trP : List Bytes) (qI qR : K.State) (k : SessKey)
    (hP : converse K.run K.isDone ((pre ++ [c0]).map (·.pake))
        (K.new nI ssid (Latke.pakeInput pwI .initiator peerI) .initiator)
        (K.new nR ssid (Latke.pakeInput pwR .responder peerR) .responder) [] = some (trP, qI, qR))
    (hkI : K.finalize qI = some k) (hkR : K.finalize qR = some k)
    (trI : List Bytes) (sI sR : I.State) (idOfR idOfI : Id) (kk : SessKey)
    (hI : converse I.run I.isDone ((c1 :: rest).map (·.eue.ibke))
        (I.newSession c1.sess ssid pwI.mpk pwI.cert pwI.usk .initiator)
        (I.newSession c0.sess ssid pwR.mpk pwR.cert pwR.usk .responder) [] = some (trI, sI, sR))
    (hfI : I.finalize sI = some (idOfR, kk)) (hfR : I.finalize sR = some (idOfI, kk)) :
    ∃ LI LR wire, Latke.drive P (pre ++ c0 :: c1 :: rest)
        (Latke.newSession (I := I) (K := K) nI ssid pwI .initiator peerI)
        (Latke.newSession (I := I) (K := K) nR ssid pwR .responder peerR) []
          = some (trP.map some ++ [none] ++
              (encryptFrom P k ssid 0 ((c1 :: rest).map (·.eue)) trI).map some ++ [none], LI, LR) ∧
      wire = trP ++ encryptFrom P k ssid 0 ((c1 :: rest).map (·.eue)) trI ∧
      LI.isDone = true ∧ LR.isDone = true ∧
      LI.finalize P = some (idOfR, latkeFinalKey P wire.flatten kk) ∧
      LR.finalize P = some (idOfI, latkeFinalKey P wire.flatten kk) :=
  latke_agreement_even I K P ssid pwI pwR _ _ pre c0 c1 rest hpar trP qI qR k hP hkI hkR trI sI sR idOfR idOfI kk hI hfI hfR

/-- A history of LATKE calls on one session with arbitrary inputs: the final state and the exchanged messages. -/
def latkeHistory {I : Ibke} {K : Pake} (P : SymPrims) (s : Latke I K) :
    List (LatkeCoins I K × Bytes) → Option (Latke I K × List (Bytes × Option Bytes))
  | [] => some (s, [])
  | (c, inc) :: rest =>
    match s.run P c inc with
    | none => none
    | some (s', out) =>
      match latkeHistory P s' rest with
      | none => none
      | some (sf, tr) => some (sf, (inc, out) :: tr)

/-- The bytes on the wire seen by one party, in order: each incoming message followed by the reply. -/
def wireBytes (tr : List (Bytes × Option Bytes)) : Bytes := (tr.map fun x => x.1 ++ x.2.getD []).flatten

theorem run_transcript {I : Ibke} {K : Pake} {P : SymPrims} {s s' : Latke I K} {c inc out}
    (h : s.run P c inc = some (s', out)) : s'.transcript = s.transcript ++ inc ++ out.getD [] := by
  unfold Latke.run at h
  cases hp : s.pakePhase c inc with
  | none => rw [hp] at h; simp at h
  | some r =>
    obtain ⟨q, j, o⟩ := r
    rw [hp] at h
    simp only at h
    split at h
    · simp at h
    · simp only [Option.some.injEq, Prod.mk.injEq] at h
      obtain ⟨rfl, rfl⟩ := h
      cases inc <;> simp <;> split <;> simp

private theorem history_transcript {I : Ibke} {K : Pake} (P : SymPrims) (hist : List (LatkeCoins I K × Bytes)) :
    ∀ (s sf : Latke I K) (tr), latkeHistory P s hist = some (sf, tr) →
      sf.transcript = s.transcript ++ wireBytes tr := by
  induction hist with
  | nil => intro s sf tr h; simp [latkeHistory] at h; obtain ⟨rfl, rfl⟩ := h; simp [wireBytes]
  | cons x rest ih =>
    obtain ⟨c, inc⟩ := x
    intro s sf tr h
    simp only [latkeHistory] at h
    cases hr : s.run P c inc with
    | none => rw [hr] at h; simp at h
    | some r =>
      obtain ⟨s', out⟩ := r
      rw [hr] at h
      simp only at h
      cases hh : latkeHistory P s' rest with
      | none => rw [hh] at h; simp at h
      | some r2 =>
        obtain ⟨sf', tr'⟩ := r2
        rw [hh] at h
        simp only [Option.some.injEq, Prod.mk.injEq] at h
        obtain ⟨rfl, rfl⟩ := h
        rw [ih _ _ _ hh, run_transcript hr]
        simp [wireBytes, List.append_assoc]

/-- C13: after any history, the key a session finalizes to is the KDF of the bytes it saw on the wire, in order, and the key of the
wrapped IBKE session. -/
theorem C13_key_is_kdf_of_wire {I : Ibke} {K : Pake} (P : SymPrims) (n : K.NewCoins) (ssid : Ssid)
    (pw : LatkePwfile I) (role : Role) (peer : PeerModel) (hist : List (LatkeCoins I K × Bytes))
    (s : Latke I K) (tr : List (Bytes × Option Bytes)) (id : Id) (key : SessKey)
    (h : latkeHistory P (Latke.newSession n ssid pw role peer) hist = some (s, tr))
    (hf : s.finalize P = some (id, key)) :
    ∃ e k, s.ibkeState = some e ∧ I.finalize e.sess = some (id, k) ∧ key = latkeFinalKey P (wireBytes tr) k := by
  have ht := history_transcript P hist _ _ _ h
  simp only [Latke.newSession, List.nil_append] at ht
  unfold Latke.finalize at hf
  cases he : s.ibkeState with
  | none => rw [he] at hf; simp at hf
  | some e =>
    rw [he] at hf
    simp only [Eue.finalize] at hf
    cases hi : I.finalize e.sess with
    | none => rw [hi] at hf; simp at hf
    | some r =>
      obtain ⟨id', k⟩ := r
      rw [hi] at hf
      simp only [Option.some.injEq, Prod.mk.injEq] at hf
      obtain ⟨rfl, rfl⟩ := hf
      exact ⟨e, k, rfl, hi, by rw [ht]⟩

/-- C13: take two sessions (of any parties, after any histories) that finalize to the same key. Let `k₁`, `k₂` be the keys of their IBKE
sessions and `w₁`, `w₂` the bytes they saw on the wire. Then `w₁ = w₂` and `k₁ = k₂` — or the two concrete KDF inputs `w₁ ‖ k₁ ≠ w₂ ‖ k₂` are
an HKDF-extract collision — or the two concrete extracted values differ and are an HKDF-expand collision. -/
theorem C13_key_binds_transcript {I : Ibke} {K : Pake} (P : SymPrims)
    (n₁ n₂ : K.NewCoins) (ssid₁ ssid₂ : Ssid) (pw₁ pw₂ : LatkePwfile I) (role₁ role₂ : Role) (peer₁ peer₂ : PeerModel)
    (hist₁ hist₂ : List (LatkeCoins I K × Bytes)) (s₁ s₂ : Latke I K) (tr₁ tr₂) (id₁ id₂ : Id) (key : SessKey)
    (h₁ : latkeHistory P (Latke.newSession n₁ ssid₁ pw₁ role₁ peer₁) hist₁ = some (s₁, tr₁))
    (h₂ : latkeHistory P (Latke.newSession n₂ ssid₂ pw₂ role₂ peer₂) hist₂ = some (s₂, tr₂))
    (hf₁ : s₁.finalize P = some (id₁, key)) (hf₂ : s₂.finalize P = some (id₂, key)) :
    ∃ (e₁ e₂ : Eue I) (k₁ k₂ : SessKey) (w₁ w₂ : Bytes) (x₁ x₂ : ByteArr 32),
      s₁.ibkeState = some e₁ ∧ I.finalize e₁.sess = some (id₁, k₁) ∧ s₂.ibkeState = some e₂ ∧ I.finalize e₂.sess = some (id₂, k₂) ∧
      w₁ = wireBytes tr₁ ∧ w₂ = wireBytes tr₂ ∧
      x₁ = P.hkdfExtract (ascii "latke-tr-hash") (w₁ ++ k₁.1) ∧ x₂ = P.hkdfExtract (ascii "latke-tr-hash") (w₂ ++ k₂.1) ∧
      ((w₁ = w₂ ∧ k₁ = k₂) ∨ (w₁ ++ k₁.1 ≠ w₂ ++ k₂.1 ∧ x₁ = x₂) ∨
        (x₁ ≠ x₂ ∧ P.hkdfExpand x₁.1 (ascii "latke-final") 32 = P.hkdfExpand x₂.1 (ascii "latke-final") 32)) := by
  obtain ⟨i₁, k₁, a₁, b₁, e₁⟩ := C13_key_is_kdf_of_wire P n₁ ssid₁ pw₁ role₁ peer₁ hist₁ s₁ tr₁ id₁ key h₁ hf₁
  obtain ⟨i₂, k₂, a₂, b₂, e₂⟩ := C13_key_is_kdf_of_wire P n₂ ssid₂ pw₂ role₂ peer₂ hist₂ s₂ tr₂ id₂ key h₂ hf₂
  rw [e₁] at e₂
  unfold latkeFinalKey at e₂
  refine ⟨i₁, i₂, k₁, k₂, _, _, _, _, a₁, b₁, a₂, b₂, rfl, rfl, rfl, rfl, ?_⟩
  by_cases hx : wireBytes tr₁ ++ k₁.1 = wireBytes tr₂ ++ k₂.1
  · left
    obtain ⟨h1, h2⟩ := List.append_inj' hx (by rw [k₁.2, k₂.2])
    exact ⟨h1, Subtype.ext h2⟩
  · right
    by_cases hy : P.hkdfExtract (ascii "latke-tr-hash") (wireBytes tr₁ ++ k₁.1)
        = P.hkdfExtract (ascii "latke-tr-hash") (wireBytes tr₂ ++ k₂.1)
    · exact Or.inl ⟨hx, hy⟩
    · exact Or.inr ⟨hy, e₂⟩

/-- C13: message boundaries are not bound: histories with the same concatenated bytes and the same IBKE key give the same final key. -/
theorem C13_only_concatenation_bound (P : SymPrims) (tr₁ tr₂ : List (Bytes × Option Bytes)) (k : SessKey)
    (h : wireBytes tr₁ = wireBytes tr₂) :
    latkeFinalKey P (wireBytes tr₁) k = latkeFinalKey P (wireBytes tr₂) k := by rw [h]

/-- Two different message sequences with the same concatenation, meeting the hypothesis of the previous theorem. -/
example : wireBytes [([], some [1, 2]), ([3], none)] = wireBytes [([], some [1]), ([2, 3], none)] := by decide

/-- C14: the main public key in a password file depends on the password only. -/
theorem C14_mpk_from_password (I : Ibke) (P : SymPrims) (seedRng : ByteArr 32 → I.MainCoins) (pw : Bytes)
    (uc₁ uc₂ : I.UserCoins) (ec₁ ec₂ : I.ExtractCoins) (id₁ id₂ : Id) :
    (Latke.genPwfile I P seedRng uc₁ ec₁ pw id₁).mpk = (Latke.genPwfile I P seedRng uc₂ ec₂ pw id₂).mpk := rfl

/-- C14: the certificate in a password file is one extracted for the requested id under the private key matching that main public key. -/
theorem C14_cert_is_extracted (I : Ibke) (P : SymPrims) (seedRng : ByteArr 32 → I.MainCoins) (pw : Bytes)
    (uc : I.UserCoins) (ec : I.ExtractCoins) (id : Id) :
    ∃ mpk msk upk usk, I.genMain (seedRng (P.hash256 pw)) = (mpk, msk) ∧ I.genUser uc = (upk, usk) ∧
      Latke.genPwfile I P seedRng uc ec pw id = ⟨mpk, I.extract ec msk id upk, usk⟩ :=
  ⟨_, _, _, _, rfl, rfl, rfl⟩

/-- C15: in the pre-specified model an initiator and a responder use the same PAKE input exactly when they have the same main public
key bytes and each names the identity certified to the other. -/
theorem C15_pake_input_pre (I : Ibke) (pwI pwR : LatkePwfile I) (peerOfI peerOfR : Id)
    (hlen : (I.mpkBytes pwI.mpk).length = (I.mpkBytes pwR.mpk).length) :
    Latke.pakeInput pwI .initiator (.preSpecified peerOfI) = Latke.pakeInput pwR .responder (.preSpecified peerOfR) ↔
      I.mpkBytes pwI.mpk = I.mpkBytes pwR.mpk ∧ peerOfR = I.certId pwI.cert ∧ peerOfI = I.certId pwR.cert := by
  simp only [Latke.pakeInput, reduceCtorEq, if_true, if_false]
  constructor
  · intro h
    obtain ⟨h1, h2⟩ := List.append_inj h (by simp [hlen, (I.certId pwI.cert).2, peerOfR.2])
    obtain ⟨h3, h4⟩ := List.append_inj h1 hlen
    exact ⟨h3, (Subtype.ext h4).symm, Subtype.ext h2⟩
  · rintro ⟨h1, rfl, rfl⟩
    rw [h1]

/-- C15: a pre-specified and a post-specified user never use the same PAKE input. -/
theorem C15_pake_input_models_disjoint (I : Ibke) (pw₁ pw₂ : LatkePwfile I) (r₁ r₂ : Role) (peer : Id)
    (hlen : (I.mpkBytes pw₁.mpk).length = (I.mpkBytes pw₂.mpk).length) :
    Latke.pakeInput pw₁ r₁ (.preSpecified peer) ≠ Latke.pakeInput pw₂ r₂ .postSpecified := by
  intro h
  have := congrArg List.length h
  have hc := (I.certId pw₁.cert).2
  have hp := peer.2
  cases r₁ <;> simp only [Latke.pakeInput, reduceCtorEq, if_true, if_false, List.length_append] at this <;> omega

/-- C15: two users of the same role and key with different named peers never use the same PAKE input. -/
theorem C15_pake_input_injective (I : Ibke) (pw : LatkePwfile I) (r : Role) (p₁ p₂ : Id)
    (h : Latke.pakeInput pw r (.preSpecified p₁) = Latke.pakeInput pw r (.preSpecified p₂)) : p₁ = p₂ := by
  cases r <;> simp only [Latke.pakeInput, reduceCtorEq, if_true, if_false] at h
  · exact Subtype.ext (List.append_cancel_left h)
  · exact Subtype.ext (List.append_cancel_left (List.append_cancel_right h))

/-- C16 (what holds): the identity LATKE reports is exactly the one the wrapped IBKE session reports. -/
theorem C16_reported_id_is_ibke_id {I : Ibke} {K : Pake} (P : SymPrims) (s : Latke I K) (id : Id) (key : SessKey)
    (h : s.finalize P = some (id, key)) :
    ∃ e k, s.ibkeState = some e ∧ I.finalize e.sess = some (id, k) := by
  unfold Latke.finalize at h
  cases he : s.ibkeState with
  | none => rw [he] at h; simp at h
  | some e =>
    rw [he] at h
    simp only [Eue.finalize] at h
    cases hi : I.finalize e.sess with
    | none => rw [hi] at h; simp at h
    | some r =>
      obtain ⟨id', k⟩ := r
      rw [hi] at h
      simp only [Option.some.injEq, Prod.mk.injEq] at h
      exact ⟨e, k, rfl, by rw [hi, h.1]⟩

/-- C16 (negation, for every PAKE and IBKE): an insider who knows the password and holds a certificate for the id `idC` can run the PAKE
with the input of the id `idB` the initiator named (`q0R`), and then the IBKE with its own certificate.  The honest initiator, which
specified `idB` as its peer, completes and reports `idC`. -/
theorem C16_prespecified_peer_not_enforced (I : Ibke) (K : Pake) (P : SymPrims) (ssid : Ssid)
    (pwI pwC : LatkePwfile I) (idB idC : Id) (hne : idB ≠ idC) (nI : K.NewCoins) (nC : K.NewCoins)
    (pre : List (LatkeCoins I K)) (c0 c1 : LatkeCoins I K) (rest : List (LatkeCoins I K))
    (hpar : pre.length % 2 = 0)
    (trP : List Bytes) (qI qR : K.State) (k : SessKey)
    (hP : converse K.run K.isDone ((pre ++ [c0]).map (·.pake))
        (K.new nI ssid (Latke.pakeInput pwI .initiator (.preSpecified idB)) .initiator)
        (K.new nC ssid (I.mpkBytes pwI.mpk ++ (I.certId pwI.cert).1 ++ idB.1) .responder) [] = some (trP, qI, qR))
    (hkI : K.finalize qI = some k) (hkR : K.finalize qR = some k)
    (trI : List Bytes) (sI sR : I.State) (idOfI : Id) (kk : SessKey)
    (hI : converse I.run I.isDone ((c0 :: c1 :: rest).map (·.eue.ibke))
        (I.newSession c0.sess ssid pwI.mpk pwI.cert pwI.usk .initiator)
        (I.newSession c1.sess ssid pwC.mpk pwC.cert pwC.usk .responder) [] = some (trI, sI, sR))
    (hfI : I.finalize sI = some (idC, kk)) (hfR : I.finalize sR = some (idOfI, kk)) :
    ∃ (adversary : Latke I K) (LI LR : Latke I K) (trace : List (Option Bytes)) (key : SessKey),
      Latke.drive P (pre ++ c0 :: c1 :: rest)
        (Latke.newSession nI ssid pwI .initiator (.preSpecified idB)) adversary [] = some (trace, LI, LR) ∧
      LI.isDone = true ∧ LI.finalize P = some (idC, key) ∧ idC ≠ idB := by
  obtain ⟨LI, LR, wire, h1, _, h2, _, h3, _⟩ :=
    latke_agreement_odd I K P ssid pwI pwC _ _ pre c0 c1 rest hpar trP qI qR k hP hkI hkR trI sI sR idC idOfI kk hI hfI hfR
  exact ⟨_, LI, LR, _, _, h1, h2, h3, hne.symm⟩

/-- States of a LATKE session reachable with arbitrary incoming messages. -/
inductive LatkeReach {I : Ibke} {K : Pake} (P : SymPrims) (s0 : Latke I K) : Latke I K → Prop
  | start : LatkeReach P s0 s0
  | step {s s' c inc out} : LatkeReach P s0 s → s.run P c inc = some (s', out) → LatkeReach P s0 s'

/-- C19: a LATKE call that returns (does not panic) made only successful sub-protocol calls: the PAKE step returned `Ok` if the PAKE was
not done, and otherwise the encrypted IBKE step on the incoming message returned `Ok`; its output is what LATKE sends. -/
theorem C19_no_return_after_error {I : Ibke} {K : Pake} (P : SymPrims) (s s' : Latke I K) (c : LatkeCoins I K)
    (inc : Bytes) (out : Option Bytes) (h : s.run P c inc = some (s', out)) :
    (K.isDone s.pakeState = false → ∃ o, K.run s.pakeState c.pake inc = .ok s'.pakeState o) ∧
    (K.isDone s.pakeState = true → s'.pakeState = s.pakeState ∧
      ∃ e e', s.getEue P s.pakeState c = some e ∧ e.run P c.eue inc = .ok e' out ∧ s'.ibkeState = some e') := by
  unfold Latke.run at h
  cases hp : s.pakePhase c inc with
  | none => rw [hp] at h; simp at h
  | some r =>
    obtain ⟨q, j, o⟩ := r
    rw [hp] at h
    simp only at h
    unfold Latke.pakePhase at hp
    constructor
    · intro hd
      simp only [hd, Bool.not_false, if_true] at hp
      cases hk : K.run s.pakeState c.pake inc with
      | panic => rw [hk] at hp; simp at hp
      | err _ _ => rw [hk] at hp; simp at hp
      | ok q1 o1 =>
        rw [hk] at hp
        simp only [Option.some.injEq, Prod.mk.injEq] at hp
        obtain ⟨rfl, rfl, rfl⟩ := hp
        refine ⟨o1, ?_⟩
        split at h
        · simp at h
        · simp only [Option.some.injEq, Prod.mk.injEq] at h
          rw [← h.1]
    · intro hd
      simp only [hd, Bool.not_true, Bool.false_eq_true, if_false, Option.some.injEq, Prod.mk.injEq] at hp
      obtain ⟨rfl, rfl, rfl⟩ := hp
      simp only [Bool.false_eq_true, if_false] at h
      cases hg : s.getEue P s.pakeState c with
      | none => rw [hg] at h; simp at h
      | some e =>
        rw [hg] at h
        cases hr : e.run P c.eue inc with
        | panic => simp [hr] at h
        | err _ _ => simp [hr] at h
        | ok e' o' =>
          simp only [hr, Option.some.injEq, Prod.mk.injEq] at h
          obtain ⟨rfl, rfl⟩ := h
          exact ⟨rfl, e, e', rfl, hr, rfl⟩

/-- C17: if the PAKE is done whenever it has nothing to send, then in every reachable state of a LATKE session an IBKE session exists only
if the PAKE is done, and the session is done only if both the PAKE and the IBKE are. -/
theorem C17_ibke_only_after_pake {I : Ibke} {K : Pake} (P : SymPrims)
    (hnone : ∀ q c inc q', K.run q c inc = .ok q' none → K.isDone q' = true)
    (n : K.NewCoins) (ssid : Ssid) (pw : LatkePwfile I) (role : Role) (peer : PeerModel) (s : Latke I K)
    (h : LatkeReach P (Latke.newSession n ssid pw role peer) s) :
    (∀ e, s.ibkeState = some e → K.isDone s.pakeState = true) ∧
    (s.isDone = true → K.isDone s.pakeState = true ∧ ∃ e, s.ibkeState = some e ∧ I.isDone e.sess = true) := by
  have key : ∀ e, s.ibkeState = some e → K.isDone s.pakeState = true := by
    induction h with
    | start => intro e he; simp [Latke.newSession] at he
    | @step s s' c inc out _ hrun ih =>
      intro e he
      cases hd : K.isDone s.pakeState with
      | true =>
        have := ((C19_no_return_after_error P s s' c inc out hrun).2 hd).1
        rw [this]; exact hd
      | false =>
        obtain ⟨o, ho⟩ := (C19_no_return_after_error P s s' c inc out hrun).1 hd
        cases o with
        | none => exact hnone _ _ _ _ ho
        | some m =>
          -- the PAKE sent something: the IBKE state did not change, so it was there before: contradiction
          unfold Latke.run Latke.pakePhase at hrun
          simp only [hd, Bool.not_false, if_true, ho, Option.some.injEq, Prod.mk.injEq] at hrun
          rw [← hrun.1] at he
          have := ih e he
          rw [hd] at this
          simp at this
  refine ⟨key, ?_⟩
  intro hd
  unfold Latke.isDone at hd
  cases he : s.ibkeState with
  | none => rw [he] at hd; simp at hd
  | some e =>
    rw [he] at hd
    exact ⟨key e he, e, rfl, hd⟩

end Verif.Props
