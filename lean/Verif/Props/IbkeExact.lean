import Verif.Props.PakeExact
import Verif.Props.SigDh
import Verif.Props.Hmqv
import Verif.Props.Fg
import Verif.Props.SigmaR

/-! # C74: the outcome of every call of every IBKE session

For each key exchange, each history of a session and each incoming message: does the call panic, return `Err` or return `Ok`?
A message is described by writing it as a concatenation of fixed-size fields; a message that cannot be written in this way (wrong length, or a
field that is not the encoding of a key) crashes the session. -/

namespace Verif.Props
open Verif Verif.Latke

/-- Outcome of the first call of an initiator: it takes no message. -/
def firstCall (m : Bytes) : Verdict := if m = [] then .ok else .panic

private theorem okCount_none (errs : List Event) (h : ∀ e ∈ errs, e.outcome = none) : okCount errs = 0 := by
  rw [okCount, List.countP_eq_zero]; intro e he; simp [h e he]

private theorem app_inj {a a' b b' : Bytes} (h : a ++ b = a' ++ b') (hl : a.length = a'.length) : a = a' ∧ b = b' :=
  List.append_inj h hl

/-! ## Signed DH -/

/-- `m` is `eph ‖ ephSig ‖ id ‖ pk ‖ dhPk ‖ certSig`, 256 bytes, with a decodable signature key. -/
def SigDhMsg (G : Ed25519) (m : Bytes) (eph : ByteArr 32) (ephSig : ByteArr 64) (id : Id) (pk : G.Pk) (dhPk : ByteArr 32)
    (certSig : ByteArr 64) : Prop :=
  ∃ pkb : ByteArr 32, G.pkFromBytes pkb = some pk ∧ m = eph.1 ++ ephSig.1 ++ (id.1 ++ pkb.1 ++ dhPk.1 ++ certSig.1)

/-- Outcome of a call that receives the peer's message: `Ok` if both signatures verify, `Err` if one does not, a panic if the message is
malformed. -/
def SigDhReceives (G : Ed25519) (mpk : G.Pk) (peerByte : UInt8) (ssid : Ssid) (m : Bytes) (v : Verdict) : Prop :=
  (∀ eph ephSig id pk dhPk certSig, SigDhMsg G m eph ephSig id pk dhPk certSig →
    v = if G.verify mpk (id.1 ++ (G.pkToBytes pk).1 ++ dhPk.1) certSig && G.verify pk ([peerByte] ++ ssid.1 ++ eph.1) ephSig
        then .ok else .err) ∧
  ((∀ eph ephSig id pk dhPk certSig, ¬ SigDhMsg G m eph ephSig id pk dhPk certSig) → v = .panic)

private theorem sigdh_parse {G : Ed25519} {m : Bytes} {eph : ByteArr 32} {ephSig : ByteArr 64} {id : Id} {pk : G.Pk} {dhPk : ByteArr 32}
    {certSig : ByteArr 64} (h : SigDhMsg G m eph ephSig id pk dhPk certSig) :
    IdSigDh.parse G m = some (eph, ephSig, ⟨id, pk, dhPk, certSig⟩) := by
  obtain ⟨pkb, h1, h2⟩ := h
  have hc : SigDhCert.fromBytes (G := G) (id.1 ++ pkb.1 ++ dhPk.1 ++ certSig.1) = some ⟨id, pk, dhPk, certSig⟩ := by
    simp [SigDhCert.fromBytes, splitAt?_append id.2, splitAt?_append pkb.2, splitAt?_append dhPk.2, toArr?_val, h1]
  rw [h2, List.append_assoc]
  simp only [IdSigDh.parse, splitAt?_append eph.2, splitAt?_append ephSig.2, toArr?_val, hc, Option.bind_eq_bind, Option.bind_some, Option.pure_def]

private theorem sigdh_receives {G : Ed25519} {D : X25519} (P : SymPrims) (s : IdSigDh G D) (b : UInt8)
    (h : (s.nextStep = 1 ∧ b = 0) ∨ (s.nextStep = 2 ∧ b = 1 ∧ ∃ x, s.ephSk = some x ∧ s.ephPk = some (D.pub x)))
    (u : D.Sk) (m : Bytes) : SigDhReceives G s.mpk b s.ssid m (verdict (IdSigDh.run P s u m)) := by
  constructor
  · intro eph ephSig id pk dhPk certSig hm
    have hp := sigdh_parse hm
    have e1 : SigDhCert.tbs (G := G) ⟨id, pk, dhPk, certSig⟩ = id.1 ++ (G.pkToBytes pk).1 ++ dhPk.1 := rfl
    have e2 : IdSigDh.ephTbs b s.ssid eph = [b] ++ s.ssid.1 ++ eph.1 := rfl
    rw [← e1, ← e2]
    rcases h with ⟨hn, rfl⟩ | ⟨hn, rfl, x, hx, hX⟩
    · cases h1 : G.verify s.mpk (SigDhCert.tbs (G := G) ⟨id, pk, dhPk, certSig⟩) certSig <;>
        cases h2 : G.verify pk (IdSigDh.ephTbs 0 s.ssid eph) ephSig <;>
        simp [IdSigDh.run, hn, hp, h1, h2, verdict]
    · cases h1 : G.verify s.mpk (SigDhCert.tbs (G := G) ⟨id, pk, dhPk, certSig⟩) certSig <;>
        cases h2 : G.verify pk (IdSigDh.ephTbs 1 s.ssid eph) ephSig <;>
        simp [IdSigDh.run, hn, hp, h1, h2, hx, hX, verdict]
  · intro hm
    have hp : IdSigDh.parse G m = none := by
      cases hp : IdSigDh.parse G m with
      | none => rfl
      | some r =>
        obtain ⟨eph, sig, c⟩ := r
        obtain ⟨pkb, h1, h2⟩ := IdSigDh.parse_eq_some hp
        exact absurd ⟨pkb, h1, h2⟩ (hm eph sig c.id c.sigPk c.dhPk c.sig)
    rcases h with ⟨hn, rfl⟩ | ⟨hn, rfl, x, hx, hX⟩ <;> simp [IdSigDh.run, hn, hp, verdict]

/-- Specification: the outcome of a call after `n` successful calls. -/
def SigDhOutcome (G : Ed25519) (mpk : G.Pk) (ssid : Ssid) (m : Bytes) (v : Verdict) : Role → Nat → Prop
  | .initiator, 0 => v = firstCall m
  | .initiator, 1 => SigDhReceives G mpk 0x01 ssid m v
  | .responder, 0 => SigDhReceives G mpk 0x00 ssid m v
  | _, _ => v = .panic

/-- C74 (Signed DH): the outcome of every call of every history. A well-formed message never crashes a session; a malformed one always
does; a wrong signature is an error and the session can be called again. -/
theorem C74_sigdh_outcome (P : SymPrims) (G : Ed25519) (D : X25519) (ssid : Ssid) (mpk : G.Pk) (cert : SigDhCert G) (usk : G.Sk × D.Sk)
    (role : Role) (t : List Event) (s : IdSigDh G D)
    (h : Trace (IdSigDh.run P) (IdSigDh.newSession ssid mpk cert usk role) t s) (u : D.Sk) (m : Bytes) :
    SigDhOutcome G mpk ssid m (verdict (IdSigDh.run P s u m)) role (okCount t) := by
  cases role with
  | initiator =>
    rcases IdSigDh.trace_inv_init P ssid mpk cert usk t s h with ⟨rfl, rfl⟩ | ⟨x, errs, i, rfl, he, rfl⟩ |
      ⟨x, errs, m', eph, dhPk, id, rfl, he, hacc, rfl⟩
    · show verdict _ = firstCall m
      rw [IdSigDh.step0 P _ rfl]
      unfold firstCall
      split <;> rfl
    · have hc : okCount (⟨[], some (some ((D.pub x).1 ++ (G.sign usk.1 (IdSigDh.ephTbs 0x00 ssid (D.pub x))).1 ++ cert.toBytes))⟩ :: errs) = 1 := by
        have := okCount_none errs he
        simp only [okCount] at this
        simp [okCount, this]
      rw [hc]
      exact sigdh_receives P _ 1 (.inr ⟨rfl, rfl, x, rfl, rfl⟩) u m
    · have hc : okCount (⟨[], some (some ((D.pub x).1 ++ (G.sign usk.1 (IdSigDh.ephTbs 0x00 ssid (D.pub x))).1 ++ cert.toBytes))⟩ :: errs
          ++ [⟨m', some none⟩]) = 2 := by
        have := okCount_none errs he
        simp only [okCount] at this
        simp [okCount, this]
      rw [hc, IdSigDh.run_late P _ (by simp)]
      rfl
  | responder =>
    rcases IdSigDh.trace_inv_resp P ssid mpk cert usk t s h with ⟨i, he, rfl⟩ | ⟨x, errs, m', eph, dhPk, id, rfl, he, hacc, rfl⟩
    · rw [okCount_none t he]
      exact sigdh_receives P _ 0 (.inl ⟨rfl, rfl⟩) u m
    · have hc : okCount (errs ++ [⟨m', some (some ((D.pub x).1 ++ (G.sign usk.1 (IdSigDh.ephTbs 0x01 ssid (D.pub x))).1 ++ cert.toBytes))⟩]) = 1 := by
        have := okCount_none errs he
        simp only [okCount] at this
        simp [okCount, this]
      rw [hc, IdSigDh.run_late P _ (by simp)]
      rfl

/-- Well-formedness in terms of the length: exactly the 256-byte strings whose bytes 128–159 decode to a signature key. -/
theorem C74_sigdh_wellformed_iff (G : Ed25519) (m : Bytes) :
    (∃ eph ephSig id pk dhPk certSig, SigDhMsg G m eph ephSig id pk dhPk certSig) ↔
      ∃ hl : m.length = 256, (G.pkFromBytes ⟨(m.drop 128).take 32, by simp [hl]⟩).isSome = true := by
  constructor
  · rintro ⟨eph, ephSig, id, pk, dhPk, certSig, pkb, h1, rfl⟩
    have hl : (eph.1 ++ ephSig.1 ++ (id.1 ++ pkb.1 ++ dhPk.1 ++ certSig.1)).length = 256 := by
      simp [eph.2, ephSig.2, id.2, pkb.2, dhPk.2, certSig.2]
    refine ⟨hl, ?_⟩
    have e : (((eph.1 ++ ephSig.1 ++ (id.1 ++ pkb.1 ++ dhPk.1 ++ certSig.1)).drop 128).take 32) = pkb.1 := by
      have : eph.1 ++ ephSig.1 ++ (id.1 ++ pkb.1 ++ dhPk.1 ++ certSig.1) = (eph.1 ++ ephSig.1 ++ id.1) ++ (pkb.1 ++ (dhPk.1 ++ certSig.1)) := by
        simp
      rw [this, List.drop_append_of_le_length (by simp [eph.2, ephSig.2, id.2]),
        List.drop_of_length_le (by simp [eph.2, ephSig.2, id.2]), List.nil_append,
        List.take_append_of_le_length (by simp [pkb.2]), List.take_of_length_le (by simp [pkb.2])]
    have : (⟨((eph.1 ++ ephSig.1 ++ (id.1 ++ pkb.1 ++ dhPk.1 ++ certSig.1)).drop 128).take 32, by rw [e]; exact pkb.2⟩ : ByteArr 32) = pkb :=
      Subtype.ext e
    rw [this, h1]; rfl
  · rintro ⟨hl, hk⟩
    obtain ⟨pk, hpk⟩ := Option.isSome_iff_exists.mp hk
    refine ⟨⟨m.take 32, by simp [hl]⟩, ⟨(m.drop 32).take 64, by simp [hl]⟩, ⟨(m.drop 96).take 32, by simp [hl]⟩, pk,
      ⟨(m.drop 160).take 32, by simp [hl]⟩, ⟨m.drop 192, by simp [hl]⟩, _, hpk, ?_⟩
    have h1 : m.drop 160 = (m.drop 160).take 32 ++ m.drop 192 := by
      rw [show m.drop 192 = (m.drop 160).drop 32 by rw [List.drop_drop], List.take_append_drop]
    have h2 : m.drop 128 = (m.drop 128).take 32 ++ m.drop 160 := by
      rw [show m.drop 160 = (m.drop 128).drop 32 by rw [List.drop_drop], List.take_append_drop]
    have h3 : m.drop 96 = (m.drop 96).take 32 ++ m.drop 128 := by
      rw [show m.drop 128 = (m.drop 96).drop 32 by rw [List.drop_drop], List.take_append_drop]
    have h4 : m.drop 32 = (m.drop 32).take 64 ++ m.drop 96 := by
      rw [show m.drop 96 = (m.drop 32).drop 64 by rw [List.drop_drop], List.take_append_drop]
    have h5 : m = m.take 32 ++ m.drop 32 := (List.take_append_drop 32 m).symm
    simp only [List.append_assoc]
    rw [← h1, ← h2, ← h3, ← h4, ← h5]

/-! ## HMQV-C -/

/-- `m` is `ephb ‖ id ‖ upkb ‖ sig`, 160 bytes, with decodable points. -/
def HmqvMsg1 (R : Group) (m : Bytes) (ephb : ByteArr 32) (eph : R.Pt) (id : Id) (upk : R.Pt) (sig : ByteArr 64) : Prop :=
  ∃ upkb : ByteArr 32, R.decompress ephb = some eph ∧ R.decompress upkb = some upk ∧ m = ephb.1 ++ (id.1 ++ upkb.1 ++ sig.1)

/-- `m` is `ephb ‖ mac ‖ id ‖ upkb ‖ sig`, 192 bytes, with decodable points. -/
def HmqvMsg2 (R : Group) (m : Bytes) (ephb : ByteArr 32) (eph : R.Pt) (mac : ByteArr 32) (id : Id) (upk : R.Pt) (sig : ByteArr 64) : Prop :=
  ∃ upkb : ByteArr 32, R.decompress ephb = some eph ∧ R.decompress upkb = some upk ∧ m = ephb.1 ++ mac.1 ++ (id.1 ++ upkb.1 ++ sig.1)

/-- Outcome of a responder's first successful call: only the certificate is checked. -/
def HmqvReceives1 (G : Ed25519) (R : Group) (mpk : G.Pk) (m : Bytes) (v : Verdict) : Prop :=
  (∀ ephb eph id upk sig, HmqvMsg1 R m ephb eph id upk sig →
    v = if G.verify mpk (id.1 ++ (R.compress upk).1) sig then .ok else .err) ∧
  ((∀ ephb eph id upk sig, ¬ HmqvMsg1 R m ephb eph id upk sig) → v = .panic)

/-- Outcome of an initiator's second call: the certificate and the confirmation derived from the own HMQV point are checked. -/
def HmqvReceives2 (P : SymPrims) (G : Ed25519) (R : Group) (mpk : G.Pk) (ssid : Ssid) (x usk : R.Scalar) (own : Id) (m : Bytes) (v : Verdict) : Prop :=
  (∀ ephb eph mac id upk sig, HmqvMsg2 R m ephb eph mac id upk sig →
    v = if G.verify mpk (id.1 ++ (R.compress upk).1) sig = true ∧
          mac = P.hkdfExpand (R.compress (hmqvPoint R x usk own id ephb eph upk)).1 (ssid.1 ++ ascii "mac1") 32
        then .ok else .err) ∧
  ((∀ ephb eph mac id upk sig, ¬ HmqvMsg2 R m ephb eph mac id upk sig) → v = .panic)

private theorem hmqv_receives1 {G : Ed25519} {R : Group} (P : SymPrims) (s : IdHmqvC G R) (hn : s.nextStep = 1) (u : R.Scalar) (m : Bytes) :
    HmqvReceives1 G R s.mpk m (verdict (IdHmqvC.run P s u m)) := by
  constructor
  · rintro ephb eph id upk sig ⟨upkb, h1, h2, rfl⟩
    have hp : IdHmqvC.parse1 R (ephb.1 ++ (id.1 ++ upkb.1 ++ sig.1)) = some (ephb.1, eph, ⟨id, upk, sig⟩) := by
      simp [IdHmqvC.parse1, HmqvCert.fromBytes, splitAt?_append ephb.2, splitAt?_append id.2, splitAt?_append upkb.2, Group.point?, toArr?_val,
        h1, h2]
    have e1 : HmqvCert.tbs (R := R) ⟨id, upk, sig⟩ = id.1 ++ (R.compress upk).1 := rfl
    rw [← e1]
    simp only [IdHmqvC.run, hn, hp]
    cases hv : G.verify s.mpk (HmqvCert.tbs (R := R) ⟨id, upk, sig⟩) sig <;> simp [verdict]
  · intro hm
    have hp : IdHmqvC.parse1 R m = none := by
      cases hp : IdHmqvC.parse1 R m with
      | none => rfl
      | some r =>
        obtain ⟨eb, eph, c⟩ := r
        obtain ⟨ephb, pkb, rfl, h1, h2, h3⟩ := IdHmqvC.parse1_eq_some hp
        exact absurd ⟨pkb, h1, h2, h3⟩ (hm ephb eph c.id c.upk c.sig)
    simp [IdHmqvC.run, hn, hp, verdict]

private theorem hmqv_receives2 {G : Ed25519} {R : Group} (P : SymPrims) (s : IdHmqvC G R) (hn : s.nextStep = 2) (x : R.Scalar)
    (hx : s.ephSk = some x) (hX : s.ephPk = some (x • R.base)) (u : R.Scalar) (m : Bytes) :
    HmqvReceives2 P G R s.mpk s.ssid x s.usk s.myCert.id m (verdict (IdHmqvC.run P s u m)) := by
  constructor
  · rintro ephb eph mac id upk sig ⟨upkb, h1, h2, rfl⟩
    have hp : IdHmqvC.parse2 R (ephb.1 ++ mac.1 ++ (id.1 ++ upkb.1 ++ sig.1)) = some (ephb.1, eph, mac.1, ⟨id, upk, sig⟩) := by
      simp [IdHmqvC.parse2, HmqvCert.fromBytes, splitAt?_append ephb.2, splitAt?_append mac.2, splitAt?_append id.2, splitAt?_append upkb.2,
        Group.point?, toArr?_val, h1, h2]
    have e1 : HmqvCert.tbs (R := R) ⟨id, upk, sig⟩ = id.1 ++ (R.compress upk).1 := rfl
    rw [← e1]
    simp only [IdHmqvC.run, hn, hp, hx, hX]
    cases hv : G.verify s.mpk (HmqvCert.tbs (R := R) ⟨id, upk, sig⟩) sig with
    | false => simp [verdict]
    | true =>
      simp only [Bool.not_true, Bool.false_eq_true, if_false, true_and]
      by_cases hm : mac = P.hkdfExpand (R.compress (hmqvPoint R x s.usk s.myCert.id id ephb eph upk)).1 (s.ssid.1 ++ ascii "mac1") 32
      · rw [if_pos hm, if_neg]
        · rfl
        · exact not_not.2 (congrArg Subtype.val hm)
      · rw [if_neg hm, if_pos]
        · rfl
        · exact fun hc => hm (Subtype.ext hc)
  · intro hm
    have hp : IdHmqvC.parse2 R m = none := by
      cases hp : IdHmqvC.parse2 R m with
      | none => rfl
      | some r =>
        obtain ⟨eb, eph, mac, c⟩ := r
        obtain ⟨ephb, pkb, rfl, h1, h2, h3⟩ := IdHmqvC.parse2_eq_some hp
        have hl : mac.length = 32 := by
          simp only [IdHmqvC.parse2, Option.bind_eq_bind, Option.bind_eq_some_iff, Prod.exists, Option.pure_def, Option.some.injEq, Prod.mk.injEq] at hp
          obtain ⟨a, r1, g1, b, r2, g2, p, g3, c', g4, -, -, rfl, -⟩ := hp
          exact (splitAt?_eq_some g2).2
        exact absurd ⟨pkb, h1, h2, h3⟩ (hm ephb eph ⟨mac, hl⟩ c.id c.upk c.sig)
    simp [IdHmqvC.run, hn, hp, verdict]

/-- C74 (HMQV-C initiator): the first call wants an empty message; after it, with `x` the ephemeral secret whose public part it sent, every
call is decided by `HmqvReceives2` until one succeeds; then every call panics. -/
theorem C74_hmqv_outcome_initiator (P : SymPrims) (G : Ed25519) (R : Group) (ssid : Ssid) (mpk : G.Pk) (cert : HmqvCert R) (usk : R.Scalar)
    (t : List Event) (s : IdHmqvC G R) (h : Trace (IdHmqvC.run P) (IdHmqvC.newSession ssid mpk cert usk .initiator) t s) :
    (okCount t = 0 → ∀ u m, verdict (IdHmqvC.run P s u m) = firstCall m) ∧
    (okCount t = 1 → ∃ x rest, t.head? = some ⟨[], some (some ((R.compress (x • R.base)).1 ++ rest))⟩ ∧
      ∀ u m, HmqvReceives2 P G R mpk ssid x usk cert.id m (verdict (IdHmqvC.run P s u m))) ∧
    (2 ≤ okCount t → ∀ u m, IdHmqvC.run P s u m = .panic) := by
  rcases IdHmqvC.trace_inv_init P ssid mpk cert usk t s h with ⟨rfl, rfl⟩ | ⟨x, errs, i, k, rfl, he, rfl⟩ |
    ⟨x, errs, ephb, upkb, id, sig, eph, upk, rfl, he, h1, h2, h3, rfl⟩
  · refine ⟨fun _ u m => ?_, by simp [okCount], by simp [okCount]⟩
    rw [IdHmqvC.step0 P _ rfl]
    unfold firstCall
    split <;> rfl
  · have := okCount_none errs he
    simp only [okCount] at this
    refine ⟨by simp [okCount], fun _ => ⟨x, _, rfl, fun u m => hmqv_receives2 P _ rfl x rfl rfl u m⟩, by simp [okCount, this]⟩
  · have := okCount_none errs he
    simp only [okCount] at this
    refine ⟨by simp [okCount], by simp [okCount, this], fun _ u m => IdHmqvC.run_late P _ (by simp) u m⟩

/-- C74 (HMQV-C responder): until a well-formed certified message is accepted, every call is decided by `HmqvReceives1`; then, with `x` the
ephemeral secret whose public part it sent, exactly the "mac0" confirmation of the own HMQV point is accepted, everything else — of
any length — is an error; afterwards every call panics. -/
theorem C74_hmqv_outcome_responder (P : SymPrims) (G : Ed25519) (R : Group) (ssid : Ssid) (mpk : G.Pk) (cert : HmqvCert R) (usk : R.Scalar)
    (t : List Event) (s : IdHmqvC G R) (h : Trace (IdHmqvC.run P) (IdHmqvC.newSession ssid mpk cert usk .responder) t s) :
    (okCount t = 0 → ∀ u m, HmqvReceives1 G R mpk m (verdict (IdHmqvC.run P s u m))) ∧
    (okCount t = 1 → ∃ m1 x rest ephb eph id upk sig, ⟨m1, some (some ((R.compress (x • R.base)).1 ++ rest))⟩ ∈ t ∧
      HmqvMsg1 R m1 ephb eph id upk sig ∧
      ∀ u m, verdict (IdHmqvC.run P s u m) =
        if m = (P.hkdfExpand (R.compress (hmqvPoint R x usk cert.id id ephb eph upk)).1 (ssid.1 ++ ascii "mac0") 32).1 then .ok else .err) ∧
    (2 ≤ okCount t → ∀ u m, IdHmqvC.run P s u m = .panic) := by
  rcases IdHmqvC.trace_inv_resp P ssid mpk cert usk t s h with ⟨he, rfl⟩ |
    ⟨x, errs, errs', ephb, upkb, id, sig, eph, upk, he, he', h1, h2, h3, ⟨rfl, rfl⟩ | ⟨rfl, rfl⟩⟩
  · have := okCount_none t he
    exact ⟨fun _ u m => hmqv_receives1 P _ rfl u m, by omega, by omega⟩
  · have c1 := okCount_none errs he
    have c2 := okCount_none errs' he'
    simp only [okCount] at c1 c2
    refine ⟨by simp [okCount], fun _ => ⟨ephb.1 ++ (id.1 ++ upkb.1 ++ sig.1), x,
      (IdHmqvC.derive P ssid (IdHmqvC.sigmaR R x usk cert.id id ephb eph upk)).2.1.1 ++ cert.toBytes, ephb, eph, id, upk, sig, ?_, ⟨upkb, h1, h2, rfl⟩, fun u m => ?_⟩, by simp [okCount, c1, c2]⟩
    · rw [List.mem_append, List.mem_cons]
      exact .inr (.inl (by simp only [List.append_assoc]))
    · rw [IdHmqvC.step3 P _ rfl _ _ rfl]
      show verdict (if m = (P.hkdfExpand (R.compress (hmqvPoint R x usk cert.id id ephb eph upk)).1 (ssid.1 ++ ascii "mac0") 32).1 then _ else _) = _
      split <;> rfl
  · have c1 := okCount_none errs he
    have c2 := okCount_none errs' he'
    simp only [okCount] at c1 c2
    refine ⟨by simp [okCount], by simp [okCount, c1, c2], fun _ u m => IdHmqvC.run_late P _ (by simp) u m⟩

/-! ## FG-IBKE-C -/

/-- `m` is `id ‖ xb ‖ ephb ‖ tail` with decodable points. -/
def FgMsg (R : Group) (m : Bytes) (id : Id) (xb : ByteArr 32) (X eph : R.Pt) (tail : Bytes) : Prop :=
  ∃ ephb : ByteArr 32, R.decompress xb = some X ∧ R.decompress ephb = some eph ∧ m = id.1 ++ xb.1 ++ ephb.1 ++ tail

/-- The 96 bytes derived by a party with ephemeral secret `x` and certificate scalar `xhat` facing `(id, X, eph)` under the main key `mpk`:
bytes 0–31 the initiator's confirmation, 32–63 the responder's, the rest the session key. -/
def fgView (P : SymPrims) (R : Group) (x xhat : R.Scalar) (mpk : R.Pt) (id : Id) (xb : ByteArr 32) (X eph : R.Pt) : Bytes :=
  (P.hkdfExpand ((R.compress (x • eph)).1 ++
      (R.compress ((x + xhat) • (eph + X + R.hashToScalar ([0x02] ++ id.1 ++ xb.1) • mpk))).1) (ascii "fg-expand") 96).1

/-- Outcome of a responder's first call: never an error. -/
def FgReceives1 (R : Group) (mpkb : ByteArr 32) (m : Bytes) (v : Verdict) : Prop :=
  ((∃ id xb X eph mpk, FgMsg R m id xb X eph [] ∧ R.decompress mpkb = some mpk) → v = .ok) ∧
  ((∀ id xb X eph mpk, ¬ (FgMsg R m id xb X eph [] ∧ R.decompress mpkb = some mpk)) → v = .panic)

/-- Outcome of an initiator's second call. The confirmation is everything after byte 96: a wrong length of it is an error, not a panic. -/
def FgReceives2 (P : SymPrims) (R : Group) (mpkb : ByteArr 32) (x xhat : R.Scalar) (m : Bytes) (v : Verdict) : Prop :=
  (∀ id xb X eph mac mpk, FgMsg R m id xb X eph mac → R.decompress mpkb = some mpk →
    v = if mac = ((fgView P R x xhat mpk id xb X eph).drop 32).take 32 then .ok else .err) ∧
  ((∀ id xb X eph mac mpk, ¬ (FgMsg R m id xb X eph mac ∧ R.decompress mpkb = some mpk)) → v = .panic)

/-- C74 (FG initiator). -/
theorem C74_fg_outcome_initiator (P : SymPrims) (R : Group) (ssid : Ssid) (mpkb : ByteArr 32) (cert : FgCert R)
    (t : List Event) (s : FgIbkeC R) (h : Trace (FgIbkeC.run P) (FgIbkeC.newSession ssid mpkb cert .initiator) t s) :
    (okCount t = 0 → ∀ u m, verdict (FgIbkeC.run P s u m) = firstCall m) ∧
    (okCount t = 1 → ∃ x, t.head? = some ⟨[], some (some (cert.id.1 ++ (R.compress cert.X).1 ++ (R.compress (x • R.base)).1))⟩ ∧
      ∀ u m, FgReceives2 P R mpkb x cert.xhat m (verdict (FgIbkeC.run P s u m))) ∧
    (2 ≤ okCount t → ∀ u m, FgIbkeC.run P s u m = .panic) := by
  rcases FgIbkeC.trace_inv_init P ssid mpkb cert t s h with ⟨rfl, rfl⟩ | ⟨x, errs, i, k, rfl, he, rfl⟩ |
    ⟨x, errs, id, xb, ephb, X, eph, mpk, rfl, he, h1, h2, h3, rfl⟩
  · refine ⟨fun _ u m => ?_, by simp [okCount], by simp [okCount]⟩
    rw [FgIbkeC.step0 P _ rfl]
    unfold firstCall
    split <;> rfl
  · have := okCount_none errs he
    simp only [okCount] at this
    refine ⟨by simp [okCount], fun _ => ⟨x, rfl, fun u m => ⟨?_, ?_⟩⟩, by simp [okCount, this]⟩
    · rintro id xb X eph mac mpk ⟨ephb, g1, g2, rfl⟩ g3
      rw [FgIbkeC.step2_of P _ rfl x rfl u id xb ephb X eph mpk mac g1 g2 g3]
      show verdict (if mac = ((fgView P R x cert.xhat mpk id xb X eph).drop 32).take 32 then _ else _) = _
      split <;> rfl
    · intro hm
      by_contra hc
      obtain ⟨id, xb, ephb, X, eph, mpk, mac, g0, g1, g2, g3⟩ := FgIbkeC.step2_shape P (s := { FgIbkeC.newSession ssid mpkb cert .initiator with
              ephSk := some x, ephPk := some (x • R.base), nextStep := 2, transcript := FgIbkeC.hello cert x, outputId := i, sessKey := k })
        rfl (u := u) (m := m) (fun hp => hc (by rw [hp]; rfl))
      exact hm id xb X eph mac mpk ⟨⟨ephb, g1, g2, g0⟩, g3⟩
  · have := okCount_none errs he
    simp only [okCount] at this
    refine ⟨by simp [okCount], by simp [okCount, this], fun _ u m => FgIbkeC.run_late P _ (by simp) u m⟩

/-- C74 (FG responder). -/
theorem C74_fg_outcome_responder (P : SymPrims) (R : Group) (ssid : Ssid) (mpkb : ByteArr 32) (cert : FgCert R)
    (t : List Event) (s : FgIbkeC R) (h : Trace (FgIbkeC.run P) (FgIbkeC.newSession ssid mpkb cert .responder) t s) :
    (okCount t = 0 → ∀ u m, FgReceives1 R mpkb m (verdict (FgIbkeC.run P s u m))) ∧
    (okCount t = 1 → ∃ m1 x mac id xb X eph mpk,
      t.head? = some ⟨m1, some (some (cert.id.1 ++ (R.compress cert.X).1 ++ (R.compress (x • R.base)).1 ++ mac))⟩ ∧
      FgMsg R m1 id xb X eph [] ∧ R.decompress mpkb = some mpk ∧
      ∀ u m, verdict (FgIbkeC.run P s u m) = if m = (fgView P R x cert.xhat mpk id xb X eph).take 32 then .ok else .err) ∧
    (2 ≤ okCount t → ∀ u m, FgIbkeC.run P s u m = .panic) := by
  rcases FgIbkeC.trace_inv_resp P ssid mpkb cert t s h with ⟨rfl, rfl⟩ |
    ⟨x, errs, id, xb, ephb, X, eph, mpk, he, h1, h2, h3, ⟨rfl, rfl⟩ | ⟨rfl, rfl⟩⟩
  · refine ⟨fun _ u m => ⟨?_, ?_⟩, by simp [okCount], by simp [okCount]⟩
    · rintro ⟨id, xb, X, eph, mpk, ⟨ephb, g1, g2, rfl⟩, g3⟩
      rw [List.append_nil, FgIbkeC.step1_of P _ rfl u id xb ephb X eph mpk g1 g2 g3]
      rfl
    · intro hm
      cases hr : FgIbkeC.run P (FgIbkeC.newSession ssid mpkb cert .responder) u m with
      | panic => rfl
      | err s' e => exact absurd hr (FgIbkeC.step1_not_err P rfl)
      | ok s' o =>
        obtain ⟨id, xb, ephb, X, eph, mpk, g0, g1, g2, g3⟩ := FgIbkeC.step1_ok P rfl hr
        exact absurd ⟨⟨ephb, g1, g2, by rw [g0, List.append_nil]⟩, g3⟩ (hm id xb X eph mpk)
  · have c1 := okCount_none errs he
    simp only [okCount] at c1
    refine ⟨by simp [okCount], fun _ => ⟨_, x, _, id, xb, X, eph, mpk, rfl, ⟨ephb, h1, h2, by rw [List.append_nil]⟩, h3, fun u m => ?_⟩,
      by simp [okCount, c1]⟩
    rw [FgIbkeC.step3 P _ rfl _ _ rfl]
    show verdict (if m = (fgView P R x cert.xhat mpk id xb X eph).take 32 then _ else _) = _
    split <;> rfl
  · have c1 := okCount_none errs he
    simp only [okCount] at c1
    refine ⟨by simp [okCount], by simp [okCount, c1], fun _ u m => FgIbkeC.run_late P _ (by simp) u m⟩

/-! ## SIGMA-R -/

/-- The decrypted payload is `sig ‖ mac ‖ id ‖ upkb ‖ csig` with a decodable signature key; `mac` is whatever is left in the middle. -/
def SigmaPayload (G : SigmaScheme) (pt : Bytes) (sig : ByteArr G.sigLen) (mac : Bytes) (id : Id) (upkb : ByteArr G.pkLen) (upk : G.Pk)
    (csig : ByteArr G.sigLen) : Prop :=
  G.pkFromBytes upkb = some upk ∧ pt = sig.1 ++ mac ++ (id.1 ++ upkb.1 ++ csig.1)

/-- Outcome of a call that receives a sealed payload: with `ekey` the encryption key, `mkey` the MAC key, `b` the sender's role byte and `signed` the
session part of the signed string. Too short to be sealed: panic. Not authentic: error. Authentic but too short or with a bad
key inside: panic. Otherwise `Ok` exactly when certificate, signature and MAC are right. -/
def SigmaReceives (P : SymPrims) (G : SigmaScheme) (mpk : G.Pk) (ekey : AuthEncKey) (mkey : ByteArr 32) (b : UInt8) (signed : Bytes)
    (m : Bytes) (v : Verdict) : Prop :=
  (authDecrypt P ekey m = .panic → v = .panic) ∧
  (∀ e, authDecrypt P ekey m = .err e → v = .err) ∧
  (∀ pt, authDecrypt P ekey m = .ok pt →
    (∀ sig mac id upkb upk csig, SigmaPayload G pt sig mac id upkb upk csig →
      v = if G.verify mpk (id.1 ++ (G.pkToBytes upk).1) csig = true ∧
            G.verify upk ([b] ++ signed ++ (id.1 ++ upkb.1 ++ csig.1)) sig = true ∧
            mac = (P.hmac mkey.1 ([b] ++ id.1)).1
          then .ok else .err) ∧
    ((∀ sig mac id upkb upk csig, ¬ SigmaPayload G pt sig mac id upkb upk csig) → v = .panic))

private theorem sigma_verifyPeer {G : SigmaScheme} {E : Kem} (P : SymPrims) (s : IdSigmaR G E) (mkey : ByteArr 32) (b : UInt8) (signed : Bytes)
    (tbs : Bytes → Bytes) (htbs : ∀ c, tbs c = [b] ++ signed ++ c) (pt : Bytes) :
    (∀ sig mac id upkb upk csig, SigmaPayload G pt sig mac id upkb upk csig →
      verdict (IdSigmaR.verifyPeer P s mkey b tbs pt) = if G.verify s.mpk (id.1 ++ (G.pkToBytes upk).1) csig = true ∧
            G.verify upk ([b] ++ signed ++ (id.1 ++ upkb.1 ++ csig.1)) sig = true ∧
            mac = (P.hmac mkey.1 ([b] ++ id.1)).1
          then .ok else .err) ∧
    ((∀ sig mac id upkb upk csig, ¬ SigmaPayload G pt sig mac id upkb upk csig) →
      verdict (IdSigmaR.verifyPeer P s mkey b tbs pt) = .panic) := by
  constructor
  · rintro sig mac id upkb upk csig ⟨h1, rfl⟩
    have hl : (id.1 ++ upkb.1 ++ csig.1).length = SigmaCert.size G := by
      simp [SigmaCert.size, id.2, upkb.2, csig.2]; omega
    have hc : SigmaCert.fromBytes (G := G) (id.1 ++ upkb.1 ++ csig.1) = .ok ⟨id, upk, csig⟩ := by
      unfold SigmaCert.fromBytes
      rw [if_neg (by rw [hl]; simp)]
      simp [splitAt?_append id.2, splitAt?_append upkb.2, toArr?_val, h1]
    have hp : IdSigmaR.parsePayload G (sig.1 ++ mac ++ (id.1 ++ upkb.1 ++ csig.1)) = .ok (sig, mac, id.1 ++ upkb.1 ++ csig.1, ⟨id, upk, csig⟩) := by
      unfold IdSigmaR.parsePayload
      rw [splitEnd?_append hl]
      simp only [Option.bind_eq_bind, Option.bind_some, splitAt?_append sig.2, toArr?_val, Option.pure_def, hc]
    unfold IdSigmaR.verifyPeer
    rw [hp]
    have e1 : SigmaCert.tbs (G := G) ⟨id, upk, csig⟩ = id.1 ++ (G.pkToBytes upk).1 := rfl
    rw [← e1, ← htbs]
    simp only
    cases v1 : G.verify s.mpk (SigmaCert.tbs (G := G) ⟨id, upk, csig⟩) csig with
    | false => simp [verdict]
    | true =>
      cases v2 : G.verify upk (tbs (id.1 ++ upkb.1 ++ csig.1)) sig with
      | false => simp [verdict]
      | true =>
        by_cases hm : mac = (P.hmac mkey.1 ([b] ++ id.1)).1
        · simp [verdict, hm]
        · have hm' : ¬ (P.hmac mkey.1 ([b] ++ id.1)).1 = mac := fun h => hm h.symm
          simp only [Bool.not_true, Bool.false_eq_true, if_false, ne_eq, hm', not_false_eq_true, if_true, true_and, hm]
          rfl
  · intro hm
    unfold IdSigmaR.verifyPeer
    cases hp : IdSigmaR.parsePayload G pt with
    | panic => rfl
    | ok r =>
      obtain ⟨sig, mac, cb, c⟩ := r
      obtain ⟨upkb, g1, rfl, g2⟩ := IdSigmaR.parsePayload_ok hp
      exact absurd ⟨g1, g2⟩ (hm sig mac c.id upkb c.upk c.sig)
    | err e =>
      exfalso
      unfold IdSigmaR.parsePayload at hp
      split at hp
      · simp at hp
      · next sg mc cb hs =>
        simp only [Option.bind_eq_bind, Option.bind_eq_some_iff, Prod.exists, Option.pure_def, Option.some.injEq, Prod.mk.injEq] at hs
        obtain ⟨a, b', g3, s1, m1, g4, sa, g5, rfl, rfl, rfl⟩ := hs
        have hl := (splitEnd?_eq_some g3).2
        split at hp
        · simp at hp
        · next e' hc =>
          unfold SigmaCert.fromBytes at hc
          rw [if_neg (by rw [hl]; simp)] at hc
          split at hc <;> simp at hc
        · simp at hp

/-- C74 (SIGMA-R initiator): empty message first; then exactly the 768-byte messages are accepted and all others crash the session; then, with
`pk`, `sk` the key pair generated in the first call and `ct` the ciphertext received in the second, sealed payloads are decided by `SigmaReceives`
until one is accepted; then every call panics. -/
theorem C74_sigma_outcome_initiator (P : SymPrims) (G : SigmaScheme) (E : Kem) (nA : Nonce) (ssid : Ssid) (mpk : G.Pk) (cert : SigmaCert G)
    (usk : G.Sk) (t : List Event) (s : IdSigmaR G E)
    (h : Trace (IdSigmaR.run P) (IdSigmaR.newSession nA ssid mpk cert usk .initiator) t s) :
    (okCount t = 0 → ∀ u m, verdict (IdSigmaR.run P s u m) = firstCall m) ∧
    (okCount t = 1 → ∀ u m, verdict (IdSigmaR.run P s u m) = if m.length = 768 then .ok else .panic) ∧
    (okCount t = 2 → ∃ kc nB ct m3,
      t.take 2 = [⟨[], some (some (nA.1 ++ (E.pkToBytes (E.keygen kc).1).1))⟩, ⟨nB.1 ++ ct.1, some (some m3)⟩] ∧
      (nB : Nonce).1.length = 32 ∧
      ∀ u m, SigmaReceives P G mpk (P.hkdfExpand (E.decap ct (E.keygen kc).2).1 (ascii "enc_key_b") 64)
        (P.hkdfExpand (E.decap ct (E.keygen kc).2).1 (ascii "mac_key") 32) 0x01
        (nA.1 ++ ssid.1 ++ ct.1 ++ (E.pkToBytes (E.keygen kc).1).1) m (verdict (IdSigmaR.run P s u m))) ∧
    (3 ≤ okCount t → ∀ u m, IdSigmaR.run P s u m = .panic) := by
  rcases IdSigmaR.trace_inv_init P nA ssid mpk cert usk t s h with ⟨rfl, rfl⟩ | ⟨kc, rfl, rfl⟩ |
    ⟨kc, nB, ct, m3, errs, he, ⟨i, rfl, rfl⟩ | ⟨m', pt, id, rfl, hd, hg, rfl⟩⟩
  · refine ⟨fun _ u m => ?_, by simp [okCount], by simp [okCount], by simp [okCount]⟩
    rw [IdSigmaR.step0 P _ rfl nA rfl]
    unfold firstCall
    split <;> rfl
  · refine ⟨by simp [okCount], fun _ u m => ?_, by simp [okCount], by simp [okCount]⟩
    by_cases hm : m.length = 768
    · rw [if_pos hm]
      have e : m = (⟨m.take 32, by simp [hm]⟩ : ByteArr 32).1 ++ (⟨m.drop 32, by simp [hm]⟩ : ByteArr 736).1 := (List.take_append_drop 32 m).symm
      rw [e, IdSigmaR.step2_of P _ rfl (E.keygen kc).1 (E.keygen kc).2 rfl rfl]
      rfl
    · rw [if_neg hm]
      by_contra hc
      obtain ⟨nB, ct, rfl⟩ := IdSigmaR.step2_shape P (s := { IdSigmaR.newSession (E := E) nA ssid mpk cert usk .initiator with
              kemPubkey := some (E.keygen kc).1, kemPrivkey := some (E.keygen kc).2, nextStep := 2 }) rfl (u := u) (m := m)
        (fun hp => hc (by rw [hp]; rfl))
      exact hm (by simp [nB.2, ct.2])
  · have c1 := okCount_none errs he
    simp only [okCount] at c1
    refine ⟨by simp [okCount], by simp [okCount, c1], fun _ => ⟨kc, nB, ct, m3, rfl, nB.2, fun u m => ?_⟩, by simp [okCount, c1]⟩
    have hv := sigma_verifyPeer P (IdSigmaR.initSent P nA ssid mpk cert usk kc nB ct i)
      (P.hkdfExpand (E.decap ct (E.keygen kc).2).1 (ascii "mac_key") 32) 0x01 (nA.1 ++ ssid.1 ++ ct.1 ++ (E.pkToBytes (E.keygen kc).1).1)
      (IdSigmaR.tbsB nA ssid ct (E.pkToBytes (E.keygen kc).1)) (fun c => by simp [IdSigmaR.tbsB])
    have hrun : IdSigmaR.run P (IdSigmaR.initSent P nA ssid mpk cert usk kc nB ct i) u m =
      match authDecrypt P (P.hkdfExpand (E.decap ct (E.keygen kc).2).1 (ascii "enc_key_b") 64) m with
      | .panic => .panic
      | .err _ => .err (IdSigmaR.initSent P nA ssid mpk cert usk kc nB ct i) .mac
      | .ok pt =>
        match IdSigmaR.verifyPeer P (IdSigmaR.initSent P nA ssid mpk cert usk kc nB ct i) (P.hkdfExpand (E.decap ct (E.keygen kc).2).1 (ascii "mac_key") 32)
            0x01 (IdSigmaR.tbsB nA ssid ct (E.pkToBytes (E.keygen kc).1)) pt with
        | .panic => .panic
        | .err s e => .err s e
        | .ok s _ => .ok { s with done := true, nextStep := s.nextStep + 2 } none := rfl
    refine ⟨fun hd => ?_, fun e hd => ?_, fun pt hd => ?_⟩
    · rw [hrun, hd]; rfl
    · rw [hrun, hd]; rfl
    · have hvv : verdict (IdSigmaR.run P (IdSigmaR.initSent P nA ssid mpk cert usk kc nB ct i) u m) =
          verdict (IdSigmaR.verifyPeer P (IdSigmaR.initSent P nA ssid mpk cert usk kc nB ct i) (P.hkdfExpand (E.decap ct (E.keygen kc).2).1 (ascii "mac_key") 32)
            0x01 (IdSigmaR.tbsB nA ssid ct (E.pkToBytes (E.keygen kc).1)) pt) := by
        rw [hrun, hd]
        dsimp only
        generalize IdSigmaR.verifyPeer P (IdSigmaR.initSent P nA ssid mpk cert usk kc nB ct i) _ _ _ pt = r
        cases r <;> rfl
      rw [hvv]
      exact hv pt
  · have c1 := okCount_none errs he
    simp only [okCount] at c1
    refine ⟨by simp [okCount], by simp [okCount, c1], by simp [okCount, c1], fun _ u m => IdSigmaR.run_late P _ (by simp) u m⟩

/-- C74 (SIGMA-R responder): exactly the 704-byte first messages are accepted, all others crash the session; then, with `ss`, `ct` the encapsulation to the
received key, sealed payloads are decided by `SigmaReceives` until one is accepted; then every call panics. -/
theorem C74_sigma_outcome_responder (P : SymPrims) (G : SigmaScheme) (E : Kem) (nB : Nonce) (ssid : Ssid) (mpk : G.Pk) (cert : SigmaCert G)
    (usk : G.Sk) (t : List Event) (s : IdSigmaR G E)
    (h : Trace (IdSigmaR.run P) (IdSigmaR.newSession nB ssid mpk cert usk .responder) t s) :
    (okCount t = 0 → ∀ u m, verdict (IdSigmaR.run P s u m) = if m.length = 704 then .ok else .panic) ∧
    (okCount t = 1 → ∃ ec nA pkb ss ct, E.encap ec (E.pkFromBytes pkb) = (ss, ct) ∧
      t.head? = some ⟨(nA : Nonce).1 ++ pkb.1, some (some (nB.1 ++ ct.1))⟩ ∧
      ∀ u m, SigmaReceives P G mpk (P.hkdfExpand ss.1 (ascii "enc_key_a") 64) (P.hkdfExpand ss.1 (ascii "mac_key") 32) 0x00
        (nB.1 ++ ssid.1 ++ (E.pkToBytes (E.pkFromBytes pkb)).1 ++ ct.1) m (verdict (IdSigmaR.run P s u m))) ∧
    (2 ≤ okCount t → ∀ u m, IdSigmaR.run P s u m = .panic) := by
  rcases IdSigmaR.trace_inv_resp P nB ssid mpk cert usk t s h with ⟨rfl, rfl⟩ |
    ⟨ec, nA, pkb, errs, he, ⟨i, rfl, rfl⟩ | ⟨m', m4, pt, id, rfl, hd, hg, rfl⟩⟩
  · refine ⟨fun _ u m => ?_, by simp [okCount], by simp [okCount]⟩
    by_cases hm : m.length = 704
    · rw [if_pos hm]
      have e : m = (⟨m.take 32, by simp [hm]⟩ : ByteArr 32).1 ++ (⟨m.drop 32, by simp [hm]⟩ : ByteArr 672).1 := (List.take_append_drop 32 m).symm
      rw [e, IdSigmaR.step1_of P _ rfl nB rfl]
      rfl
    · rw [if_neg hm]
      by_contra hc
      obtain ⟨nA, pkb, rfl⟩ := IdSigmaR.step1_shape P (s := IdSigmaR.newSession (E := E) nB ssid mpk cert usk .responder) rfl (u := u) (m := m)
        (fun hp => hc (by rw [hp]; rfl))
      exact hm (by simp [nA.2, pkb.2])
  · have c1 := okCount_none errs he
    simp only [okCount] at c1
    refine ⟨by simp [okCount], fun _ => ⟨ec, nA, pkb, _, _, rfl, rfl, fun u m => ?_⟩, by simp [okCount, c1]⟩
    have hv := sigma_verifyPeer P (IdSigmaR.respSent P nB ssid mpk cert usk ec nA pkb i)
      (P.hkdfExpand (E.encap ec (E.pkFromBytes pkb)).1.1 (ascii "mac_key") 32) 0x00
      (nB.1 ++ ssid.1 ++ (E.pkToBytes (E.pkFromBytes pkb)).1 ++ (E.encap ec (E.pkFromBytes pkb)).2.1)
      (IdSigmaR.tbsA nB ssid (E.pkToBytes (E.pkFromBytes pkb)) (E.encap ec (E.pkFromBytes pkb)).2) (fun c => by simp [IdSigmaR.tbsA])
    have hrun : ∃ f : IdSigmaR G E → Option Bytes, IdSigmaR.run P (IdSigmaR.respSent P nB ssid mpk cert usk ec nA pkb i) u m =
      match authDecrypt P (P.hkdfExpand (E.encap ec (E.pkFromBytes pkb)).1.1 (ascii "enc_key_a") 64) m with
      | .panic => .panic
      | .err _ => .err (IdSigmaR.respSent P nB ssid mpk cert usk ec nA pkb i) .mac
      | .ok pt =>
        match IdSigmaR.verifyPeer P (IdSigmaR.respSent P nB ssid mpk cert usk ec nA pkb i)
            (P.hkdfExpand (E.encap ec (E.pkFromBytes pkb)).1.1 (ascii "mac_key") 32)
            0x00 (IdSigmaR.tbsA nB ssid (E.pkToBytes (E.pkFromBytes pkb)) (E.encap ec (E.pkFromBytes pkb)).2) pt with
        | .panic => .panic
        | .err s e => .err s e
        | .ok s _ => .ok { s with done := true, nextStep := s.nextStep + 2 } (f s) := ⟨_, rfl⟩
    obtain ⟨f, hrun⟩ := hrun
    refine ⟨fun hd => ?_, fun e hd => ?_, fun pt hd => ?_⟩
    · rw [hrun, hd]; rfl
    · rw [hrun, hd]; rfl
    · have hvv : verdict (IdSigmaR.run P (IdSigmaR.respSent P nB ssid mpk cert usk ec nA pkb i) u m) =
          verdict (IdSigmaR.verifyPeer P (IdSigmaR.respSent P nB ssid mpk cert usk ec nA pkb i)
            (P.hkdfExpand (E.encap ec (E.pkFromBytes pkb)).1.1 (ascii "mac_key") 32)
            0x00 (IdSigmaR.tbsA nB ssid (E.pkToBytes (E.pkFromBytes pkb)) (E.encap ec (E.pkFromBytes pkb)).2) pt) := by
        rw [hrun, hd]
        dsimp only
        generalize IdSigmaR.verifyPeer P (IdSigmaR.respSent P nB ssid mpk cert usk ec nA pkb i) _ _ _ pt = r
        cases r <;> rfl
      rw [hvv]
      exact hv pt
  · have c1 := okCount_none errs he
    simp only [okCount] at c1
    refine ⟨by simp [okCount], by simp [okCount, c1], fun _ u m => IdSigmaR.run_late P _ (by simp) u m⟩

/-! ## Concrete histories

All three outcomes occur, after histories with zero, one and more successful calls. -/

/-- Run a list of calls, collecting the outcomes; stops at a panic. -/
def verdicts {σ ε κ : Type} (run : σ → κ → Bytes → Step σ ε (Option Bytes)) : σ → List (κ × Bytes) → List Verdict
  | _, [] => []
  | s, (c, m) :: r => match run s c m with
    | .ok s' _ => .ok :: verdicts run s' r
    | .err s' _ => .err :: verdicts run s' r
    | .panic => [.panic]

/-- The messages of an honest conversation on toy primitives (both sides use the same coin in every call), first the initiator's. -/
def honest {σ ε κ : Type} (run : σ → κ → Bytes → Step σ ε (Option Bytes)) (c : κ) : Nat → σ → σ → Bytes → List Bytes
  | 0, _, _, _ => []
  | n + 1, a, b, m => match run a c m with
    | .ok a' (some o) => o :: honest run c n b a' o
    | _ => []

/-- Signed DH: the honest reply is accepted, the own message echoed back or a garbled signature is an error, a truncated message is a panic. -/
example :
    let I := sigDhIbke toyPrims toyEd toyDh
    let s := fun (u : UInt8) id r => I.newSession () (.rep 32 0) (I.genMain (9 : UInt8)).1
      (I.extract () (9 : UInt8) id (I.genUser (u, u)).1) (u, u) r
    let a := s 3 (.rep 32 1) .initiator
    let b := s 4 (.rep 32 2) .responder
    let c : UInt8 := 11
    let ms := honest I.run c 9 a b []
    ms.length = 2 ∧
    verdicts I.run a [(c, []), (c, ms[0]!), (c, ms[1]!), (c, [])] = [.ok, .err, .ok, .panic] ∧
    verdicts I.run a [(c, [1])] = [.panic] ∧
    verdicts I.run a [(c, []), (c, (ms[1]!).take 255)] = [.ok, .panic] ∧
    verdicts I.run b [(c, ms[1]!), (c, ms[0]!), (c, ms[0]!)] = [.err, .ok, .panic] := by
  decide +kernel

/-- HMQV-C: a wrong confirmation is an error, and the right one is accepted afterwards. -/
example :
    let I := hmqvIbke toyPrims toyEd toyGroup
    let s := fun (u : toyGroup.Scalar) id r => I.newSession () (.rep 32 0) (I.genMain (9 : UInt8)).1
      (I.extract () (9 : UInt8) id (I.genUser u).1) u r
    let a := s (3 : Fin 251) (.rep 32 1) .initiator
    let b := s (4 : Fin 251) (.rep 32 2) .responder
    let c : toyGroup.Scalar := (11 : Fin 251)
    let ms := honest I.run c 9 a b []
    ms.length = 3 ∧
    verdicts I.run a [(c, []), (c, (ms[1]!).take 32 ++ List.replicate 32 (0 : UInt8) ++ (ms[1]!).drop 64), (c, ms[1]!), (c, [])] = [.ok, .err, .ok, .panic] ∧
    verdicts I.run a [(c, []), (c, ms[0]!)] = [.ok, .panic] ∧
    verdicts I.run b [(c, (ms[0]!).take 159 ++ [(0 : UInt8)]), (c, ms[0]!), (c, []), (c, ms[2]!), (c, ms[2]!)] = [.err, .ok, .err, .ok, .panic] := by
  decide +kernel

/-- FG-IBKE-C: a confirmation of the wrong length is an error, a short message a panic. -/
example :
    let I := fgIbke toyPrims toyGroup
    let mc : toyGroup.Scalar := (9 : Fin 251)
    let s := fun (x : toyGroup.Scalar) id r => I.newSession () (.rep 32 0) (I.genMain mc).1 (I.extract x mc id ()) () r
    let a := s (3 : Fin 251) (.rep 32 1) .initiator
    let b := s (4 : Fin 251) (.rep 32 2) .responder
    let c : toyGroup.Scalar := (11 : Fin 251)
    let ms := honest I.run c 9 a b []
    ms.length = 3 ∧
    verdicts I.run a [(c, []), (c, (ms[1]!).take 127), (c, ms[1]!), (c, [])] = [.ok, .err, .ok, .panic] ∧
    verdicts I.run a [(c, []), (c, (ms[1]!).take 95)] = [.ok, .panic] ∧
    verdicts I.run b [(c, ms[0]! ++ [(0 : UInt8)])] = [.panic] ∧
    verdicts I.run b [(c, ms[0]!), (c, []), (c, ms[2]!), (c, ms[2]!)] = [.ok, .err, .ok, .panic] := by
  decide +kernel

/-- SIGMA-R: a sealed payload that does not authenticate is an error, one too short to be sealed a panic. -/
example :
    let I := sigmaIbke toyPrims toySigma toyKem
    let s := fun (u : UInt8) id r => I.newSession (.rep 32 u) (.rep 32 0) (I.genMain (9 : UInt8)).1
      (I.extract () (9 : UInt8) id (I.genUser u).1) u r
    let a := s 3 (.rep 32 1) .initiator
    let b := s 4 (.rep 32 2) .responder
    let c : SigmaCoins toySigma toyKem := ⟨⟨(.rep 672 5 : ByteArr 672), (.rep 32 6 : ByteArr 32)⟩, (), .rep 12 7⟩
    let ms := honest I.run c 9 a b []
    ms.length = 4 ∧
    verdicts I.run a [(c, []), (c, ms[1]!), (c, ms[2]!), (c, ms[3]!), (c, [])] = [.ok, .ok, .err, .ok, .panic] ∧
    verdicts I.run a [(c, []), (c, (ms[1]!).take 767)] = [.ok, .panic] ∧
    verdicts I.run b [(c, ms[0]!), (c, ms[3]!), (c, ms[2]!), (c, ms[2]!)] = [.ok, .err, .ok, .panic] ∧
    verdicts I.run b [(c, ms[0]!), (c, [1])] = [.ok, .panic] := by
  decide +kernel

end Verif.Props
