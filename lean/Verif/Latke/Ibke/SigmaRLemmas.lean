import Verif.Latke.Ibke.SigmaR
import Verif.Props.AuthEnc
import Mathlib.Tactic.ByContra
import Mathlib.Logic.Basic

/-! # Helper lemmas about the SIGMA-R model -/

namespace Verif.Latke
variable {G : SigmaScheme} {E : Kem}

theorem SigmaCert.length_toBytes (c : SigmaCert G) : c.toBytes.length = SigmaCert.size G := by
  simp [SigmaCert.toBytes, SigmaCert.size, c.id.2, (G.pkToBytes c.upk).2, c.sig.2]; omega

theorem SigmaCert.fromBytes_toBytes (hG : ∀ pk, G.pkFromBytes (G.pkToBytes pk) = some pk) (c : SigmaCert G) :
    SigmaCert.fromBytes c.toBytes = .ok c := by
  have hl := c.length_toBytes
  unfold SigmaCert.fromBytes
  rw [if_neg (by simp [hl])]
  simp [SigmaCert.toBytes, splitAt?_append c.id.2, splitAt?_append (G.pkToBytes c.upk).2, toArr?_val, hG]

theorem SigmaCert.fromBytes_ok {b : Bytes} {c : SigmaCert G} (h : SigmaCert.fromBytes b = .ok c) :
    ∃ upkb : ByteArr G.pkLen, G.pkFromBytes upkb = some c.upk ∧ b = c.id.1 ++ upkb.1 ++ c.sig.1 := by
  unfold SigmaCert.fromBytes at h
  split at h
  · simp at h
  · split at h
    · next c' hs =>
      simp only [Res.ok.injEq] at h
      subst h
      simp only [Option.bind_eq_bind, Option.bind_eq_some_iff, Prod.exists, Option.pure_def, Option.some.injEq] at hs
      obtain ⟨i, r1, g1, ub, sb, g2, ua, g3, u, g4, sg, g5, ia, g6, rfl⟩ := hs
      refine ⟨ua, g4, ?_⟩
      rw [(splitAt?_eq_some g1).1, (splitAt?_eq_some g2).1, toArr?_eq_some g3]
      simp only [toArr?_eq_some g6, toArr?_eq_some g5]
      simp
    · simp at h

namespace IdSigmaR

theorem parsePayload_msg (hG : ∀ pk, G.pkFromBytes (G.pkToBytes pk) = some pk) (sig : ByteArr G.sigLen) (mac : ByteArr 32) (c : SigmaCert G) :
    parsePayload G (sig.1 ++ mac.1 ++ c.toBytes) = .ok (sig, mac.1, c.toBytes, c) := by
  simp [parsePayload, splitEnd?_append c.length_toBytes, splitAt?_append sig.2, toArr?_val, SigmaCert.fromBytes_toBytes hG,
    -List.append_assoc]

theorem parsePayload_ok {pt : Bytes} {sig : ByteArr G.sigLen} {mac cb : Bytes} {c : SigmaCert G}
    (h : parsePayload G pt = .ok (sig, mac, cb, c)) :
    ∃ upkb : ByteArr G.pkLen, G.pkFromBytes upkb = some c.upk ∧ cb = c.id.1 ++ upkb.1 ++ c.sig.1 ∧
      pt = sig.1 ++ mac ++ cb := by
  unfold parsePayload at h
  split at h
  · simp at h
  · next sg m cb' hs =>
    split at h
    · simp at h
    · simp at h
    · next c' hc =>
      simp only [Res.ok.injEq, Prod.mk.injEq] at h
      obtain ⟨rfl, rfl, rfl, rfl⟩ := h
      obtain ⟨upkb, g1, g2⟩ := SigmaCert.fromBytes_ok hc
      simp only [Option.bind_eq_bind, Option.bind_eq_some_iff, Prod.exists, Option.pure_def, Option.some.injEq, Prod.mk.injEq] at hs
      obtain ⟨a, b, g3, s1, m1, g4, sa, g5, rfl, rfl, rfl⟩ := hs
      refine ⟨upkb, g1, g2, ?_⟩
      rw [(splitEnd?_eq_some g3).1, (splitAt?_eq_some g4).1, toArr?_eq_some g5]

variable (P : SymPrims)

/-- What `verifyPeer` accepts. -/
def GoodPayload (mpk : G.Pk) (macKey : ByteArr 32) (b : UInt8) (tbs : Bytes → Bytes) (pt : Bytes) (id : Id) : Prop :=
  ∃ (sig csig : ByteArr G.sigLen) (upkb : ByteArr G.pkLen) (upk : G.Pk),
    G.pkFromBytes upkb = some upk ∧
    pt = sig.1 ++ (P.hmac macKey.1 ([b] ++ id.1)).1 ++ (id.1 ++ upkb.1 ++ csig.1) ∧
    G.verify mpk (id.1 ++ (G.pkToBytes upk).1) csig = true ∧
    G.verify upk (tbs (id.1 ++ upkb.1 ++ csig.1)) sig = true

theorem verifyPeer_ok {s s' : IdSigmaR G E} {macKey : ByteArr 32} {b : UInt8} {tbs : Bytes → Bytes} {pt : Bytes} {o}
    (h : verifyPeer P s macKey b tbs pt = .ok s' o) :
    ∃ id, GoodPayload P s.mpk macKey b tbs pt id ∧ s' = { s with outputId := some id } := by
  unfold verifyPeer at h
  split at h
  · simp at h
  · simp at h
  · next sig mac cb c hp =>
    obtain ⟨upkb, g1, rfl, rfl⟩ := parsePayload_ok hp
    simp only at h
    split at h
    · simp at h
    · next v1 =>
      split at h
      · simp at h
      · next v2 =>
        split at h
        · simp at h
        · next v3 =>
          simp only [Step.ok.injEq] at h
          refine ⟨c.id, ⟨sig, c.sig, upkb, c.upk, g1, ?_, by simpa [SigmaCert.tbs] using v1, by simpa using v2⟩, h.1.symm⟩
          rw [not_not.1 v3]

theorem verifyPeer_err {s s' : IdSigmaR G E} {macKey : ByteArr 32} {b : UInt8} {tbs : Bytes → Bytes} {pt : Bytes} {e}
    (h : verifyPeer P s macKey b tbs pt = .err s' e) : ∃ i, s' = { s with outputId := i } := by
  unfold verifyPeer at h
  split at h
  · simp at h
  · simp only [Step.err.injEq] at h
    exact ⟨s.outputId, h.1.symm⟩
  · next sig mac cb c hp =>
    simp only at h
    repeat' split at h
    all_goals first
      | (simp only [Step.err.injEq] at h; exact ⟨_, h.1.symm⟩)
      | simp at h

theorem verifyPeer_msg (hG : ∀ pk, G.pkFromBytes (G.pkToBytes pk) = some pk) (s : IdSigmaR G E) (macKey : ByteArr 32) (b : UInt8)
    (tbs : Bytes → Bytes) (sig : ByteArr G.sigLen) (c : SigmaCert G)
    (h1 : G.verify s.mpk c.tbs c.sig = true) (h2 : G.verify c.upk (tbs c.toBytes) sig = true) :
    verifyPeer P s macKey b tbs (sig.1 ++ (P.hmac macKey.1 ([b] ++ c.id.1)).1 ++ c.toBytes)
      = .ok { s with outputId := some c.id } () := by
  unfold verifyPeer
  rw [parsePayload_msg hG]
  simp [h1, h2]

theorem run_late (s : IdSigmaR G E) (h : 5 ≤ s.nextStep) (u : SigmaCoins G E) (m : Bytes) : run P s u m = .panic := by
  obtain ⟨n, hn⟩ : ∃ n, s.nextStep = n + 5 := ⟨s.nextStep - 5, by omega⟩
  simp [run, hn]

theorem step0 (s : IdSigmaR G E) (h : s.nextStep = 0) (nonceA : Nonce) (hn : s.nonceA = some nonceA) (u : SigmaCoins G E)
    (m : Bytes) :
    run P s u m = if m = [] then
      .ok { s with kemPubkey := some (E.keygen u.kem.key).1, kemPrivkey := some (E.keygen u.kem.key).2, nextStep := 2 }
        (some (nonceA.1 ++ (E.pkToBytes (E.keygen u.kem.key).1).1))
    else .panic := by
  by_cases hm : m = [] <;> simp [run, h, hm, hn]

/-- State updates of the steps that derive keys. -/
def withKeys (s : IdSigmaR G E) (ct : ByteArr 736) (ss : ByteArr 32) : IdSigmaR G E :=
  { s with encappedKey := some ct, outputKey := some (P.hkdfExpand ss.1 (ascii "output_key") 32)
           macKey := some (P.hkdfExpand ss.1 (ascii "mac_key") 32)
           encKeys := some (P.hkdfExpand ss.1 (ascii "enc_key_a") 64, P.hkdfExpand ss.1 (ascii "enc_key_b") 64) }

theorem step1_of (s : IdSigmaR G E) (h : s.nextStep = 1) (nonceB : Nonce) (hn : s.nonceB = some nonceB) (u : SigmaCoins G E)
    (nonceA : Nonce) (pkb : ByteArr 672) :
    run P s u (nonceA.1 ++ pkb.1) =
      .ok { withKeys P s (E.encap u.kem.enc (E.pkFromBytes pkb)).2 (E.encap u.kem.enc (E.pkFromBytes pkb)).1 with
              nonceA := some nonceA, kemPubkey := some (E.pkFromBytes pkb), nextStep := 3 }
        (some (nonceB.1 ++ (E.encap u.kem.enc (E.pkFromBytes pkb)).2.1)) := by
  simp [run, h, hn, splitAt?_append nonceA.2, toArr?_val, derive, withKeys]

theorem step1_shape {s : IdSigmaR G E} (h : s.nextStep = 1) {u : SigmaCoins G E} {m : Bytes} (hr : run P s u m ≠ .panic) :
    ∃ (nonceA : Nonce) (pkb : ByteArr 672), m = nonceA.1 ++ pkb.1 := by
  by_contra hcon
  apply hr
  simp only [run, h]
  split
  · rfl
  · next hs =>
    exfalso
    simp only [Option.bind_eq_bind, Option.bind_eq_some_iff, Prod.exists, Option.pure_def, Option.some.injEq, Prod.mk.injEq] at hs
    obtain ⟨a, b, g1, na, g2, pk, g3, nb, g4, _⟩ := hs
    exact hcon ⟨na, pk, by rw [(splitAt?_eq_some g1).1, toArr?_eq_some g2, toArr?_eq_some g3]⟩

theorem step2_of (s : IdSigmaR G E) (h : s.nextStep = 2) (pk : E.Pk) (sk : E.Sk) (h1 : s.kemPubkey = some pk)
    (h2 : s.kemPrivkey = some sk) (u : SigmaCoins G E) (nonceB : Nonce) (ct : ByteArr 736) :
    run P s u (nonceB.1 ++ ct.1) =
      .ok { withKeys P s ct (E.decap ct sk) with nonceB := some nonceB, nextStep := 4 }
        (some (authEncrypt P u.ae (P.hkdfExpand (E.decap ct sk).1 (ascii "enc_key_a") 64)
          ((G.sign u.sign s.sigPrivkey (tbsA nonceB s.ssid (E.pkToBytes pk) ct s.cert.toBytes)).1
            ++ (P.hmac (P.hkdfExpand (E.decap ct sk).1 (ascii "mac_key") 32).1 ([0x00] ++ s.cert.id.1)).1 ++ s.cert.toBytes))) := by
  simp [run, h, h1, h2, splitAt?_append nonceB.2, toArr?_val, derive, withKeys, -List.append_assoc]

theorem step2_shape {s : IdSigmaR G E} (h : s.nextStep = 2) {u : SigmaCoins G E} {m : Bytes} (hr : run P s u m ≠ .panic) :
    ∃ (nonceB : Nonce) (ct : ByteArr 736), m = nonceB.1 ++ ct.1 := by
  by_contra hcon
  apply hr
  simp only [run, h]
  split
  · rfl
  · next hs =>
    exfalso
    simp only [Option.bind_eq_bind, Option.bind_eq_some_iff, Prod.exists, Option.pure_def, Option.some.injEq, Prod.mk.injEq] at hs
    obtain ⟨a, b, g1, na, g2, pk, g3, _⟩ := hs
    exact hcon ⟨pk, na, by rw [(splitAt?_eq_some g1).1, toArr?_eq_some g2, toArr?_eq_some g3]⟩

/-- The responder's sealed reply. -/
def reply (s : IdSigmaR G E) (u : SigmaCoins G E) (encB : AuthEncKey) (macKey : ByteArr 32) (nonceA : Nonce) (ct : ByteArr 736)
    (pk : E.Pk) : Bytes :=
  authEncrypt P u.ae encB ((G.sign u.sign s.sigPrivkey (tbsB nonceA s.ssid ct (E.pkToBytes pk) s.cert.toBytes)).1
    ++ (P.hmac macKey.1 ([0x01] ++ s.cert.id.1)).1 ++ s.cert.toBytes)

theorem step3_ok {s s' : IdSigmaR G E} (h : s.nextStep = 3) {encA encB : AuthEncKey} {nonceA nonceB : Nonce} {pk : E.Pk}
    {ct : ByteArr 736} {macKey : ByteArr 32} (h1 : s.encKeys = some (encA, encB)) (h2 : s.nonceA = some nonceA)
    (h3 : s.nonceB = some nonceB) (h4 : s.kemPubkey = some pk) (h5 : s.encappedKey = some ct) (h6 : s.macKey = some macKey)
    {u : SigmaCoins G E} {m : Bytes} {o} (hr : run P s u m = .ok s' o) :
    ∃ pt id, authDecrypt P encA m = .ok pt ∧
      GoodPayload P s.mpk macKey 0x00 (tbsA nonceB s.ssid (E.pkToBytes pk) ct) pt id ∧
      s' = { s with outputId := some id, done := true, nextStep := 5 } ∧
      o = some (reply P s u encB macKey nonceA ct pk) := by
  simp only [run, h, h1, h2, h3, h4, h5, h6] at hr
  split at hr
  · simp at hr
  · simp at hr
  · next pt hp =>
    split at hr
    · simp at hr
    · simp at hr
    · next s'' _ hv =>
      simp only [Step.ok.injEq] at hr
      obtain ⟨id, hg, rfl⟩ := verifyPeer_ok P hv
      refine ⟨pt, id, hp, hg, ?_, hr.2.symm⟩
      rw [← hr.1]; simp [h, h1, h2, h3, h4, h5, h6]

theorem step3_err {s s' : IdSigmaR G E} (h : s.nextStep = 3) {encA encB : AuthEncKey} {nonceA nonceB : Nonce} {pk : E.Pk}
    {ct : ByteArr 736} {macKey : ByteArr 32} (h1 : s.encKeys = some (encA, encB)) (h2 : s.nonceA = some nonceA)
    (h3 : s.nonceB = some nonceB) (h4 : s.kemPubkey = some pk) (h5 : s.encappedKey = some ct) (h6 : s.macKey = some macKey)
    {u : SigmaCoins G E} {m : Bytes} {o} (hr : run P s u m = .err s' o) : ∃ i, s' = { s with outputId := i } := by
  simp only [run, h, h1, h2, h3, h4, h5, h6] at hr
  split at hr
  · simp at hr
  · simp only [Step.err.injEq] at hr
    exact ⟨s.outputId, hr.1.symm⟩
  · next pt hp =>
    split at hr
    · simp at hr
    · next hv =>
      simp only [Step.err.injEq] at hr
      obtain ⟨i, rfl⟩ := verifyPeer_err P hv
      exact ⟨i, hr.1.symm⟩
    · simp at hr

theorem step4_ok {s s' : IdSigmaR G E} (h : s.nextStep = 4) {encA encB : AuthEncKey} {nonceA : Nonce} {pk : E.Pk}
    {ct : ByteArr 736} {macKey : ByteArr 32} (h1 : s.encKeys = some (encA, encB)) (h2 : s.nonceA = some nonceA)
    (h4 : s.kemPubkey = some pk) (h5 : s.encappedKey = some ct) (h6 : s.macKey = some macKey)
    {u : SigmaCoins G E} {m : Bytes} {o} (hr : run P s u m = .ok s' o) :
    ∃ pt id, authDecrypt P encB m = .ok pt ∧
      GoodPayload P s.mpk macKey 0x01 (tbsB nonceA s.ssid ct (E.pkToBytes pk)) pt id ∧
      s' = { s with outputId := some id, done := true, nextStep := 6 } ∧ o = none := by
  simp only [run, h, h1, h2, h4, h5, h6] at hr
  split at hr
  · simp at hr
  · simp at hr
  · next pt hp =>
    split at hr
    · simp at hr
    · simp at hr
    · next s'' _ hv =>
      simp only [Step.ok.injEq] at hr
      obtain ⟨id, hg, rfl⟩ := verifyPeer_ok P hv
      refine ⟨pt, id, hp, hg, ?_, hr.2.symm⟩
      rw [← hr.1]; simp [h, h1, h2, h4, h5, h6]

theorem step4_err {s s' : IdSigmaR G E} (h : s.nextStep = 4) {encA encB : AuthEncKey} {nonceA : Nonce} {pk : E.Pk}
    {ct : ByteArr 736} {macKey : ByteArr 32} (h1 : s.encKeys = some (encA, encB)) (h2 : s.nonceA = some nonceA)
    (h4 : s.kemPubkey = some pk) (h5 : s.encappedKey = some ct) (h6 : s.macKey = some macKey)
    {u : SigmaCoins G E} {m : Bytes} {o} (hr : run P s u m = .err s' o) : ∃ i, s' = { s with outputId := i } := by
  simp only [run, h, h1, h2, h4, h5, h6] at hr
  split at hr
  · simp at hr
  · simp only [Step.err.injEq] at hr
    exact ⟨s.outputId, hr.1.symm⟩
  · next pt hp =>
    split at hr
    · simp at hr
    · next hv =>
      simp only [Step.err.injEq] at hr
      obtain ⟨i, rfl⟩ := verifyPeer_err P hv
      exact ⟨i, hr.1.symm⟩
    · simp at hr

/-- Initiator after its second message. -/
def initSent (n : Nonce) (ssid : Ssid) (mpk : G.Pk) (cert : SigmaCert G) (usk : G.Sk) (kc : E.KeyCoins) (nonceB : Nonce)
    (ct : ByteArr 736) (i : Option Id) : IdSigmaR G E :=
  { withKeys P (newSession (E := E) n ssid mpk cert usk .initiator) ct (E.decap ct (E.keygen kc).2) with
      kemPubkey := some (E.keygen kc).1, kemPrivkey := some (E.keygen kc).2, nonceB := some nonceB, nextStep := 4, outputId := i }

/-- Where an initiator can be after a history. -/
theorem trace_inv_init (n : Nonce) (ssid : Ssid) (mpk : G.Pk) (cert : SigmaCert G) (usk : G.Sk) (t : List Event)
    (s : IdSigmaR G E) (h : Trace (run P) (newSession n ssid mpk cert usk .initiator) t s) :
    (t = [] ∧ s = newSession n ssid mpk cert usk .initiator) ∨
    (∃ kc, t = [⟨[], some (some (n.1 ++ (E.pkToBytes (E.keygen kc).1).1))⟩] ∧
      s = { newSession (E := E) n ssid mpk cert usk .initiator with
              kemPubkey := some (E.keygen kc).1, kemPrivkey := some (E.keygen kc).2, nextStep := 2 }) ∨
    (∃ kc nonceB ct m3 errs, (∀ e ∈ errs, e.outcome = none) ∧
      ((∃ i, t = ⟨[], some (some (n.1 ++ (E.pkToBytes (E.keygen kc).1).1))⟩ :: ⟨nonceB.1 ++ ct.1, some (some m3)⟩ :: errs ∧
        s = initSent P n ssid mpk cert usk kc nonceB ct i) ∨
       (∃ m pt id, t = ⟨[], some (some (n.1 ++ (E.pkToBytes (E.keygen kc).1).1))⟩ :: ⟨nonceB.1 ++ ct.1, some (some m3)⟩ :: errs
          ++ [⟨m, some none⟩] ∧
        authDecrypt P (P.hkdfExpand (E.decap ct (E.keygen kc).2).1 (ascii "enc_key_b") 64) m = .ok pt ∧
        GoodPayload P mpk (P.hkdfExpand (E.decap ct (E.keygen kc).2).1 (ascii "mac_key") 32) 0x01
          (tbsB n ssid ct (E.pkToBytes (E.keygen kc).1)) pt id ∧
        s = { initSent P n ssid mpk cert usk kc nonceB ct (some id) with done := true, nextStep := 6 }))) := by
  induction h with
  | nil => simp
  | @ok t s u m s' o _ hr ih =>
    rcases ih with ⟨rfl, rfl⟩ | ⟨kc, rfl, rfl⟩ | ⟨kc, nonceB, ct, m3, errs, he, ⟨i, rfl, rfl⟩ | ⟨m', pt, id, rfl, hd, hg, rfl⟩⟩
    · right; left
      rw [step0 P _ rfl n rfl] at hr
      by_cases hm : m = []
      · subst hm
        simp only [if_true, Step.ok.injEq] at hr
        exact ⟨u.kem.key, by rw [← hr.2]; rfl, hr.1.symm⟩
      · simp [hm] at hr
    · right; right
      obtain ⟨nonceB, ct, rfl⟩ := step2_shape P rfl (by rw [hr]; simp)
      rw [step2_of P _ rfl (E.keygen kc).1 (E.keygen kc).2 rfl rfl] at hr
      simp only [Step.ok.injEq] at hr
      exact ⟨kc, nonceB, ct, _, [], by simp, Or.inl ⟨none, by rw [← hr.2]; rfl, hr.1.symm⟩⟩
    · right; right
      obtain ⟨pt, id, hd, hg, hs, rfl⟩ := step4_ok P rfl rfl rfl rfl rfl rfl hr
      exact ⟨kc, nonceB, ct, m3, errs, he, Or.inr ⟨m, pt, id, by simp, hd, hg, hs⟩⟩
    · rw [run_late P _ (by simp)] at hr; simp at hr
  | @err t s u m s' e _ hr ih =>
    rcases ih with ⟨rfl, rfl⟩ | ⟨kc, rfl, rfl⟩ | ⟨kc, nonceB, ct, m3, errs, he, ⟨i, rfl, rfl⟩ | ⟨m', pt, id, rfl, hd, hg, rfl⟩⟩
    · rw [step0 P _ rfl n rfl] at hr
      by_cases hm : m = [] <;> simp [hm] at hr
    · obtain ⟨nonceB, ct, rfl⟩ := step2_shape P rfl (by rw [hr]; simp)
      rw [step2_of P _ rfl (E.keygen kc).1 (E.keygen kc).2 rfl rfl] at hr
      simp at hr
    · right; right
      obtain ⟨i', hs⟩ := step4_err P rfl rfl rfl rfl rfl rfl hr
      refine ⟨kc, nonceB, ct, m3, errs ++ [⟨m, none⟩], ?_, Or.inl ⟨i', by simp, hs⟩⟩
      intro e he'
      rw [List.mem_append, List.mem_singleton] at he'
      rcases he' with he' | rfl
      · exact he e he'
      · rfl
    · rw [run_late P _ (by simp)] at hr; simp at hr

/-- Responder after its first message. -/
def respSent (n : Nonce) (ssid : Ssid) (mpk : G.Pk) (cert : SigmaCert G) (usk : G.Sk) (ec : E.EncCoins) (nonceA : Nonce)
    (pkb : ByteArr 672) (i : Option Id) : IdSigmaR G E :=
  { withKeys P (newSession (E := E) n ssid mpk cert usk .responder) (E.encap ec (E.pkFromBytes pkb)).2 (E.encap ec (E.pkFromBytes pkb)).1 with
      nonceA := some nonceA, kemPubkey := some (E.pkFromBytes pkb), nextStep := 3, outputId := i }

/-- Where a responder can be after a history. -/
theorem trace_inv_resp (n : Nonce) (ssid : Ssid) (mpk : G.Pk) (cert : SigmaCert G) (usk : G.Sk) (t : List Event)
    (s : IdSigmaR G E) (h : Trace (run P) (newSession n ssid mpk cert usk .responder) t s) :
    (t = [] ∧ s = newSession n ssid mpk cert usk .responder) ∨
    (∃ (ec : E.EncCoins) (nonceA : Nonce) (pkb : ByteArr 672) (errs : List Event), (∀ e ∈ errs, e.outcome = none) ∧
      ((∃ i, t = ⟨nonceA.1 ++ pkb.1, some (some (n.1 ++ (E.encap ec (E.pkFromBytes pkb)).2.1))⟩ :: errs ∧
        s = respSent P n ssid mpk cert usk ec nonceA pkb i) ∨
       (∃ m m4 pt id, t = ⟨nonceA.1 ++ pkb.1, some (some (n.1 ++ (E.encap ec (E.pkFromBytes pkb)).2.1))⟩ :: errs
          ++ [⟨m, some (some m4)⟩] ∧
        authDecrypt P (P.hkdfExpand (E.encap ec (E.pkFromBytes pkb)).1.1 (ascii "enc_key_a") 64) m = .ok pt ∧
        GoodPayload P mpk (P.hkdfExpand (E.encap ec (E.pkFromBytes pkb)).1.1 (ascii "mac_key") 32) 0x00
          (tbsA n ssid (E.pkToBytes (E.pkFromBytes pkb)) (E.encap ec (E.pkFromBytes pkb)).2) pt id ∧
        s = { respSent P n ssid mpk cert usk ec nonceA pkb (some id) with done := true, nextStep := 5 }))) := by
  induction h with
  | nil => simp
  | @ok t s u m s' o _ hr ih =>
    rcases ih with ⟨rfl, rfl⟩ | ⟨ec, nonceA, pkb, errs, he, ⟨i, rfl, rfl⟩ | ⟨m', m4, pt, id, rfl, hd, hg, rfl⟩⟩
    · right
      obtain ⟨nonceA, pkb, rfl⟩ := step1_shape P rfl (by rw [hr]; simp)
      rw [step1_of P _ rfl n rfl] at hr
      simp only [Step.ok.injEq] at hr
      exact ⟨u.kem.enc, nonceA, pkb, [], by simp, Or.inl ⟨none, by rw [← hr.2]; rfl, hr.1.symm⟩⟩
    · right
      obtain ⟨pt, id, hd, hg, hs, rfl⟩ := step3_ok P rfl rfl rfl rfl rfl rfl rfl hr
      exact ⟨ec, nonceA, pkb, errs, he, Or.inr ⟨m, _, pt, id, by simp; rfl, hd, hg, hs⟩⟩
    · rw [run_late P _ (by simp)] at hr; simp at hr
  | @err t s u m s' e _ hr ih =>
    rcases ih with ⟨rfl, rfl⟩ | ⟨ec, nonceA, pkb, errs, he, ⟨i, rfl, rfl⟩ | ⟨m', m4, pt, id, rfl, hd, hg, rfl⟩⟩
    · obtain ⟨nonceA, pkb, rfl⟩ := step1_shape P rfl (by rw [hr]; simp)
      rw [step1_of P _ rfl n rfl] at hr
      simp at hr
    · right
      obtain ⟨i', hs⟩ := step3_err P rfl rfl rfl rfl rfl rfl rfl hr
      refine ⟨ec, nonceA, pkb, errs ++ [⟨m, none⟩], ?_, Or.inl ⟨i', by simp, hs⟩⟩
      intro e he'
      rw [List.mem_append, List.mem_singleton] at he'
      rcases he' with he' | rfl
      · exact he e he'
      · rfl
    · rw [run_late P _ (by simp)] at hr; simp at hr

end IdSigmaR
end Verif.Latke
