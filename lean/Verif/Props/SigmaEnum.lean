import Verif.Latke.Ibke.SigmaEnum
import Verif.Latke.Toy
import Verif.Props.AuthEnc

/-! # C102: SIGMA-R sessions whose keys are of two signature schemes

The two public SIGMA-R types share their key, certificate and session types, so nothing in the types keeps a caller from mixing Ed25519 and Dilithium2. -/

namespace Verif.Props
open Verif Verif.Latke

/-! ## Specification -/

/-- What the caller sees of one call. -/
inductive CallSeen (ε : Type) where
  | ok (out : Option Bytes)
  | err (e : ε)
  | panic
  deriving DecidableEq

/-- What a caller sees of a session that is called with given coins and incoming messages: the outcomes of the calls up to a panic, and, if there is none,
whether the session is done at the end and what it finalizes to (`none` = panic). -/
def observe {σ ε κ : Type} (run : σ → κ → Bytes → Step σ ε (Option Bytes)) (done : σ → Bool) (fin : σ → Option (Id × SessKey)) :
    σ → List (κ × Bytes) → List (CallSeen ε) × Option (Bool × Option (Id × SessKey))
  | s, [] => ([], some (done s, fin s))
  | s, (c, inc) :: l => match run s c inc with
    | .ok s' o => ((.ok o) :: (observe run done fin s' l).1, (observe run done fin s' l).2)
    | .err s' e => ((.err e) :: (observe run done fin s' l).1, (observe run done fin s' l).2)
    | .panic => ([.panic], none)

/-- What a caller sees of a key exchange session. -/
def seen (I : Ibke) (s : I.State) (calls : List (I.RunCoins × Bytes)) : List (CallSeen I.Err) × Option (Bool × Option (Id × SessKey)) :=
  observe I.run I.isDone I.finalize s calls

/-- The sizes of the two schemes (`dilithium_sig_pubkey_size`, `dilithium_sig_size`, 32 and `SIGNATURE_LENGTH`). -/
structure RealSizes (S : SigmaSchemes) : Prop where
  dpk : (S .dilithium2).pkLen = 1312
  dsig : (S .dilithium2).sigLen = 2420
  epk : (S .ed25519).pkLen = 32
  esig : (S .ed25519).sigLen = 64

/-! ## Proofs -/

section
variable {S : SigmaSchemes} {E : Kem}

private theorem cert_kind {ty : SigmaKind} {b : Bytes} {c : CertE S} (h : CertE.fromBytes ty b = .ok c) :
    c.upk.1 = ty ∧ c.sig.1 = ty ∧ b.length = SigmaCert.size (S ty) := by
  unfold CertE.fromBytes at h
  split at h
  · cases h
  · next hl =>
    refine (fun (x : c.upk.1 = ty ∧ c.sig.1 = ty) => ⟨x.1, x.2, Decidable.not_not.1 hl⟩) ?_
    split at h
    · next c' hc =>
      cases h
      simp only [Option.bind_eq_bind, Option.bind_eq_some_iff, Option.pure_def] at hc
      obtain ⟨_, _, _, _, _, _, _, _, _, _, _, _, hc⟩ := hc
      cases hc
      exact ⟨rfl, rfl⟩
    · cases h

private theorem parse_kind {ty : SigmaKind} {pt mac cb : Bytes} {sig : SigE S} {c : CertE S} (h : SigmaE.parsePayload ty pt = .ok (sig, mac, cb, c)) :
    sig.1 = ty ∧ c.upk.1 = ty ∧ c.sig.1 = ty ∧ pt.length = (S ty).sigLen + mac.length + SigmaCert.size (S ty) := by
  unfold SigmaE.parsePayload at h
  split at h
  · cases h
  · next a b d he =>
    split at h
    · cases h
    · cases h
    · next c' hc =>
      cases h
      obtain ⟨h1, h2, h3⟩ := cert_kind hc
      simp only [Option.bind_eq_bind, Option.bind_eq_some_iff, Option.pure_def] at he
      obtain ⟨x, hx, y, hy, z, hz, he⟩ := he
      cases he
      refine ⟨rfl, h1, h2, ?_⟩
      unfold splitEnd? at hx
      unfold splitAt? at hy
      split at hx
      · split at hy
        · cases hx; cases hy
          simp only [List.length_drop, List.length_take] at *
          omega
        · cases hy
      · cases hx

private theorem verifyPeer_mm (mm : Option Bool) (P : SymPrims) (s : SigmaE S E) (k : ByteArr 32) (b : UInt8) (tbs : Bytes → Bytes) (pt : Bytes) :
    SigmaE.verifyPeer mm P s k b tbs pt = SigmaE.verifyPeer none P s k b tbs pt := by
  unfold SigmaE.verifyPeer
  cases hp : SigmaE.parsePayload (S := S) s.mpk.1 pt with
  | panic => rfl
  | err e => rfl
  | ok x =>
    obtain ⟨sig, mac, cb, c⟩ := x
    obtain ⟨h1, h2, h3, -⟩ := parse_kind hp
    dsimp only
    have e1 : ∀ mm m, s.mpk.verify mm m c.sig = some ((S s.mpk.1).verify s.mpk.2 m (h3 ▸ c.sig.2)) := fun mm m => by rw [PkE.verify, dif_pos h3]
    have e2 : ∀ mm m, c.upk.verify mm m sig = some ((S c.upk.1).verify c.upk.2 m ((h1.trans h2.symm) ▸ sig.2)) := fun mm m => by
      rw [PkE.verify, dif_pos (h1.trans h2.symm)]
    rw [e1, e1, e2, e2]

/-- C102: the panic on a signature of the wrong scheme is never reached, whatever the session was given: any other behaviour there changes nothing. -/
theorem C102_mismatch_unreachable (mm : Option Bool) (P : SymPrims) (s : SigmaE S E) (c : CoinsE S E) (inc : Bytes) :
    SigmaE.run mm P s c inc = SigmaE.run none P s c inc := by
  unfold SigmaE.run
  simp only [verifyPeer_mm mm]

/-! ### One scheme -/

private def embCert (k : SigmaKind) (c : SigmaCert (S k)) : CertE S := ⟨c.id, ⟨k, c.upk⟩, ⟨k, c.sig⟩⟩

private def emb (k : SigmaKind) (s : IdSigmaR (S k) E) : SigmaE S E :=
  { ssid := s.ssid, nonceA := s.nonceA, nonceB := s.nonceB, mpk := ⟨k, s.mpk⟩, cert := embCert k s.cert, sigPrivkey := ⟨k, s.sigPrivkey⟩
    kemPubkey := s.kemPubkey, kemPrivkey := s.kemPrivkey, encappedKey := s.encappedKey, macKey := s.macKey, encKeys := s.encKeys
    outputId := s.outputId, outputKey := s.outputKey, nextStep := s.nextStep, done := s.done }

private def mapStep {σ τ ε α : Type} (f : σ → τ) : Step σ ε α → Step τ ε α
  | .ok s a => .ok (f s) a
  | .err s e => .err (f s) e
  | .panic => .panic

/-- The coins of one arm. -/
def armCoins (k : SigmaKind) (c : CoinsE S E) : SigmaCoins (S k) E := ⟨c.kem, c.sign k, c.ae⟩

private theorem emb_certBytes (k : SigmaKind) (c : SigmaCert (S k)) : (embCert k c).toBytes = c.toBytes := rfl

private theorem emb_fromBytes (k : SigmaKind) (b : Bytes) : (CertE.fromBytes k b : Res SigmaError (CertE S)) =
    match (SigmaCert.fromBytes b : Res SigmaError (SigmaCert (S k))) with
    | .ok c => .ok (embCert k c) | .err e => .err e | .panic => .panic := by
  unfold CertE.fromBytes SigmaCert.fromBytes
  split
  · rfl
  · cases splitAt? 32 b with
    | none => rfl
    | some x =>
      obtain ⟨i, r⟩ := x
      simp only [Option.bind_eq_bind, Option.bind_some]
      cases splitAt? (S k).pkLen r with
      | none => rfl
      | some y =>
        obtain ⟨u, g⟩ := y
        simp only [Option.bind_some]
        cases toArr? (S k).pkLen u with
        | none => rfl
        | some u =>
          simp only [Option.bind_some]
          cases (S k).pkFromBytes u with
          | none => rfl
          | some u =>
            simp only [Option.bind_some]
            cases toArr? (S k).sigLen g with
            | none => rfl
            | some g =>
              simp only [Option.bind_some]
              cases toArr? 32 i <;> rfl

private theorem emb_parse (k : SigmaKind) (pt : Bytes) : (SigmaE.parsePayload k pt : Res SigmaError (SigE S × Bytes × Bytes × CertE S)) =
    match IdSigmaR.parsePayload (S k) pt with
    | .ok (sig, mac, cb, c) => .ok (⟨k, sig⟩, mac, cb, embCert k c) | .err e => .err e | .panic => .panic := by
  unfold SigmaE.parsePayload IdSigmaR.parsePayload
  cases splitEnd? (SigmaCert.size (S k)) pt with
  | none => rfl
  | some x =>
    obtain ⟨a, b⟩ := x
    simp only [Option.bind_eq_bind, Option.bind_some]
    cases splitAt? (S k).sigLen a with
    | none => rfl
    | some y =>
      obtain ⟨u, g⟩ := y
      simp only [Option.bind_some]
      cases toArr? (S k).sigLen u with
      | none => rfl
      | some u =>
        simp only [Option.bind_some, Option.pure_def]
        rw [emb_fromBytes]
        cases (SigmaCert.fromBytes b : Res SigmaError (SigmaCert (S k))) <;> rfl

private theorem verify_same (k : SigmaKind) (mm : Option Bool) (pk : (S k).Pk) (m : Bytes) (sig : ByteArr (S k).sigLen) :
    PkE.verify (S := S) mm ⟨k, pk⟩ m ⟨k, sig⟩ = some ((S k).verify pk m sig) := by simp [PkE.verify]

private theorem emb_verify (k : SigmaKind) (mm : Option Bool) (P : SymPrims) (s : IdSigmaR (S k) E) (key : ByteArr 32) (b : UInt8) (tbs : Bytes → Bytes) (pt : Bytes) :
    SigmaE.verifyPeer mm P (emb k s) key b tbs pt = mapStep (emb k) (IdSigmaR.verifyPeer P s key b tbs pt) := by
  unfold SigmaE.verifyPeer IdSigmaR.verifyPeer
  rw [show (emb k s).mpk.1 = k from rfl, emb_parse]
  cases IdSigmaR.parsePayload (S k) pt with
  | panic => rfl
  | err e => rfl
  | ok x =>
    obtain ⟨sig, mac, cb, c⟩ := x
    dsimp only
    rw [show ∀ m, PkE.verify mm (emb k s).mpk m (embCert k c).sig = some ((S k).verify s.mpk m c.sig) from fun m => verify_same k mm _ m _]
    rw [show (embCert k c).id.1 ++ (embCert k c).upk.bytes = c.tbs from rfl]
    rw [show ∀ m, PkE.verify mm (embCert k c).upk m ⟨k, sig⟩ = some ((S k).verify c.upk m sig) from fun m => verify_same k mm _ m _]
    rw [show (embCert k c).id = c.id from rfl]
    cases (S k).verify s.mpk c.tbs c.sig with
    | false => rfl
    | true =>
      cases (S k).verify c.upk (tbs cb) sig with
      | false => rfl
      | true =>
        dsimp only
        simp only [Bool.not_true, Bool.false_eq_true, if_false]
        split <;> rfl

private theorem emb_run (k : SigmaKind) (P : SymPrims) (s : IdSigmaR (S k) E) (c : CoinsE S E) (inc : Bytes) :
    SigmaE.run none P (emb k s) c inc = mapStep (emb k) (IdSigmaR.run P s (armCoins k c) inc) := by
  unfold SigmaE.run IdSigmaR.run
  rw [show (emb k s).nextStep = s.nextStep from rfl]
  obtain hn | hn | hn | hn | hn | ⟨n, hn⟩ : s.nextStep = 0 ∨ s.nextStep = 1 ∨ s.nextStep = 2 ∨ s.nextStep = 3 ∨ s.nextStep = 4 ∨
      ∃ n, s.nextStep = n + 5 := by
    by_cases h : s.nextStep < 5
    · omega
    · exact Or.inr (Or.inr (Or.inr (Or.inr (Or.inr ⟨s.nextStep - 5, by omega⟩))))
  all_goals rw [hn]
  · simp only []
    by_cases h : inc.length ≠ 0
    · rw [if_pos h, if_pos h]; rfl
    · rw [if_neg h, if_neg h, show (emb k s).nonceA = s.nonceA from rfl]
      cases s.nonceA <;> rfl
  · simp only []
    rw [show (emb k s).nonceB = s.nonceB from rfl]
    split <;> (rename_i h; simp only [h]; rfl)
  · simp only []
    rw [show (emb k s).kemPrivkey = s.kemPrivkey from rfl, show (emb k s).kemPubkey = s.kemPubkey from rfl]
    split <;> (rename_i h; simp only [h]; rfl)
  · simp only []
    rw [show (emb k s).encKeys = s.encKeys from rfl, show (emb k s).nonceA = s.nonceA from rfl, show (emb k s).nonceB = s.nonceB from rfl,
      show (emb k s).kemPubkey = s.kemPubkey from rfl, show (emb k s).encappedKey = s.encappedKey from rfl, show (emb k s).macKey = s.macKey from rfl]
    rcases s.encKeys with _ | ⟨a, b⟩ <;> rcases s.nonceA with _ | nA <;> rcases s.nonceB with _ | nB <;> rcases s.kemPubkey with _ | pk <;>
      rcases s.encappedKey with _ | ct <;> rcases s.macKey with _ | mk
    case some.some.some.some.some.some =>
      simp only []
      cases authDecrypt P a inc with
      | panic => rfl
      | err e => rfl
      | ok pt =>
        dsimp only
        rw [emb_verify, show (emb k s).ssid = s.ssid from rfl]
        cases IdSigmaR.verifyPeer P s mk 0 (IdSigmaR.tbsA nB s.ssid (E.pkToBytes pk) ct) pt <;> rfl
    all_goals rfl
  · simp only []
    rw [show (emb k s).encKeys = s.encKeys from rfl, show (emb k s).nonceA = s.nonceA from rfl,
      show (emb k s).kemPubkey = s.kemPubkey from rfl, show (emb k s).encappedKey = s.encappedKey from rfl, show (emb k s).macKey = s.macKey from rfl]
    rcases s.encKeys with _ | ⟨a, b⟩ <;> rcases s.nonceA with _ | nA <;> rcases s.kemPubkey with _ | pk <;>
      rcases s.encappedKey with _ | ct <;> rcases s.macKey with _ | mk
    case some.some.some.some.some =>
      simp only []
      cases authDecrypt P b inc with
      | panic => rfl
      | err e => rfl
      | ok pt =>
        dsimp only
        rw [emb_verify, show (emb k s).ssid = s.ssid from rfl]
        cases IdSigmaR.verifyPeer P s mk 1 (IdSigmaR.tbsB nA s.ssid ct (E.pkToBytes pk)) pt <;> rfl
    all_goals rfl
  · rfl

private theorem observe_cons {σ ε κ : Type} (run : σ → κ → Bytes → Step σ ε (Option Bytes)) (done : σ → Bool) (fin : σ → Option (Id × SessKey)) (s : σ)
    (c : κ) (inc : Bytes) (l : List (κ × Bytes)) : observe run done fin s ((c, inc) :: l) = match run s c inc with
    | .ok s' o => ((.ok o) :: (observe run done fin s' l).1, (observe run done fin s' l).2)
    | .err s' e => ((.err e) :: (observe run done fin s' l).1, (observe run done fin s' l).2)
    | .panic => ([.panic], none) := by rw [observe]

private theorem emb_observe (k : SigmaKind) (P : SymPrims) (done : SigmaE S E → Bool) (done' : IdSigmaR (S k) E → Bool)
    (fin : SigmaE S E → Option (Id × SessKey)) (fin' : IdSigmaR (S k) E → Option (Id × SessKey)) (hd : ∀ s, done (emb k s) = done' s)
    (hf : ∀ s, fin (emb k s) = fin' s) (calls : List (CoinsE S E × Bytes)) : ∀ s : IdSigmaR (S k) E,
    observe (SigmaE.run none P) done fin (emb k s) calls = observe (IdSigmaR.run P) done' fin' s (calls.map fun x => (armCoins k x.1, x.2)) := by
  induction calls with
  | nil => intro s; rw [List.map_nil, observe, observe, hd, hf]
  | cons x l ih =>
    intro s
    obtain ⟨c, inc⟩ := x
    rw [List.map_cons, observe_cons, observe_cons, emb_run]
    cases IdSigmaR.run P s (armCoins k c) inc with
    | ok s' o => dsimp only [mapStep]; rw [ih s']
    | err s' e => dsimp only [mapStep]; rw [ih s']
    | panic => rfl

/-- C102: a session given keys of one scheme only shows, on every list of calls with any incoming messages and coins, exactly what the session of that
scheme alone shows; which of the two session types (`k'`) it was started as does not matter. -/
theorem C102_one_scheme (k k' : SigmaKind) (P : SymPrims) (nonce : Nonce) (ssid : Ssid) (mpk upk : (S k).Pk) (id : Id) (sig : ByteArr (S k).sigLen)
    (usk : (S k).Sk) (role : Role) (calls : List (CoinsE S E × Bytes)) :
    seen (sigmaEIbke k' P S E) ((sigmaEIbke k' P S E).newSession nonce ssid ⟨k, mpk⟩ ⟨id, ⟨k, upk⟩, ⟨k, sig⟩⟩ ⟨k, usk⟩ role) calls =
      seen (sigmaIbke P (S k) E) ((sigmaIbke P (S k) E).newSession nonce ssid mpk ⟨id, upk, sig⟩ usk role) (calls.map fun x => (armCoins k x.1, x.2)) :=
  emb_observe k P (sigmaEIbke k' P S E).isDone (sigmaIbke P (S k) E).isDone (sigmaEIbke k' P S E).finalize (sigmaIbke P (S k) E).finalize
    (fun _ => rfl) (fun _ => rfl) calls (IdSigmaR.newSession nonce ssid mpk ⟨id, upk, sig⟩ usk role)

/-- C102: the keys and certificates made with one of the session types are of its scheme: those of the scheme alone. -/
theorem C102_one_scheme_keys (k : SigmaKind) (P : SymPrims) (c : (S k).KeyCoins) (x : (k : SigmaKind) → (S k).SignCoins) (msk : (S k).Sk) (id : Id) (upk : (S k).Pk) :
    (sigmaEIbke k P S E).genMain c = (⟨k, ((sigmaIbke P (S k) E).genMain c).1⟩, ⟨k, ((sigmaIbke P (S k) E).genMain c).2⟩) ∧
    (sigmaEIbke k P S E).genUser c = (⟨k, ((sigmaIbke P (S k) E).genUser c).1⟩, ⟨k, ((sigmaIbke P (S k) E).genUser c).2⟩) ∧
    (sigmaEIbke k P S E).extract x ⟨k, msk⟩ id ⟨k, upk⟩ =
      ⟨((sigmaIbke P (S k) E).extract (x k) msk id upk).id, ⟨k, ((sigmaIbke P (S k) E).extract (x k) msk id upk).upk⟩,
        ⟨k, ((sigmaIbke P (S k) E).extract (x k) msk id upk).sig⟩⟩ := ⟨rfl, rfl, rfl⟩

/-! ### Two schemes -/

private theorem authDecrypt_len {P : SymPrims} {k : AuthEncKey} {inc pt : Bytes} (h : authDecrypt P k inc = .ok pt) : inc.length = pt.length + 44 := by
  unfold authDecrypt splitEnd? at h
  dsimp only at h
  split at h
  · cases h
  · next a b hab =>
    split at hab
    · next h1 =>
      cases hab
      split at h
      · cases h
      · next d e hde =>
        split at hde
        · next h2 =>
          cases hde
          split at h
          · cases h
            rw [length_xorBytes, (P.keystream _ _ _).2]
            simp only [List.length_take] at *
            unfold TAGLEN at *
            omega
          · cases h
        · cases hde
    · cases hab

/-- What a session of scheme `ty` expects of an identity message. -/
private def wanted (S : SigmaSchemes) (ty : SigmaKind) : Nat := 44 + (S ty).sigLen + 32 + SigmaCert.size (S ty)

/-- The length of the identity message sent with a signing key and certificate parts of given schemes. -/
private def sentLen (S : SigmaSchemes) (a b d : SigmaKind) : Nat := 44 + (S a).sigLen + 32 + (32 + (S b).pkLen + (S d).sigLen)

private def Keep (s s' : SigmaE S E) : Prop := s'.mpk = s.mpk ∧ s'.cert = s.cert ∧ s'.sigPrivkey = s.sigPrivkey

private theorem verifyPeer_spec (P : SymPrims) (s : SigmaE S E) (k : ByteArr 32) (b : UInt8) (tbs : Bytes → Bytes) (pt : Bytes) :
    match SigmaE.verifyPeer none P s k b tbs pt with
    | .ok s' _ => s'.nextStep = s.nextStep ∧ Keep s s' ∧ pt.length + 44 = wanted S s.mpk.1
    | .err s' _ => s'.nextStep = s.nextStep ∧ Keep s s'
    | .panic => True := by
  unfold SigmaE.verifyPeer
  cases hp : SigmaE.parsePayload (S := S) s.mpk.1 pt with
  | panic => trivial
  | err e => exact ⟨rfl, rfl, rfl, rfl⟩
  | ok x =>
    obtain ⟨sig, mac, cb, c⟩ := x
    obtain ⟨-, -, -, hl⟩ := parse_kind hp
    dsimp only
    rcases PkE.verify none s.mpk (c.id.1 ++ c.upk.bytes) c.sig with _ | _ | _
    · trivial
    · exact ⟨rfl, rfl, rfl, rfl⟩
    · rcases PkE.verify none c.upk (tbs cb) sig with _ | _ | _
      · trivial
      · exact ⟨rfl, rfl, rfl, rfl⟩
      · dsimp only
        by_cases hm : (P.hmac k.1 ([b] ++ c.id.1)).1 ≠ mac
        · rw [if_pos hm]; exact ⟨rfl, rfl, rfl, rfl⟩
        · rw [if_neg hm]
          refine ⟨rfl, ⟨rfl, rfl, rfl⟩, ?_⟩
          have h32 : mac.length = 32 := by
            rw [← Decidable.not_not.1 hm]
            exact (P.hmac _ _).2
          unfold wanted
          rw [hl, h32]
          omega

private theorem payload_len (P : SymPrims) (n : ByteArr 12) (key : AuthEncKey) (s : SigmaE S E) (c : (k : SigmaKind) → (S k).SignCoins) (m : Bytes) (mac : ByteArr 32) :
    (authEncrypt P n key ((s.sigPrivkey.sign c m).bytes ++ mac.1 ++ s.cert.toBytes)).length =
      sentLen S s.sigPrivkey.1 s.cert.upk.1 s.cert.sig.1 := by
  rw [C02_authenc_length]
  unfold CertE.toBytes SkE.sign PkE.bytes SigE.bytes sentLen
  simp only [List.length_append, mac.2, s.cert.id.2, s.cert.sig.2.2, ((S s.cert.upk.1).pkToBytes s.cert.upk.2).2, ((S s.sigPrivkey.1).sign _ _ _).2]
  omega

private theorem run_spec (P : SymPrims) (s : SigmaE S E) (c : CoinsE S E) (inc : Bytes) :
    match SigmaE.run none P s c inc with
    | .ok s' o => s'.nextStep = s.nextStep + 2 ∧ Keep s s' ∧
        ((s.nextStep = 2 ∨ s.nextStep = 3) → ∀ m, o = some m → m.length = sentLen S s.sigPrivkey.1 s.cert.upk.1 s.cert.sig.1) ∧
        ((s.nextStep = 3 ∨ s.nextStep = 4) → inc.length = wanted S s.mpk.1)
    | .err s' _ => s'.nextStep = s.nextStep ∧ Keep s s'
    | .panic => True := by
  generalize hr : SigmaE.run none P s c inc = r
  unfold SigmaE.run at hr
  obtain hn | hn | hn | hn | hn | ⟨n, hn⟩ : s.nextStep = 0 ∨ s.nextStep = 1 ∨ s.nextStep = 2 ∨ s.nextStep = 3 ∨ s.nextStep = 4 ∨
      ∃ n, s.nextStep = n + 5 := by
    by_cases h : s.nextStep < 5
    · omega
    · exact Or.inr (Or.inr (Or.inr (Or.inr (Or.inr ⟨s.nextStep - 5, by omega⟩))))
  all_goals simp only [hn] at hr
  · split at hr
    · subst hr; trivial
    · split at hr
      · subst hr; trivial
      · subst hr; exact ⟨by simp [hn], ⟨rfl, rfl, rfl⟩, by simp [hn], by simp [hn]⟩
  · split at hr
    · subst hr; trivial
    · subst hr; exact ⟨by simp [hn], ⟨rfl, rfl, rfl⟩, by simp [hn], by simp [hn]⟩
  · split at hr
    · subst hr; trivial
    · subst hr
      refine ⟨by simp [hn], ⟨rfl, rfl, rfl⟩, ?_, by simp [hn]⟩
      intro _ m hm
      cases hm
      exact payload_len P _ _ s _ _ _
  · split at hr
    · next a b nA nB pk ct mk h1 h2 h3 h4 h5 h6 =>
      cases hd : authDecrypt P a inc with
      | panic => rw [hd] at hr; subst hr; trivial
      | err e => rw [hd] at hr; subst hr; exact ⟨rfl, rfl, rfl, rfl⟩
      | ok pt =>
        rw [hd] at hr
        dsimp only at hr
        have hv := verifyPeer_spec P s mk 0 (IdSigmaR.tbsA nB s.ssid (E.pkToBytes pk) ct) pt
        cases hq : SigmaE.verifyPeer none P s mk 0 (IdSigmaR.tbsA nB s.ssid (E.pkToBytes pk) ct) pt with
        | panic => rw [hq] at hr; subst hr; trivial
        | err s' e => rw [hq] at hv hr; subst hr; exact hv
        | ok s' u =>
          rw [hq] at hv hr
          obtain ⟨g1, ⟨g2, g3, g4⟩, g5⟩ := hv
          dsimp only at hr
          subst hr
          refine ⟨by dsimp only; rw [g1], ⟨g2, g3, g4⟩, ?_, ?_⟩
          · intro _ m hm
            cases hm
            rw [payload_len, g3, g4]
          · intro _
            rw [authDecrypt_len hd]
            exact g5
    · subst hr; trivial
  · split at hr
    · next a b nA pk ct mk h1 h2 h4 h5 h6 =>
      cases hd : authDecrypt P b inc with
      | panic => rw [hd] at hr; subst hr; trivial
      | err e => rw [hd] at hr; subst hr; exact ⟨rfl, rfl, rfl, rfl⟩
      | ok pt =>
        rw [hd] at hr
        dsimp only at hr
        have hv := verifyPeer_spec P s mk 1 (IdSigmaR.tbsB nA s.ssid ct (E.pkToBytes pk)) pt
        cases hq : SigmaE.verifyPeer none P s mk 1 (IdSigmaR.tbsB nA s.ssid ct (E.pkToBytes pk)) pt with
        | panic => rw [hq] at hr; subst hr; trivial
        | err s' e => rw [hq] at hv hr; subst hr; exact hv
        | ok s' u =>
          rw [hq] at hv hr
          obtain ⟨g1, ⟨g2, g3, g4⟩, g5⟩ := hv
          dsimp only at hr
          subst hr
          refine ⟨by dsimp only; rw [g1], ⟨g2, g3, g4⟩, by simp [hn], ?_⟩
          intro _
          rw [authDecrypt_len hd]
          exact g5
    · subst hr; trivial
  · subst hr; trivial

private theorem trace_spec (P : SymPrims) {s0 s : SigmaE S E} {t : List Event} (h : Trace (SigmaE.run none P) s0 t s) :
    s.nextStep = s0.nextStep + 2 * okCount t ∧ Keep s0 s := by
  induction h with
  | nil => exact ⟨rfl, rfl, rfl, rfl⟩
  | @ok t s c m s' o ht hr ih =>
    have := run_spec P s c m
    rw [hr] at this
    obtain ⟨a, ⟨b1, b2, b3⟩, -⟩ := this
    obtain ⟨i, j1, j2, j3⟩ := ih
    refine ⟨?_, b1.trans j1, b2.trans j2, b3.trans j3⟩
    rw [a, i]
    unfold okCount
    simp [List.countP_append]
    omega
  | @err t s c m s' e ht hr ih =>
    have := run_spec P s c m
    rw [hr] at this
    obtain ⟨a, b1, b2, b3⟩ := this
    obtain ⟨i, j1, j2, j3⟩ := ih
    refine ⟨?_, b1.trans j1, b2.trans j2, b3.trans j3⟩
    rw [a, i]
    unfold okCount
    simp [List.countP_append]

private theorem lens_differ (hS : RealSizes S) (ty a b d : SigmaKind) (h : sentLen S a b d = wanted S ty) : a = ty ∧ b = ty ∧ d = ty := by
  unfold sentLen wanted SigmaCert.size at h
  obtain ⟨h1, h2, h3, h4⟩ := hS
  cases ty <;> cases a <;> cases b <;> cases d <;> simp_all

/-- C102: keys of another scheme than the peer's main public key are never accepted. Let a session (any role, any history, any main public key) send its
identity message, its second message, with a signing key `usk` and a certificate. If a peer session accepts that message as its peer's identity message
(as responder in its second successful call, as initiator in its third), then the signing key, the certified key and the certificate's signature are all of
the scheme of the peer's main public key. No assumption on hash, cipher or signatures. -/
theorem C102_other_scheme_never_accepted (hS : RealSizes S) (P : SymPrims)
    (n n' : Nonce) (ssid ssid' : Ssid) (mpk mpk' : PkE S) (cert cert' : CertE S) (usk usk' : SkE S) (role role' : Role)
    (t t' : List Event) (s s1 r r1 : SigmaE S E) (c c' : CoinsE S E) (inc m : Bytes) (o : Option Bytes)
    (hs : Trace (SigmaE.run none P) (SigmaE.newSession n ssid mpk cert usk role) t s) (hcount : okCount t = 1)
    (hsend : SigmaE.run none P s c inc = .ok s1 (some m))
    (hr : Trace (SigmaE.run none P) (SigmaE.newSession n' ssid' mpk' cert' usk' role') t' r)
    (hcount' : okCount t' = if role' = .initiator then 2 else 1)
    (hrecv : SigmaE.run none P r c' m = .ok r1 o) :
    usk.1 = mpk'.1 ∧ cert.upk.1 = mpk'.1 ∧ cert.sig.1 = mpk'.1 := by
  obtain ⟨a1, a2, a3, a4⟩ := trace_spec P hs
  obtain ⟨b1, b2, b3, b4⟩ := trace_spec P hr
  have hx := run_spec P s c inc
  have hy := run_spec P r c' m
  rw [hsend] at hx
  rw [hrecv] at hy
  obtain ⟨-, -, hx, -⟩ := hx
  obtain ⟨-, -, -, hy⟩ := hy
  have e1 : s.nextStep = 2 ∨ s.nextStep = 3 := by
    rw [a1, hcount]
    cases role <;> simp [SigmaE.newSession]
  have e2 : r.nextStep = 3 ∨ r.nextStep = 4 := by
    rw [b1, hcount']
    cases role' <;> simp [SigmaE.newSession]
  have := (hx e1 m rfl).symm.trans (hy e2)
  rw [a3, a4, b2] at this
  exact lens_differ hS _ _ _ _ this

end

/-! ## Non-vacuity: two runs evaluated in the kernel -/

/-- A scheme with public keys of `p` and signatures of `n` bytes in which every signature is valid. -/
private def flatScheme (p n : Nat) : SigmaScheme where
  pkLen := p
  sigLen := n
  Sk := Unit
  Pk := Unit
  KeyCoins := Unit
  SignCoins := Unit
  keygen _ := ((), ())
  sign _ _ _ := .rep n 1
  verify _ _ s := s.1.all (· == 1)
  pkToBytes _ := .rep p 2
  pkFromBytes _ := some ()

private def flat : SigmaSchemes
  | .dilithium2 => flatScheme 1312 2420
  | .ed25519 => flatScheme 32 64

example : RealSizes flat := ⟨rfl, rfl, rfl, rfl⟩

/-- The schemes of the crate have these sizes. -/
example (C : Dilithium.CSem) (H : Dilithium.Shake) (G : Ed25519) :
    RealSizes (fun | .dilithium2 => dilithiumScheme C H | .ed25519 => edScheme G) := ⟨rfl, rfl, rfl, rfl⟩

private def flatPrims : SymPrims where
  keystream _ _ n := .rep n 3
  hmac _ _ := .rep 32 4
  hkdfExpand _ _ n := .rep n 5
  hkdfExtract _ _ := .rep 32 6
  hash256 _ := .rep 32 7
  deck _ _ n := .rep n 8

private def exCert (a b : SigmaKind) : CertE flat := ⟨.rep 32 9, ⟨a, by cases a <;> exact ()⟩, ⟨b, .rep _ 1⟩⟩

private def exSk (a : SigmaKind) : SkE flat := ⟨a, by cases a <;> exact ()⟩

private def exPk (a : SigmaKind) : PkE flat := ⟨a, by cases a <;> exact ()⟩

private def exCoins : CoinsE flat toyKem := ⟨⟨(ByteArr.rep 672 1 : ByteArr 672), (ByteArr.rep 32 2 : ByteArr 32)⟩, fun a => by cases a <;> exact (), .rep 12 0⟩

/-- A responder whose main public key, certificate and signing key are Dilithium2 meets an initiator with a Dilithium2 main public key whose signing key,
certified key and certificate signature are of the schemes `a`, `b`, `d`: what its second call returns. -/
private def exMeet (a b d : SigmaKind) : CallSeen SigmaError :=
  let i : SigmaE flat toyKem := SigmaE.newSession (.rep 32 0) (.rep 32 1) (exPk .dilithium2) (exCert b d) (exSk a) .initiator
  let r : SigmaE flat toyKem := SigmaE.newSession (.rep 32 2) (.rep 32 1) (exPk .dilithium2) (exCert .dilithium2 .dilithium2) (exSk .dilithium2) .responder
  match SigmaE.run none flatPrims i exCoins [] with
  | .ok i (some m1) => match SigmaE.run none flatPrims r exCoins m1 with
    | .ok r (some m2) => match SigmaE.run none flatPrims i exCoins m2 with
      | .ok _ (some m3) => match SigmaE.run none flatPrims r exCoins m3 with
        | .ok _ _ => .ok none
        | .err _ e => .err e
        | .panic => .panic
      | _ => .err .invalidLength
    | _ => .err .invalidLength
  | _ => .err .invalidLength

set_option maxRecDepth 100000 in
/-- With Dilithium2 throughout the responder accepts; with an Ed25519 signing key, or an Ed25519 certificate, its call panics. -/
example : exMeet .dilithium2 .dilithium2 .dilithium2 = .ok none ∧ exMeet .ed25519 .dilithium2 .dilithium2 = .panic ∧
    exMeet .ed25519 .ed25519 .ed25519 = .panic ∧ exMeet .dilithium2 .ed25519 .dilithium2 = .panic := by decide +kernel

end Verif.Props
