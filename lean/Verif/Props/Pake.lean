import Verif.Latke.Pake.CakeLemmas
import Verif.Latke.Pake.CpaceLemmas
import Verif.Latke.Pake.KcSpake2Lemmas

/-! # C20–C27: the three PAKEs -/

namespace Verif.Props
open Verif Verif.Latke

/-! ## CAKE -/

/-- C20: an honest CAKE run with a common password and ssid has exactly three calls and two messages (672 and 736 bytes), both
sides complete, and both hold the same key, provided the KEM decapsulates correctly for the coins used. -/
theorem C20_cake_agreement (P : SymPrims) (E : Kem) (ssid : Ssid) (pw : Bytes) (c0 c1 c2 : KemCoins E)
    (hK : E.Correct c0.key c1.enc) :
    ∃ m1 m2 qI qR k, converse (cakePake P E).run (cakePake P E).isDone [c0, c1, c2]
        ((cakePake P E).new () ssid pw .initiator) ((cakePake P E).new () ssid pw .responder) []
          = some ([m1, m2], qI, qR) ∧
      m1.length = 672 ∧ m2.length = 736 ∧
      (cakePake P E).isDone qI = true ∧ (cakePake P E).isDone qR = true ∧
      (cakePake P E).finalize qI = some k ∧ (cakePake P E).finalize qR = some k := by
  obtain ⟨y, e1, l1, r1⟩ := Cake.run0 P (Cake.new E ssid pw .initiator) (by simp [Cake.new]) c0
  obtain ⟨y', e1', d1', l1'⟩ := ic_inv P 0 ssid.1 pw (E.pkToBytes (E.keygen c0.key).1).1 (by simp [(E.pkToBytes _).2])
  have hy : y' = y := by
    have : icEncrypt P 0 ssid.1 pw (E.pkToBytes (E.keygen c0.key).1).1 = some y := e1
    rw [e1'] at this; simpa using this
  subst hy
  obtain ⟨pk, z, d2, e2, l2, r2⟩ := Cake.run1 P (Cake.new E ssid pw .responder) (by simp [Cake.new]) c1 y' l1
  have hpk : pk = E.pkToBytes (E.keygen c0.key).1 := by
    have : icDecrypt P 0 ssid.1 pw y' = some pk.1 := d2
    rw [d1'] at this
    exact Subtype.ext (by simpa using this.symm)
  subst hpk
  obtain ⟨ct, d3, r3⟩ := Cake.run2 P { Cake.new E ssid pw .initiator with
      ephPk := some (E.keygen c0.key).1, ephSk := some (E.keygen c0.key).2, nextStep := 2 } rfl _ rfl c2 z l2
  obtain ⟨z', e3, d3', l3⟩ := ic_inv P 1 ssid.1 pw
    (E.encap c1.enc (E.pkFromBytes (E.pkToBytes (E.keygen c0.key).1))).2.1 (by simp [(E.encap _ _).2.2])
  have hz : z' = z := by
    have : icEncrypt P 1 ssid.1 pw _ = some z := e2
    rw [e3] at this; simpa using this
  subst hz
  have hct : ct = (E.encap c1.enc (E.pkFromBytes (E.pkToBytes (E.keygen c0.key).1))).2 := by
    have : icDecrypt P 1 ssid.1 pw z' = some ct.1 := d3
    rw [d3'] at this
    exact Subtype.ext (by simpa using this.symm)
  subst hct
  have n1 : y' ≠ [] := by intro h; simp [h] at l1
  have n2 : z' ≠ [] := by intro h; simp [h] at l2
  exact ⟨y', z', _, _, _, converse_cons rfl r1 n1 (converse_cons rfl r2 n2 (converse_last rfl r3 rfl rfl)), l1, l2, rfl, rfl,
    rfl, congrArg some hK.symm⟩

example : ∃ k, (∃ t qI qR, converse (cakePake toyPrims toyKem).run (cakePake toyPrims toyKem).isDone
      (List.replicate 3 ⟨(.rep 672 7), (.rep 32 9)⟩)
        ((cakePake toyPrims toyKem).new () (.rep 32 1) [1, 2] .initiator)
        ((cakePake toyPrims toyKem).new () (.rep 32 1) [1, 2] .responder) [] = some (t, qI, qR) ∧
      (cakePake toyPrims toyKem).finalize qI = some k ∧ (cakePake toyPrims toyKem).finalize qR = some k) := by
  obtain ⟨m1, m2, qI, qR, k, h, -, -, -, -, h1, h2⟩ :=
    C20_cake_agreement toyPrims toyKem (.rep 32 1) [1, 2]
      ⟨(.rep 672 7), (.rep 32 9)⟩
      ⟨(.rep 672 7), (.rep 32 9)⟩
      ⟨(.rep 672 7), (.rep 32 9)⟩ (toyKem_correct _ _)
  exact ⟨k, _, _, _, h, h1, h2⟩

/-- The message length the documentation of CAKE asks for at the `n`-th call (from 0) of a session; `none`: no further call. -/
def cakeExpected : Role → Nat → Option Nat
  | .initiator, 0 => some 0
  | .initiator, 1 => some 736
  | .responder, 0 => some 672
  | _, _ => none

/-- C21: at any point of any history, a CAKE call panics exactly when the message does not have the length the step expects (or the
session is over); otherwise it returns `Ok`. It never returns `Err`. -/
theorem C21_cake_input_validation (P : SymPrims) (E : Kem) (ssid : Ssid) (pw : Bytes) (role : Role) (t : List Event)
    (s : (cakePake P E).State)
    (h : Trace (cakePake P E).run ((cakePake P E).new () ssid pw role) t s) (c : KemCoins E) (m : Bytes) :
    ((cakePake P E).run s c m = .panic ↔ cakeExpected role t.length ≠ some m.length) ∧
    (cakeExpected role t.length = some m.length → ∃ s' o, (cakePake P E).run s c m = .ok s' o) := by
  have key : (cakeExpected role t.length = some m.length → ∃ s' o, Cake.run P s c m = .ok s' o) ∧
      (cakeExpected role t.length ≠ some m.length → Cake.run P s c m = .panic) := by
    obtain ⟨-, -, hi⟩ := Cake.trace_inv P ssid pw role t s h
    rcases hi with ⟨rfl, rfl, hn, -⟩ | ⟨rfl, -, hl, hn, -, -, sk, hsk⟩ | ⟨rfl, -, hl, hn, -⟩ | ⟨rfl, rfl, hn, -⟩ | ⟨rfl, -, hl, hn, -⟩
    · constructor
      · intro hm
        have : m = [] := by
          simp only [cakeExpected, List.length_nil, Option.some.injEq] at hm
          exact List.length_eq_zero_iff.mp hm.symm
        subst this
        obtain ⟨y, -, -, r⟩ := Cake.run0 P s hn c
        exact ⟨_, _, r⟩
      · intro hm
        exact Cake.run0_panic P s hn c m (by rintro rfl; exact hm rfl)
    · rw [hl]
      constructor
      · intro hm
        obtain ⟨_, -, r⟩ := Cake.run2 P s hn sk hsk c m (by simpa [cakeExpected] using hm.symm)
        exact ⟨_, _, r⟩
      · intro hm
        exact Cake.run2_panic P s hn c m (by intro h; exact hm (by simp [cakeExpected, h]))
    · rw [hl]
      exact ⟨fun hm => by simp [cakeExpected] at hm, fun _ => Cake.run_late P s (by omega) c m⟩
    · constructor
      · intro hm
        obtain ⟨_, _, -, -, -, r⟩ := Cake.run1 P s hn c m (by simpa [cakeExpected] using hm.symm)
        exact ⟨_, _, r⟩
      · intro hm
        exact Cake.run1_panic P s hn c m (by intro h; exact hm (by simp [cakeExpected, h]))
    · rw [hl]
      exact ⟨fun hm => by simp [cakeExpected] at hm, fun _ => Cake.run_late P s (by omega) c m⟩
  refine ⟨⟨fun hp he => ?_, key.2⟩, key.1⟩
  obtain ⟨s', o, hr⟩ := key.1 he
  have hp : Cake.run P s c m = .panic := hp
  rw [hr] at hp
  simp at hp

/-- The initiator really gets to its second call, where 736 bytes are expected. -/
example (P : SymPrims) (E : Kem) (ssid : Ssid) (pw : Bytes) (c : KemCoins E) :
    ∃ s o, Trace (cakePake P E).run ((cakePake P E).new () ssid pw .initiator) [⟨[], some (some o)⟩] s ∧
    cakeExpected .initiator 1 = some 736 := by
  obtain ⟨y, -, -, r⟩ := Cake.run0 P (Cake.new E ssid pw .initiator) (by simp [Cake.new]) c
  exact ⟨_, y, Trace.ok (t := []) .nil r, rfl⟩

/-! ## CPace -/

/-- C22: honest CPace users with the same password bytes and ssid finish after three calls with equal keys, given the crate's
advertised agreement. -/
theorem C22_cpace_agreement (L : CpaceLib) (hL : L.Correct) (ssid : Ssid) (pw : Bytes) (c0 c1 c2 : L.Coins) :
    ∃ m1 m2 qI qR k, converse (cpacePake L).run (cpacePake L).isDone [c0, c1, c2]
        ((cpacePake L).new () ssid pw .initiator) ((cpacePake L).new () ssid pw .responder) []
          = some ([m1, m2], qI, qR) ∧
      (cpacePake L).isDone qI = true ∧ (cpacePake L).isDone qR = true ∧
      (cpacePake L).finalize qI = some k ∧ (cpacePake L).finalize qR = some k := by
  obtain ⟨st, h1⟩ := hL.step1_ok c0 (base64 pw) cpaceInit cpaceResp ssid.1
  obtain ⟨p, k, h2, h3⟩ := hL.agree c0 c1 _ _ _ _ _ h1
  have l1 := (L.packet st).2
  have l2 := p.2
  have n1 : (L.packet st).1 ≠ [] := by
    intro h; have := hL.step1Len_pos; simp [h] at l1; omega
  have n2 : p.1 ≠ [] := by
    intro h; have := hL.step2Len_pos; simp [h] at l2; omega
  have r1 : Cpace.run (Cpace.new L ssid pw .initiator) c0 [] =
      .ok { Cpace.new L ssid pw .initiator with step1State := some st, nextStep := 2 } (some (L.packet st).1) := by
    simp [Cpace.new, Cpace.run, Cpace.body, h1]
  have r2 : Cpace.run (Cpace.new L ssid pw .responder) c1 (L.packet st).1 =
      .ok { Cpace.new L ssid pw .responder with outputKey := some k, done := true, nextStep := 3 } (some p.1) := by
    simp [Cpace.new, Cpace.run, Cpace.body, toArr?_val, h2]
  have r3 : Cpace.run { Cpace.new L ssid pw .initiator with step1State := some st, nextStep := 2 } c2 p.1 =
      .ok { Cpace.new L ssid pw .initiator with
        step1State := some st, outputKey := some k, done := true, nextStep := 4 } none := by
    simp [Cpace.new, Cpace.run, Cpace.body, toArr?_val, h3]
  exact ⟨_, _, _, _, k, converse_cons rfl r1 n1 (converse_cons rfl r2 n2 (converse_last rfl r3 rfl rfl)), rfl, rfl, rfl, rfl⟩

/-- C22 (encoding): the string handed to CPace determines the password bytes, so different passwords are really different
CPace passwords. -/
theorem C22_password_encoding_injective (pw pw' : Bytes) (h : base64 pw = base64 pw') : pw = pw' :=
  base64_injective pw pw' h

/-- C22 (different passwords or ssids): whatever a completed session computed, it called the CPace crate with the base64 of its own
password, its own ssid and the two role constants — the responder's key is the crate's output on those. -/
theorem C22_responder_key (L : CpaceLib) (ssid : Ssid) (pw : Bytes) (c : L.Coins) (m : Bytes) (s o)
    (h : (cpacePake L).run ((cpacePake L).new () ssid pw .responder) c m = .ok s o) :
    ∃ p q k, toArr? L.step1Len m = some p ∧
      L.step2 c p (base64 pw) (ascii "latke_cpace_initiator") (ascii "latke_cpace_responder") ssid.1 = some (q, k) ∧
      o = some q.1 ∧ (cpacePake L).finalize s = some k := by
  simp only [cpacePake, Cpace.run, Cpace.body, Cpace.new] at h
  cases hp : toArr? L.step1Len m with
  | none => simp [hp] at h
  | some p =>
    cases hs : L.step2 c p (base64 pw) cpaceInit cpaceResp ssid.1 with
    | none => simp [hp, hs] at h
    | some r =>
      obtain ⟨q, k⟩ := r
      simp [hp, hs] at h
      obtain ⟨rfl, rfl⟩ := h
      exact ⟨p, q, k, rfl, hs, rfl, rfl⟩

theorem toyCpace_correct : toyCpace.Correct where
  step1Len_pos := by decide
  step2Len_pos := by decide
  step1_ok c pw a b ad := ⟨_, rfl⟩
  agree := fun (c c' : UInt8) pw a b ad st h => by
    obtain rfl : (c, pw ++ a ++ b ++ ad) = st := Option.some.inj h
    refine ⟨_, _, rfl, ?_⟩
    simp only [toyCpace, List.map_cons, List.map_nil]
    have key : ∀ x y : UInt8, x * 5 * y = y * 5 * x := by
      intro x y
      rw [UInt8.mul_comm x 5, UInt8.mul_comm y 5, UInt8.mul_assoc, UInt8.mul_assoc, UInt8.mul_comm x y]
    rw [key c' c]

example : ∃ L : CpaceLib, L.Correct ∧ Nonempty L.Coins := ⟨toyCpace, toyCpace_correct, ⟨(3 : UInt8)⟩⟩

/-! ## KC-SPAKE2 -/

/-- C23: honest KC-SPAKE2 users with the same password and ssid complete after four calls and three messages with the same key. -/
theorem C23_kcspake2_agreement (P : SymPrims) (S : Spake2) (hS : S.Correct) (ssid : Ssid) (pw : Bytes) (cI cR : S.Coins) :
    ∃ m1 m2 m3 qI qR k, converse (kcSpake2Pake P S).run (kcSpake2Pake P S).isDone [(), (), (), ()]
        ((kcSpake2Pake P S).new cI ssid pw .initiator) ((kcSpake2Pake P S).new cR ssid pw .responder) []
          = some ([m1, m2, m3], qI, qR) ∧
      (kcSpake2Pake P S).isDone qI = true ∧ (kcSpake2Pake P S).isDone qR = true ∧
      (kcSpake2Pake P S).finalize qI = some k ∧ (kcSpake2Pake P S).finalize qR = some k := by
  obtain ⟨key, hI, hR⟩ := hS.agree cI cR pw ssid.1
  have nI := hS.msg_ne cI pw ssid.1
  generalize hsh : KcSpake2.sessHash P pw (S.start cI pw ssid.1).2 (S.start cR pw ssid.1).2 key = sh
  have l0 : sh.1.length = 32 := by rw [← hsh]; simp [KcSpake2.sessHash, (P.hkdfExpand _ _ 96).2]
  have l1 : sh.2.1.length = 32 := by rw [← hsh]; simp [KcSpake2.sessHash, (P.hkdfExpand _ _ 96).2]
  have n2 : (S.start cR pw ssid.1).2 ++ sh.2.1 ≠ [] := by
    intro h; have := List.append_eq_nil_iff.mp h; simp [this.2] at l1
  have n3 : sh.1 ≠ [] := by intro h; simp [h] at l0
  have r1 : KcSpake2.run P (KcSpake2.new S cI ssid pw .initiator) () [] =
      .ok { KcSpake2.new S cI ssid pw .initiator with nextStep := 2 } (some (S.start cI pw ssid.1).2) := by
    simp [KcSpake2.run, KcSpake2.new]
  have r2 : KcSpake2.run P (KcSpake2.new S cR ssid pw .responder) () (S.start cI pw ssid.1).2 =
      .ok { KcSpake2.new S cR ssid pw .responder with
        pakeState := none, macs := some (sh.1, sh.2.1), outputKey := some sh.2.2, nextStep := 3 }
        (some ((S.start cR pw ssid.1).2 ++ sh.2.1)) := by
    simp [KcSpake2.run, KcSpake2.new, hR, hsh]
  have r3 : KcSpake2.run (S := S) P { KcSpake2.new S cI ssid pw .initiator with nextStep := 2 } ()
        ((S.start cR pw ssid.1).2 ++ sh.2.1) =
      .ok { KcSpake2.new S cI ssid pw .initiator with
        pakeState := none, macs := some (sh.1, sh.2.1), outputKey := some sh.2.2, done := true, nextStep := 4 }
        (some sh.1) := by
    simp [KcSpake2.run, KcSpake2.new, splitEnd?_append l1, hI, hsh]
  have r4 : KcSpake2.run (S := S) P { KcSpake2.new S cR ssid pw .responder with
        pakeState := none, macs := some (sh.1, sh.2.1), outputKey := some sh.2.2, nextStep := 3 } () sh.1 =
      .ok { KcSpake2.new S cR ssid pw .responder with
        pakeState := none, macs := some (sh.1, sh.2.1), outputKey := some sh.2.2, done := true, nextStep := 5 } none := by
    simp [KcSpake2.run]
  exact ⟨_, _, _, _, _, sh.2.2,
    converse_cons rfl r1 nI (converse_cons rfl r2 n2 (converse_cons rfl r3 n3 (converse_last rfl r4 rfl rfl))), rfl, rfl, rfl, rfl⟩

theorem toySpake2_correct : toySpake2.Correct where
  msg_ne c pw i := by simp [toySpake2]
  agree := fun (c c' : UInt8) pw i => by
    have key : ∀ x y : UInt8, x * 5 * y = y * 5 * x := by
      intro x y
      rw [UInt8.mul_comm x 5, UInt8.mul_comm y 5, UInt8.mul_assoc, UInt8.mul_assoc, UInt8.mul_comm x y]
    refine ⟨_, rfl, ?_⟩
    simp only [toySpake2]
    rw [key c' c]

example : ∃ S : Spake2, S.Correct ∧ Nonempty S.Coins := ⟨toySpake2, toySpake2_correct, ⟨(3 : UInt8)⟩⟩

/-- The 96 bytes a KC-SPAKE2 party derives from its view: password, first SPAKE2 message, second SPAKE2 message, SPAKE2 key
(Shoup's "sess_hash"): bytes 0–31 are the confirmation sent by the initiator, bytes 32–63 the one sent by the responder, the rest
the session key. -/
def kcView (P : SymPrims) (pw m1 m2 key : Bytes) : Bytes :=
  (P.hkdfExpand key (pw ++ ascii "latke_kc_spake2" ++ m1 ++ m2 ++ key) 96).1

/-- C24 (initiator): whatever the history, an initiator that reports completion made exactly two calls: the first produced its SPAKE2
message `m1`, the second was given `m2 ‖ mac` where SPAKE2 finishes on `m2` with some key and `mac` is exactly bytes 32–63 of
the initiator's own view; its key is the rest of that view. -/
theorem C24_kcspake2_confirmed_initiator (P : SymPrims) (S : Spake2) (c : S.Coins) (ssid : Ssid) (pw : Bytes)
    (t : List Event) (s : (kcSpake2Pake P S).State)
    (h : Trace (kcSpake2Pake P S).run ((kcSpake2Pake P S).new c ssid pw .initiator) t s)
    (hd : (kcSpake2Pake P S).isDone s = true) :
    ∃ m2 mac key out, t = [⟨[], some (some (S.start c pw ssid.1).2)⟩, ⟨m2 ++ mac, some (some out)⟩] ∧
      S.finish (S.start c pw ssid.1).1 m2 = some key ∧
      mac = ((kcView P pw (S.start c pw ssid.1).2 m2 key).drop 32).take 32 ∧
      out = (kcView P pw (S.start c pw ssid.1).2 m2 key).take 32 ∧
      ((kcSpake2Pake P S).finalize s).map (·.1) = some ((kcView P pw (S.start c pw ssid.1).2 m2 key).drop 64) := by
  have hd : s.done = true := hd
  rcases KcSpake2.trace_inv_init P c ssid pw t s h with ⟨rfl, rfl⟩ | ⟨rfl, rfl⟩ | ⟨pm, mac, key, rfl, hf, hmac, hn, hp, hnd, hk⟩ |
    ⟨pm, key, rfl, hf, hn, -, hk⟩
  · simp [KcSpake2.new] at hd
  · simp [KcSpake2.new] at hd
  · simp [hnd] at hd
  · refine ⟨pm, _, key, _, rfl, hf, rfl, rfl, ?_⟩
    show s.outputKey.map (·.1) = _
    rw [hk]; rfl

/-- C24 (responder): a responder that reports completion accepted exactly one SPAKE2 message `m1` and then, after possibly rejecting
any number of wrong confirmations, exactly bytes 0–31 of its own view. -/
theorem C24_kcspake2_confirmed_responder (P : SymPrims) (S : Spake2) (c : S.Coins) (ssid : Ssid) (pw : Bytes)
    (t : List Event) (s : (kcSpake2Pake P S).State)
    (h : Trace (kcSpake2Pake P S).run ((kcSpake2Pake P S).new c ssid pw .responder) t s)
    (hd : (kcSpake2Pake P S).isDone s = true) :
    ∃ m1 key out errs, t = ⟨m1, some (some out)⟩ :: errs ++
        [⟨(kcView P pw m1 (S.start c pw ssid.1).2 key).take 32, some none⟩] ∧
      (∀ e ∈ errs, e.outcome = none) ∧
      S.finish (S.start c pw ssid.1).1 m1 = some key ∧
      out = (S.start c pw ssid.1).2 ++ ((kcView P pw m1 (S.start c pw ssid.1).2 key).drop 32).take 32 ∧
      ((kcSpake2Pake P S).finalize s).map (·.1) = some ((kcView P pw m1 (S.start c pw ssid.1).2 key).drop 64) := by
  have hd : s.done = true := hd
  rcases KcSpake2.trace_inv_resp P c ssid pw t s h with ⟨rfl, rfl⟩ | ⟨m1, key, errs, hf, rfl, he, rfl⟩ | ⟨m1, key, errs, hf, rfl, he, rfl⟩
  · simp [KcSpake2.new] at hd
  · simp [KcSpake2.afterFirst, KcSpake2.new] at hd
  · exact ⟨m1, key, _, errs, rfl, fun e h => (he e h).1, hf, rfl, rfl⟩

/-! ## `finalize` before completion -/

/-- C25: CAKE hands out a key exactly when it is done, after every history. -/
theorem C25_cake_finalize_iff_done (P : SymPrims) (E : Kem) (ssid : Ssid) (pw : Bytes) (role : Role) (t : List Event)
    (s : (cakePake P E).State)
    (h : Trace (cakePake P E).run ((cakePake P E).new () ssid pw role) t s) :
    (∃ k, (cakePake P E).finalize s = some k) ↔ (cakePake P E).isDone s = true := by
  show (∃ k, s.sessKey = some k) ↔ s.done = true
  obtain ⟨-, -, hi⟩ := Cake.trace_inv P ssid pw role t s h
  rcases hi with ⟨-, -, -, hd, hk⟩ | ⟨-, -, -, -, hd, hk, -⟩ | ⟨-, -, -, -, hd, k, hk⟩ | ⟨-, -, -, hd, hk⟩ | ⟨-, -, -, -, hd, k, hk⟩ <;>
    simp [hd, hk]

/-- C25: CPace hands out a key exactly when it is done, after every history. -/
theorem C25_cpace_finalize_iff_done (L : CpaceLib) (ssid : Ssid) (pw : Bytes) (role : Role) (t : List Event)
    (s : (cpacePake L).State)
    (h : Trace (cpacePake L).run ((cpacePake L).new () ssid pw role) t s) :
    (∃ k, (cpacePake L).finalize s = some k) ↔ (cpacePake L).isDone s = true := by
  show (∃ k, s.outputKey = some k) ↔ s.done = true
  rcases Cpace.trace_inv ssid pw role t s h with ⟨-, -, -, hd, hk⟩ | ⟨-, -, -, hd, hk⟩ | ⟨-, -, -, hd, k, hk⟩ | ⟨-, -, -, hd, hk⟩ |
    ⟨-, -, -, hd, k, hk⟩ <;> simp [hd, hk]

/-- C25, negation for KC-SPAKE2 (responder): after any first message on which SPAKE2 finishes, `finalize` returns a key although the
session is not done: nothing has been confirmed. -/
theorem C25_kcspake2_key_before_done_responder (P : SymPrims) (S : Spake2) (c : S.Coins) (ssid : Ssid) (pw m1 key : Bytes)
    (hf : S.finish (S.start c pw ssid.1).1 m1 = some key) :
    ∃ s o k, Trace (kcSpake2Pake P S).run ((kcSpake2Pake P S).new c ssid pw .responder) [⟨m1, some (some o)⟩] s ∧
      (kcSpake2Pake P S).isDone s = false ∧ (kcSpake2Pake P S).finalize s = some k := by
  have r : (kcSpake2Pake P S).run ((kcSpake2Pake P S).new c ssid pw .responder) () m1 =
      .ok (KcSpake2.afterFirst P c ssid pw m1 key)
        (some ((S.start c pw ssid.1).2 ++ (KcSpake2.sessHash P pw m1 (S.start c pw ssid.1).2 key).2.1)) := by
    simp [kcSpake2Pake, KcSpake2.run, KcSpake2.new, hf, KcSpake2.afterFirst]
  exact ⟨_, _, _, Trace.ok (t := []) .nil r, rfl, rfl⟩

/-- C25, negation for KC-SPAKE2 (initiator): after a *rejected* confirmation the initiator still hands out a key. -/
theorem C25_kcspake2_key_after_failure_initiator (P : SymPrims) (S : Spake2) (c : S.Coins) (ssid : Ssid)
    (pw m2 key mac : Bytes) (hf : S.finish (S.start c pw ssid.1).1 m2 = some key) (hl : mac.length = 32)
    (hm : mac ≠ ((kcView P pw (S.start c pw ssid.1).2 m2 key).drop 32).take 32) :
    ∃ s k, Trace (kcSpake2Pake P S).run ((kcSpake2Pake P S).new c ssid pw .initiator)
        [⟨[], some (some (S.start c pw ssid.1).2)⟩, ⟨m2 ++ mac, none⟩] s ∧
      (kcSpake2Pake P S).isDone s = false ∧ (kcSpake2Pake P S).finalize s = some k := by
  have hm' : (KcSpake2.sessHash P pw (S.start c pw ssid.1).2 m2 key).2.1 ≠ mac := fun h => hm h.symm
  have r1 : (kcSpake2Pake P S).run ((kcSpake2Pake P S).new c ssid pw .initiator) () [] =
      .ok { KcSpake2.new S c ssid pw .initiator with nextStep := 2 } (some (S.start c pw ssid.1).2) := by
    simp [kcSpake2Pake, KcSpake2.run, KcSpake2.new]
  have r2 : (kcSpake2Pake P S).run { KcSpake2.new S c ssid pw .initiator with nextStep := 2 } () (m2 ++ mac) =
      .err { KcSpake2.new S c ssid pw .initiator with
        nextStep := 2, pakeState := none
        macs := some ((KcSpake2.sessHash P pw (S.start c pw ssid.1).2 m2 key).1,
          (KcSpake2.sessHash P pw (S.start c pw ssid.1).2 m2 key).2.1)
        outputKey := some (KcSpake2.sessHash P pw (S.start c pw ssid.1).2 m2 key).2.2 } .mk := by
    simp [kcSpake2Pake, KcSpake2.run, KcSpake2.new, splitEnd?_append hl, hf, hm']
  exact ⟨_, _, Trace.err (t := [_]) (Trace.ok (t := []) .nil r1) r2, rfl, rfl⟩

/-! ## One-shot sessions -/

/-- The number of successful calls a CAKE or CPace session of a role can make. -/
def threeStepCalls : Role → Nat
  | .initiator => 2
  | .responder => 1

/-- C26 for CAKE: at most two (initiator) or one (responder) successful calls; done exactly when that many were made; and a done session
panics on every further call. -/
theorem C26_cake_one_shot (P : SymPrims) (E : Kem) (ssid : Ssid) (pw : Bytes) (role : Role) (t : List Event)
    (s : (cakePake P E).State) (h : Trace (cakePake P E).run ((cakePake P E).new () ssid pw role) t s) :
    okCount t ≤ threeStepCalls role ∧ ((cakePake P E).isDone s = true ↔ okCount t = threeStepCalls role) ∧
    ((cakePake P E).isDone s = true → ∀ c m, (cakePake P E).run s c m = .panic) := by
  show okCount t ≤ threeStepCalls role ∧ (s.done = true ↔ okCount t = threeStepCalls role) ∧ (s.done = true → ∀ c m, Cake.run P s c m = .panic)
  obtain ⟨-, -, hi⟩ := Cake.trace_inv P ssid pw role t s h
  rcases hi with ⟨rfl, rfl, hn, hd, hk⟩ | ⟨rfl, ht, -, hn, hd, hk, -⟩ | ⟨rfl, ht, -, hn, hd, k, hk⟩ | ⟨rfl, rfl, hn, hd, hk⟩ |
    ⟨rfl, ht, -, hn, hd, k, hk⟩
  · simp [hd, okCount, threeStepCalls]
  · simp [hd, ht, threeStepCalls]
  · simp only [hd, ht, threeStepCalls, true_and, forall_const, Nat.le_refl]
    exact fun c m => Cake.run_late P s (by omega) c m
  · simp [hd, okCount, threeStepCalls]
  · simp only [hd, ht, threeStepCalls, true_and, forall_const, Nat.le_refl]
    exact fun c m => Cake.run_late P s (by omega) c m

/-- C26 for CPace. -/
theorem C26_cpace_one_shot (L : CpaceLib) (ssid : Ssid) (pw : Bytes) (role : Role) (t : List Event)
    (s : (cpacePake L).State) (h : Trace (cpacePake L).run ((cpacePake L).new () ssid pw role) t s) :
    okCount t ≤ threeStepCalls role ∧ ((cpacePake L).isDone s = true ↔ okCount t = threeStepCalls role) ∧
    ((cpacePake L).isDone s = true → ∀ c m, (cpacePake L).run s c m = .panic) := by
  show okCount t ≤ threeStepCalls role ∧ (s.done = true ↔ okCount t = threeStepCalls role) ∧ (s.done = true → ∀ c m, Cpace.run s c m = .panic)
  rcases Cpace.trace_inv ssid pw role t s h with ⟨rfl, rfl, hn, hd, hk⟩ | ⟨rfl, ht, hn, hd, hk⟩ | ⟨rfl, ht, hn, hd, k, hk⟩ |
    ⟨rfl, rfl, hn, hd, hk⟩ | ⟨rfl, ht, hn, hd, k, hk⟩
  · simp [hd, okCount, threeStepCalls]
  · simp [hd, ht, threeStepCalls]
  · simp only [hd, ht, threeStepCalls, true_and, forall_const, Nat.le_refl]
    exact fun c m => Cpace.run_late s (by omega) c m
  · simp [hd, okCount, threeStepCalls]
  · simp only [hd, ht, threeStepCalls, true_and, forall_const, Nat.le_refl]
    exact fun c m => Cpace.run_late s (by omega) c m

private theorem okCount_errs (errs : List Event) (h : ∀ e ∈ errs, e.outcome = none) : okCount errs = 0 := by
  rw [okCount, List.countP_eq_zero]
  intro e he
  simp [h e he]

/-- C26 for KC-SPAKE2: two successful calls in either role. -/
theorem C26_kcspake2_one_shot (P : SymPrims) (S : Spake2) (c : S.Coins) (ssid : Ssid) (pw : Bytes) (role : Role) (t : List Event)
    (s : (kcSpake2Pake P S).State) (h : Trace (kcSpake2Pake P S).run ((kcSpake2Pake P S).new c ssid pw role) t s) :
    okCount t ≤ 2 ∧ ((kcSpake2Pake P S).isDone s = true ↔ okCount t = 2) ∧
    ((kcSpake2Pake P S).isDone s = true → ∀ u m, (kcSpake2Pake P S).run s u m = .panic) := by
  show okCount t ≤ 2 ∧ (s.done = true ↔ okCount t = 2) ∧ (s.done = true → ∀ u m, KcSpake2.run P s u m = .panic)
  cases role with
  | initiator =>
    rcases KcSpake2.trace_inv_init P c ssid pw t s h with ⟨rfl, rfl⟩ | ⟨rfl, rfl⟩ | ⟨pm, mac, key, rfl, hf, hmac, hn, hp, hnd, hk⟩ |
      ⟨pm, key, rfl, hf, hn, hd, hk⟩
    · simp [KcSpake2.new, okCount]
    · simp [KcSpake2.new, okCount]
    · simp [hnd, okCount]
    · simp only [hd, okCount]
      exact ⟨by simp, by simp, fun _ u m => KcSpake2.run_late P s (by omega) u m⟩
  | responder =>
    rcases KcSpake2.trace_inv_resp P c ssid pw t s h with ⟨rfl, rfl⟩ | ⟨m1, key, errs, hf, rfl, he, rfl⟩ | ⟨m1, key, errs, hf, rfl, he, rfl⟩
    · simp [KcSpake2.new, okCount]
    · have := okCount_errs errs fun e h => (he e h).1
      simp only [okCount] at this
      simp [KcSpake2.afterFirst, KcSpake2.new, okCount, this]
    · have := okCount_errs errs fun e h => (he e h).1
      simp only [okCount] at this
      refine ⟨?_, ?_, fun _ u m => KcSpake2.run_late P _ (by simp) u m⟩
      · simp [okCount, this]
      · simp [okCount, this]

/-! ## Retrying confirmations -/

/-- C27, negation (responder): after the first message, *any* list of wrong confirmations is processed, each giving an error and leaving
the session as it was, and a right one afterwards still completes the session with the confirmed key. -/
theorem C27_responder_unlimited_guesses (P : SymPrims) (S : Spake2) (c : S.Coins) (ssid : Ssid) (pw m1 key : Bytes)
    (hf : S.finish (S.start c pw ssid.1).1 m1 = some key) (guesses : List Bytes)
    (hg : ∀ g ∈ guesses, g ≠ (kcView P pw m1 (S.start c pw ssid.1).2 key).take 32) :
    ∃ o s, Trace (kcSpake2Pake P S).run ((kcSpake2Pake P S).new c ssid pw .responder)
        (⟨m1, some (some o)⟩ :: guesses.map (⟨·, none⟩) ++ [⟨(kcView P pw m1 (S.start c pw ssid.1).2 key).take 32, some none⟩]) s ∧
      (kcSpake2Pake P S).isDone s = true := by
  have r : (kcSpake2Pake P S).run ((kcSpake2Pake P S).new c ssid pw .responder) () m1 =
      .ok (KcSpake2.afterFirst P c ssid pw m1 key)
        (some ((S.start c pw ssid.1).2 ++ (KcSpake2.sessHash P pw m1 (S.start c pw ssid.1).2 key).2.1)) := by
    simp [kcSpake2Pake, KcSpake2.run, KcSpake2.new, hf, KcSpake2.afterFirst]
  have t1 := Trace.ok (t := []) .nil r
  have t2 : ∀ gs : List Bytes, (∀ g ∈ gs, g ≠ (kcView P pw m1 (S.start c pw ssid.1).2 key).take 32) →
      ∀ t, Trace (kcSpake2Pake P S).run ((kcSpake2Pake P S).new c ssid pw .responder) t (KcSpake2.afterFirst P c ssid pw m1 key) →
        Trace (kcSpake2Pake P S).run ((kcSpake2Pake P S).new c ssid pw .responder) (t ++ gs.map (⟨·, none⟩))
          (KcSpake2.afterFirst P c ssid pw m1 key) := by
    intro gs
    induction gs with
    | nil => intro _ t h; simpa using h
    | cons g gs ih =>
      intro hgs t h
      have hne : (KcSpake2.sessHash P pw m1 (S.start c pw ssid.1).2 key).1 ≠ g :=
        fun e => hgs g (by simp) e.symm
      have r2 : (kcSpake2Pake P S).run (KcSpake2.afterFirst P c ssid pw m1 key) () g =
          .err (KcSpake2.afterFirst P c ssid pw m1 key) .mk := by
        simp [kcSpake2Pake, KcSpake2.run, KcSpake2.afterFirst, hne]
      have := ih (fun g' h' => hgs g' (by simp [h'])) _ (Trace.err h r2)
      simpa using this
  have r3 : (kcSpake2Pake P S).run (KcSpake2.afterFirst P c ssid pw m1 key) ()
      ((kcView P pw m1 (S.start c pw ssid.1).2 key).take 32) =
        .ok { KcSpake2.afterFirst P c ssid pw m1 key with done := true, nextStep := 5 } none := by
    have : (KcSpake2.sessHash P pw m1 (S.start c pw ssid.1).2 key).1 = (kcView P pw m1 (S.start c pw ssid.1).2 key).take 32 := rfl
    simp [kcSpake2Pake, KcSpake2.run, KcSpake2.afterFirst, this]
  exact ⟨_, _, Trace.ok (t2 guesses hg _ t1) r3, rfl⟩

/-- C27, the part that holds: at the initiator a rejected confirmation is final, every further call panics. -/
theorem C27_initiator_single_guess (P : SymPrims) (S : Spake2) (c : S.Coins) (ssid : Ssid) (pw : Bytes)
    (t : List Event) (s : (kcSpake2Pake P S).State)
    (h : Trace (kcSpake2Pake P S).run ((kcSpake2Pake P S).new c ssid pw .initiator) t s)
    (hf : ∃ e ∈ t, e.outcome = none) : ∀ u m, (kcSpake2Pake P S).run s u m = .panic := by
  intro u m
  show KcSpake2.run P s u m = .panic
  rcases KcSpake2.trace_inv_init P c ssid pw t s h with ⟨rfl, rfl⟩ | ⟨rfl, rfl⟩ | ⟨pm, mac, key, rfl, -, -, hn, hp, hnd, hk⟩ |
    ⟨pm, key, rfl, -, hn, hd, hk⟩
  · simp at hf
  · simp at hf
  · simp only [KcSpake2.run, hn, hp]
    split <;> rfl
  · exact KcSpake2.run_late P s (by omega) u m

/-- A concrete session in which the hypotheses of the C24/C25/C27 theorems hold: SPAKE2 finishes on the peer's message, and a zero
confirmation is wrong. -/
example : toySpake2.finish (toySpake2.start (3 : UInt8) [1, 2] (ByteArr.rep 32 1).1).1
      (toySpake2.start (4 : UInt8) [1, 2] (ByteArr.rep 32 1).1).2 = some (toyMix 11 [60] ([1, 2] ++ (ByteArr.rep 32 1).1) 32).1 ∧
    List.replicate 32 (0 : UInt8) ≠ (kcView toyPrims [1, 2] [20] [15] (toyMix 11 [60] ([1, 2] ++ (ByteArr.rep 32 1).1) 32).1).take 32 := by
  constructor <;> decide +kernel

end Verif.Props
