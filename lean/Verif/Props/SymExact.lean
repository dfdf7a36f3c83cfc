import Verif.Props.IdealCipher
import Verif.Props.Eue

/-! # C69–C71: exact format of the authenticated encryption, exact wide-block cipher, EUE keys after an error

C01–C10 would still hold of a cipher that used the wrong half of its key, or left out the nonce, consistently on
both sides. The theorems here fix the bytes. -/

namespace Verif.Props
open Verif Verif.Latke

/-! ## C69 -/

/-- Specification of the sealed format: `ciphertext ‖ nonce ‖ tag`, with the ciphertext the message masked with the
keystream of `(encKey, nonce)` and the tag the HMAC under `macKey` of `ciphertext ‖ nonce`. -/
structure IsSealing (P : SymPrims) (encKey macKey nonce msg sealed : Bytes) : Prop where
  nonce_len : nonce.length = 12
  bytes : ∃ ct : Bytes, ct.length = msg.length ∧
    (∀ i (h : i < ct.length) (h' : i < msg.length)
      (h'' : i < (P.keystream encKey nonce msg.length).1.length),
      ct[i] = msg[i] ^^^ (P.keystream encKey nonce msg.length).1[i]) ∧
    sealed = ct ++ nonce ++ (P.hmac macKey (ct ++ nonce)).1

private theorem xor_getElem {a b : Bytes} {i : Nat} (h : i < (xorBytes a b).length) :
    (xorBytes a b)[i] = a[i]'(by rw [length_xorBytes] at h; omega) ^^^ b[i]'(by rw [length_xorBytes] at h; omega) := by
  simp [xorBytes]

private theorem isSealing_iff (P : SymPrims) (ek mk nonce msg sealed : Bytes) :
    IsSealing P ek mk nonce msg sealed ↔ nonce.length = 12 ∧
      sealed = (xorBytes msg (P.keystream ek nonce msg.length).1) ++ nonce ++
        (P.hmac mk ((xorBytes msg (P.keystream ek nonce msg.length).1) ++ nonce)).1 := by
  have hl : (xorBytes msg (P.keystream ek nonce msg.length).1).length = msg.length := by
    rw [length_xorBytes, (P.keystream _ _ _).2]; simp
  constructor
  · rintro ⟨hn, ct, h1, h2, h3⟩
    have : ct = xorBytes msg (P.keystream ek nonce msg.length).1 := by
      apply List.ext_getElem (by rw [h1, hl])
      intro i hi hi'
      rw [h2 i hi (by omega) (by rw [(P.keystream _ _ _).2]; omega), xor_getElem]
    exact ⟨hn, by rw [← this]; exact h3⟩
  · rintro ⟨hn, h⟩
    refine ⟨hn, _, hl, ?_, h⟩
    intro i hi hi' hi''
    rw [xor_getElem]

/-- C69: `auth_encrypt` produces exactly the sealed format, with the encryption key the first 32 bytes of the key and
the MAC key the last 32 bytes. -/
theorem C69_seal_format (P : SymPrims) (nonce : ByteArr 12) (ek mk : ByteArr 32) (msg : Bytes)
    (key : AuthEncKey) (hkey : key.1 = ek.1 ++ mk.1) :
    IsSealing P ek.1 mk.1 nonce.1 msg (authEncrypt P nonce key msg) := by
  rw [isSealing_iff]
  refine ⟨nonce.2, ?_⟩
  have h1 : key.1.take 32 = ek.1 := by rw [hkey, List.take_append_of_le_length (Nat.le_of_eq ek.2.symm), List.take_of_length_le (Nat.le_of_eq ek.2)]
  have h2 : key.1.drop 32 = mk.1 := by rw [hkey, List.drop_append_of_le_length (Nat.le_of_eq ek.2.symm), List.drop_of_length_le (Nat.le_of_eq ek.2), List.nil_append]
  simp only [authEncrypt, h1, h2]

/-- C69: `auth_decrypt` returns `msg` on exactly the sealings of `msg` (under any 12-byte nonce). -/
theorem C69_open_iff (P : SymPrims) (ek mk : ByteArr 32) (key : AuthEncKey) (hkey : key.1 = ek.1 ++ mk.1)
    (sealed msg : Bytes) :
    authDecrypt P key sealed = .ok msg ↔ ∃ nonce : Bytes, IsSealing P ek.1 mk.1 nonce msg sealed := by
  have h1 : key.1.take 32 = ek.1 := by rw [hkey, List.take_append_of_le_length (Nat.le_of_eq ek.2.symm), List.take_of_length_le (Nat.le_of_eq ek.2)]
  have h2 : key.1.drop 32 = mk.1 := by rw [hkey, List.drop_append_of_le_length (Nat.le_of_eq ek.2.symm), List.drop_of_length_le (Nat.le_of_eq ek.2), List.nil_append]
  constructor
  · intro h
    unfold authDecrypt at h
    simp only [h1, h2] at h
    split at h
    · simp at h
    · rename_i body mac hs
      split at h
      · simp at h
      · rename_i ct nonce hn
        split at h
        · rename_i hm
          obtain ⟨e1, _⟩ := splitEnd?_eq_some hs
          obtain ⟨e3, e4⟩ := splitEnd?_eq_some hn
          simp only [Res.ok.injEq] at h
          have hlen : msg.length = ct.length := by
            rw [← h, length_xorBytes, (P.keystream _ _ _).2]; simp
          have hct : xorBytes msg (P.keystream ek.1 nonce msg.length).1 = ct := by
            rw [hlen, ← h, xorBytes_self_cancel _ _ (P.keystream _ _ _).2.symm]
          refine ⟨nonce, (isSealing_iff ..).mpr ⟨e4, ?_⟩⟩
          rw [hct, ← e3, hm]
          exact e1
        · simp at h
  · rintro ⟨nonce, h⟩
    obtain ⟨hn, hs⟩ := (isSealing_iff ..).mp h
    have := C01_authenc_roundtrip P ⟨nonce, hn⟩ key msg
    have e : authEncrypt P ⟨nonce, hn⟩ key msg = sealed := by
      simp only [authEncrypt, h1, h2]; exact hs.symm
    rwa [e] at this

/-- C69: nothing but an output of `auth_encrypt` under the same key is ever accepted. -/
theorem C69_accepts_only_encryptions (P : SymPrims) (key : AuthEncKey) (sealed msg : Bytes)
    (h : authDecrypt P key sealed = .ok msg) : ∃ nonce : ByteArr 12, sealed = authEncrypt P nonce key msg := by
  have hk : key.1 = key.1.take 32 ++ key.1.drop 32 := (List.take_append_drop 32 key.1).symm
  obtain ⟨n, hn⟩ := (C69_open_iff P ⟨key.1.take 32, by simp [key.2]⟩ ⟨key.1.drop 32, by simp [key.2]⟩ key hk sealed msg).mp h
  obtain ⟨h12, hs⟩ := (isSealing_iff ..).mp hn
  exact ⟨⟨n, h12⟩, hs⟩

/-- Non-vacuity of C69: a concrete key splits into two different halves, and a concrete sealing under them is accepted. -/
example :
    let ek : ByteArr 32 := ⟨List.replicate 32 3, by simp⟩
    let mk : ByteArr 32 := ⟨List.replicate 32 4, by simp⟩
    let key : AuthEncKey := ⟨ek.1 ++ mk.1, by simp [ek, mk]⟩
    let nonce : ByteArr 12 := ⟨List.replicate 12 9, by simp⟩
    ek.1 ≠ mk.1 ∧ authDecrypt toyPrims key (authEncrypt toyPrims nonce key [1, 2, 3]) = .ok [1, 2, 3] := by
  decide +kernel

/-! ## C70 -/

/-- Specification: one application of the deck function to a domain-separated string. -/
def deckOn (P : SymPrims) (key : Bytes) (dom : Char) (input : Bytes) (suffix : UInt8) (n : Nat) : Bytes :=
  (P.deck key (ascii (String.singleton dom) ++ input ++ [suffix]) n).1

/-- C70: encryption is the four-round Farfalle-WBC network on `L ‖ R`, `|L| = 16`, with the four deck calls separated by their
first and last bytes: `R₀ ⊕= F('h' L 0)`, `L ⊕= F('g' R 1)`, `R ⊕= F('g' L 0)`, `L ⊕= F('h' R 1)`. -/
theorem C70_encrypt_is_farfalle_wbc (P : SymPrims) (key l0 r0 rest : Bytes) (hl : l0.length = 16) (hr : r0.length = 16)
    (r1 l1 r2 l2 : Bytes)
    (h1 : r1 = xorBytes r0 (deckOn P key 'h' l0 0 16) ++ rest)
    (h2 : l1 = xorBytes l0 (deckOn P key 'g' r1 1 16))
    (h3 : r2 = xorBytes r1 (deckOn P key 'g' l1 0 r1.length))
    (h4 : l2 = xorBytes l1 (deckOn P key 'h' r2 1 16)) :
    wideBlockEncrypt P key (l0 ++ r0 ++ rest) = some (l2 ++ r2) := by
  have eh : ascii (String.singleton 'h') = [chH] := by decide +kernel
  have eg : ascii (String.singleton 'g') = [chG] := by decide +kernel
  have dk : ∀ k i s n, deckOn P k 'h' i s n = evalDeck P k chH s i n := by
    intros; simp only [deckOn, evalDeck, eh]
  have dg : ∀ k i s n, deckOn P k 'g' i s n = evalDeck P k chG s i n := by
    intros; simp only [deckOn, evalDeck, eg]
  have hl1 : l1.length = 16 := by
    rw [h2, length_xorBytes, deckOn, (P.deck _ _ _).2, hl]; rfl
  unfold wideBlockEncrypt
  have s1 : roundR0 P key (l0 ++ r0 ++ rest) = some (l0 ++ r1) := by
    unfold roundR0
    rw [List.append_assoc, splitAt?_append hl]
    simp only [Option.bind_eq_bind, Option.bind_some]
    rw [splitAt?_append hr]
    simp only [Option.bind_some, Option.pure_def, Option.some.injEq]
    rw [h1, dk, hr]
  have s2 : roundL P key (l0 ++ r1) = some (l1 ++ r1) := by
    unfold roundL
    rw [splitAt?_append hl]
    simp only [Option.bind_eq_bind, Option.bind_some, Option.pure_def, Option.some.injEq]
    rw [h2, dg, hl]
  have s3 : roundR P key (l1 ++ r1) = some (l1 ++ r2) := by
    unfold roundR
    rw [splitAt?_append hl1]
    simp only [Option.bind_eq_bind, Option.bind_some, Option.pure_def, Option.some.injEq]
    rw [h3, dg]
  have s4 : roundL0 P key (l1 ++ r2) = some (l2 ++ r2) := by
    unfold roundL0
    rw [splitAt?_append hl1]
    simp only [Option.bind_eq_bind, Option.bind_some, Option.pure_def]
    have : splitAt? 16 l1 = some (l1, []) := by
      have := splitAt?_append (n := 16) (a := l1) (b := []) hl1
      rwa [List.append_nil] at this
    rw [this]
    simp only [Option.bind_some, Option.some.injEq, List.append_nil]
    rw [h4, dk, hl1]
  rw [s1]; simp only [Option.bind_eq_bind, Option.bind_some]
  rw [s2]; simp only [Option.bind_some]
  rw [s3]; simp only [Option.bind_some]
  exact s4

/-- C70: decryption runs the same four deck calls in the opposite order: it maps `L₂ ‖ R₂` back to the block. -/
theorem C70_decrypt_is_inverse_farfalle_wbc (P : SymPrims) (key l0 r0 rest : Bytes) (hl : l0.length = 16)
    (hr : r0.length = 16) (r1 l1 r2 l2 : Bytes)
    (h1 : r1 = xorBytes r0 (deckOn P key 'h' l0 0 16) ++ rest)
    (h2 : l1 = xorBytes l0 (deckOn P key 'g' r1 1 16))
    (h3 : r2 = xorBytes r1 (deckOn P key 'g' l1 0 r1.length))
    (h4 : l2 = xorBytes l1 (deckOn P key 'h' r2 1 16)) :
    wideBlockDecrypt P key (l2 ++ r2) = some (l0 ++ r0 ++ rest) := by
  have h := C70_encrypt_is_farfalle_wbc P key l0 r0 rest hl hr r1 l1 r2 l2 h1 h2 h3 h4
  obtain ⟨y, hy, hd⟩ := C05_decrypt_encrypt P key (l0 ++ r0 ++ rest)
    (by simp only [List.length_append, hl, hr]; omega)
  rw [h] at hy
  simp only [Option.some.injEq] at hy
  rw [hy]; exact hd

/-- Non-vacuity of C70: every block of at least 32 bytes has the required shape. -/
example (x : Bytes) (h : 32 ≤ x.length) : ∃ l0 r0 rest : Bytes, x = l0 ++ r0 ++ rest ∧ l0.length = 16 ∧ r0.length = 16 :=
  ⟨x.take 16, (x.drop 16).take 16, (x.drop 16).drop 16, by
    rw [List.append_assoc, List.take_append_drop, List.take_append_drop], by simp; omega, by simp; omega⟩

/-! ## C71 -/

/-- Specification: the session was created as `e0` and its calls so far ended as listed, oldest first
(`true` for `Ok`, `false` for `Err`), on arbitrary inputs. -/
inductive Eue.Calls {I : Ibke} (P : SymPrims) (e0 : Eue I) : List Bool → Eue I → Prop
  | nil : Eue.Calls P e0 [] e0
  | ok {os e e' c inc out} : Eue.Calls P e0 os e → e.run P c inc = .ok e' out → Eue.Calls P e0 (os ++ [true]) e'
  | err {os e e' c inc er} : Eue.Calls P e0 os e → e.run P c inc = .err e' er → Eue.Calls P e0 (os ++ [false]) e'

/-- Specification: how far the calls so far moved the key chain: two per `Ok`, one per `Err`. -/
def chainSteps (os : List Bool) : Nat := 2 * os.count true + os.count false

/-- Specification: number of the key the next call decrypts with. -/
def recvKeyNo : Role → List Bool → Nat
  | .initiator, os => chainSteps os - 1
  | .responder, os => chainSteps os

/-- Specification: number of the key the next call encrypts with. -/
def sendKeyNo : Role → List Bool → Nat
  | .initiator, os => chainSteps os
  | .responder, os => chainSteps os + 1

private theorem run_err_inv {I : Ibke} {P : SymPrims} {e e' : Eue I} {c : EueCoins I} {inc : Bytes}
    {er : I.Err} (hr : e.realMode = true) (h : e.run P c inc = .err e' er) :
    ∃ (m : Bytes) (s : I.State),
      ((inc = [] ∧ m = []) ∨ (inc ≠ [] ∧ authDecrypt P e.msgKey inc = .ok m)) ∧
      I.run e.sess c.ibke m = .err s er ∧
      e' = { (if !e.nextStepIsFirst then e.ratchet P else { e with nextStepIsFirst := false } : Eue I) with sess := s } := by
  unfold Eue.run at h
  cases hd : e.decryptIncoming P inc with
  | none => rw [hd] at h; simp at h
  | some r =>
    obtain ⟨e0, om⟩ := r
    obtain ⟨rfl, m, rfl, hm⟩ := decryptIncoming_inv hr hd
    rw [hd] at h
    have hreal : (if !e0.nextStepIsFirst then e0.ratchet P else { e0 with nextStepIsFirst := false } : Eue I).realMode = true := by
      split <;> simpa [Eue.ratchet] using hr
    have hsess : (if !e0.nextStepIsFirst then e0.ratchet P else { e0 with nextStepIsFirst := false } : Eue I).sess = e0.sess := by
      split <;> rfl
    simp only [hreal, if_true, hsess] at h
    cases hrun : I.run e0.sess c.ibke m with
    | panic => rw [hrun] at h; simp at h
    | ok s o => rw [hrun] at h; simp at h
    | err s er' =>
      rw [hrun] at h
      simp only [Step.err.injEq] at h
      refine ⟨m, s, hm, by rw [hrun, h.2], ?_⟩
      rw [← h.1]
      simp only [hreal]

private theorem _root_.Verif.Latke.AtStart.step_ok {I : Ibke} {P : SymPrims} {ik : ByteArr 32} {ssid : Ssid} {e e' : Eue I}
    {c : EueCoins I} {inc : Bytes} {out : Option Bytes} (h : AtStart P ik ssid e) (hrun : e.run P c inc = .ok e' out) :
    AtKey P ik ssid 1 e' := by
  obtain ⟨m, s', o, e1, _, _, h1, h2, _⟩ := Eue.run_ok_inv h.real hrun
  have hk : AtKey P ik ssid 0 ({ e1 with sess := s' } : Eue I) := by
    subst h1; rw [h.first]; exact ⟨h.msg, h.chain, rfl, h.real⟩
  rw [h2]; exact hk.ratchet

private theorem _root_.Verif.Latke.AtKey.step_ok {I : Ibke} {P : SymPrims} {ik : ByteArr 32} {ssid : Ssid} {e e' : Eue I} {n : Nat}
    {c : EueCoins I} {inc : Bytes} {out : Option Bytes} (h : AtKey P ik ssid n e) (hrun : e.run P c inc = .ok e' out) :
    AtKey P ik ssid (n + 2) e' := by
  obtain ⟨m, s', o, e1, _, _, h1, h2, _⟩ := Eue.run_ok_inv h.real hrun
  have hk : AtKey P ik ssid (n + 1) ({ e1 with sess := s' } : Eue I) := by
    subst h1; rw [h.first]
    have := h.ratchet
    exact ⟨this.msg, this.chain, this.first, this.real⟩
  rw [h2]; exact hk.ratchet

theorem calls_pos (I : Ibke) (P : SymPrims) (ik : ByteArr 32) (ssid : Ssid) (c : I.SessCoins)
    (mpk : I.MainPubkey) (cert : I.Certificate) (usk : I.UserPrivkey) (role : Role) (os : List Bool) (e : Eue I)
    (h : Eue.Calls P (Eue.newSession P c ssid mpk cert usk role ik) os e) :
    (role = .initiator ∧ os = [] ∧ AtStart P ik ssid e) ∨
    (¬(role = .initiator ∧ os = []) ∧ AtKey P ik ssid (recvKeyNo role os) e) := by
  induction h with
  | nil =>
    cases role with
    | initiator => exact Or.inl ⟨rfl, rfl, newSession_initiator ..⟩
    | responder => exact Or.inr ⟨by simp, newSession_responder ..⟩
  | @ok os e e' c inc out _ hrun ih =>
    right
    refine ⟨by simp, ?_⟩
    rcases ih with ⟨rfl, rfl, hk⟩ | ⟨hn, hk⟩
    · exact hk.step_ok hrun
    · have := hk.step_ok hrun
      have e2 : recvKeyNo role (os ++ [true]) = recvKeyNo role os + 2 := by
        cases role with
        | responder => simp [recvKeyNo, chainSteps, List.count_append]; omega
        | initiator =>
          have hne : os ≠ [] := fun h => hn ⟨rfl, h⟩
          have : 0 < chainSteps os := by
            cases os with
            | nil => exact absurd rfl hne
            | cons b _ => cases b <;> simp [chainSteps] <;> omega
          simp only [recvKeyNo, chainSteps, List.count_append, List.count_cons, List.count_nil] at *
          simp; omega
      rw [e2]; exact this
  | @err os e e' c inc er _ hrun ih =>
    right
    refine ⟨by simp, ?_⟩
    rcases ih with ⟨rfl, rfl, hk⟩ | ⟨hn, hk⟩
    · obtain ⟨m, s, _, _, rfl⟩ := run_err_inv hk.real hrun
      rw [hk.first]
      exact ⟨hk.msg, hk.chain, rfl, hk.real⟩
    · obtain ⟨m, s, _, _, rfl⟩ := run_err_inv hk.real hrun
      rw [hk.first]
      have hr := hk.ratchet
      have e2 : recvKeyNo role (os ++ [false]) = recvKeyNo role os + 1 := by
        cases role with
        | responder => simp [recvKeyNo, chainSteps, List.count_append]; omega
        | initiator =>
          have hne : os ≠ [] := fun h => hn ⟨rfl, h⟩
          have : 0 < chainSteps os := by
            cases os with
            | nil => exact absurd rfl hne
            | cons b _ => cases b <;> simp [chainSteps] <;> omega
          simp only [recvKeyNo, chainSteps, List.count_append, List.count_cons, List.count_nil] at *
          simp; omega
      rw [e2]
      exact ⟨hr.msg, hr.chain, hr.first, hr.real⟩

/-- C71: in every history of calls that returned, with or without errors, the next call that returns `Ok` decrypted with key
number `recvKeyNo`, sealed with key number `sendKeyNo`, and ran the wrapped protocol on the decryption: an `Err` advances the
chain by one, an `Ok` by two. -/
theorem C71_keys_after_errors (I : Ibke) (P : SymPrims) (ik : ByteArr 32) (ssid : Ssid) (c : I.SessCoins)
    (mpk : I.MainPubkey) (cert : I.Certificate) (usk : I.UserPrivkey) (role : Role) (os : List Bool)
    (e e' : Eue I) (cc : EueCoins I) (inc : Bytes) (out : Option Bytes)
    (h : Eue.Calls P (Eue.newSession P c ssid mpk cert usk role ik) os e)
    (hrun : e.run P cc inc = .ok e' out) :
    ∃ (m : Bytes) (o : Option Bytes),
      (if inc = [] then m = [] else authDecrypt P (msgKeyAt P ik ssid (recvKeyNo role os)) inc = .ok m) ∧
      I.run e.sess cc.ibke m = .ok e'.sess o ∧
      out = o.map fun p => if p = [] then [] else authEncrypt P cc.nonce (msgKeyAt P ik ssid (sendKeyNo role os)) p := by
  have hpos := calls_pos I P ik ssid c mpk cert usk role os e h
  have hreal : e.realMode = true := by
    rcases hpos with ⟨_, _, hk⟩ | ⟨_, hk⟩ <;> exact hk.real
  obtain ⟨m, s', o, e1, hm, hir, h1, h2, h3⟩ := Eue.run_ok_inv hreal hrun
  have hmsg : e.msgKey = msgKeyAt P ik ssid (recvKeyNo role os) := by
    rcases hpos with ⟨rfl, rfl, hk⟩ | ⟨_, hk⟩ <;> exact hk.msg
  have hsend : e1.msgKey = msgKeyAt P ik ssid (sendKeyNo role os) := by
    rcases hpos with ⟨rfl, rfl, hk⟩ | ⟨hn, hk⟩
    · rw [h1, hk.first]; exact hk.msg
    · rw [h1, hk.first]
      have := hk.ratchet.msg
      have e2 : recvKeyNo role os + 1 = sendKeyNo role os := by
        cases role with
        | responder => rfl
        | initiator =>
          have hne : os ≠ [] := fun h => hn ⟨rfl, h⟩
          have : 0 < chainSteps os := by
            cases os with
            | nil => exact absurd rfl hne
            | cons b _ => cases b <;> simp [chainSteps] <;> omega
          simp only [recvKeyNo, sendKeyNo]; omega
      rw [← e2]; exact this
  refine ⟨m, o, ?_, ?_, ?_⟩
  · rcases hm with ⟨h, h'⟩ | ⟨h, h'⟩
    · rw [if_pos h]; exact h'
    · rw [if_neg h, ← hmsg]; exact h'
  · rw [h2]; exact hir
  · rw [h3, hsend]
    congr 1
    funext p
    by_cases hp : p = []
    · simp [hp]
    · simp [hp, List.length_pos_iff]

/-- C71, consequence: if a call returned `Err`, an honest message for the position that call was waiting for makes the next call
panic, unless its tag happens to verify under the next key too: the two sessions are out of step for good. -/
theorem C71_no_retry_after_error (I : Ibke) (P : SymPrims) (ik : ByteArr 32) (ssid : Ssid) (c : I.SessCoins)
    (mpk : I.MainPubkey) (cert : I.Certificate) (usk : I.UserPrivkey) (role : Role) (os : List Bool)
    (e e' : Eue I) (cc cc' : EueCoins I) (inc : Bytes) (er : I.Err) (nonce : ByteArr 12) (msg : Bytes)
    (h : Eue.Calls P (Eue.newSession P c ssid mpk cert usk role ik) os e)
    (hnotfirst : ¬(role = .initiator ∧ os = []))
    (hrun : e.run P cc inc = .err e' er)
    (hmac : ∀ m, authDecrypt P (msgKeyAt P ik ssid (recvKeyNo role os + 1))
      (authEncrypt P nonce (msgKeyAt P ik ssid (recvKeyNo role os)) msg) ≠ .ok m) :
    e'.run P cc' (authEncrypt P nonce (msgKeyAt P ik ssid (recvKeyNo role os)) msg) = .panic := by
  have hk : AtKey P ik ssid (recvKeyNo role os) e := by
    rcases calls_pos I P ik ssid c mpk cert usk role os e h with ⟨h1, h2, _⟩ | ⟨_, hk⟩
    · exact absurd ⟨h1, h2⟩ hnotfirst
    · exact hk
  obtain ⟨m, s, _, _, rfl⟩ := run_err_inv hk.real hrun
  have hr := hk.ratchet
  refine C09_decryption_failure_panics I P _ _ cc' _ ?_ Eue.Reach.start ?_ ?_
  · rw [hk.first]; exact hr.real
  · intro h0
    have := C02_authenc_length P nonce (msgKeyAt P ik ssid (recvKeyNo role os)) msg
    rw [h0] at this; simp at this
  · intro m hm
    rw [hk.first] at hm
    exact hmac m (by rw [← hr.msg]; exact hm)

/-- A toy exchange that fails on one message, to show that the hypotheses of C71 are met. -/
def toyErrIbke : Ibke :=
  { toyIbke with run := fun s c inc => if inc = [9] then .err s () else toyRun s c inc }

/-- Non-vacuity of C71: a fresh responder rejects a concrete authentic message with `Err`, and the same message sent again makes it panic. -/
example :
    let e0 := Eue.newSession (I := toyErrIbke) toyPrims () toyId1 () toyId2 () .responder toyId2
    let w := authEncrypt toyPrims toyNonce (msgKeyAt toyPrims toyId2 toyId1 0) [9]
    (match e0.run toyPrims ⟨(5 : UInt8), toyNonce⟩ w with
      | .err e1 _ => (match e1.run toyPrims ⟨(5 : UInt8), toyNonce⟩ w with | .panic => true | _ => false)
      | _ => false) = true := by
  decide +kernel

end Verif.Props
