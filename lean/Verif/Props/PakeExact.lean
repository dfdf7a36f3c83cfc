import Verif.Props.Pake
import Mathlib.Data.List.GetD

/-! # C72–C73: what the PAKEs compute and what they accept, exactly

C20 and C22 only say that honest parties agree, which many wrong programs satisfy; here the messages and keys are pinned to the
primitives, for arbitrary incoming messages, and the outcome of every call of every history is given as a function of the
history. -/

namespace Verif.Props
open Verif Verif.Latke

/-! ## C72: CAKE -/

/-- Specification: the ideal-cipher key of CAKE for direction `d`: HKDF-Expand keyed with the hash of the password, on the direction
byte followed by the session id. -/
def cakeKey (P : SymPrims) (d : UInt8) (ssid : Ssid) (pw : Bytes) : Bytes :=
  (P.hkdfExpand (P.hash256 pw).1 (d :: ssid.1) 32).1

/-- C72 (initiator): the first message is the encryption, under the direction-0 key, of the encoding of the fresh public key; whatever
736 bytes come back, the session key is the decapsulation, with the fresh secret key, of the ciphertext of which these bytes are
the encryption under the direction-1 key. -/
theorem C72_cake_initiator (P : SymPrims) (E : Kem) (ssid : Ssid) (pw : Bytes) (c c' : KemCoins E) :
    ∃ s1 m1, (cakePake P E).run ((cakePake P E).new () ssid pw .initiator) c [] = .ok s1 (some m1) ∧
      wideBlockEncrypt P (cakeKey P 0 ssid pw) (E.pkToBytes (E.keygen c.key).1).1 = some m1 ∧
      ∀ m2 : ByteArr 736, ∃ (ct : ByteArr 736) (s2 : (cakePake P E).State),
        (cakePake P E).run s1 c' m2.1 = .ok s2 none ∧
        wideBlockEncrypt P (cakeKey P 1 ssid pw) ct.1 = some m2.1 ∧
        (cakePake P E).finalize s2 = some (E.decap ct (E.keygen c.key).2) := by
  obtain ⟨y, h1, -, h3⟩ := Cake.run0 P (Cake.new E ssid pw .initiator) rfl c
  refine ⟨_, y, h3, h1, ?_⟩
  intro m2
  obtain ⟨ct, h4, h5⟩ := Cake.run2 P { Cake.new E ssid pw .initiator with
    ephPk := some (E.keygen c.key).1, ephSk := some (E.keygen c.key).2, nextStep := 2 } rfl (E.keygen c.key).2 rfl c' m2.1 m2.2
  refine ⟨ct, _, h5, ?_, rfl⟩
  obtain ⟨x, h6, h7⟩ := C05_encrypt_decrypt P (cakeKey P 1 ssid pw) m2.1 (by rw [m2.2]; omega)
  have : some ct.1 = some x := h4.symm.trans h6
  rw [Option.some.inj this]; exact h7

/-- C72 (responder): whatever 672 bytes come in, they are the encryption, under the direction-0 key, of some public-key encoding; the
session key is the secret encapsulated to that key, and the reply is the encryption under the direction-1 key of the ciphertext. -/
theorem C72_cake_responder (P : SymPrims) (E : Kem) (ssid : Ssid) (pw : Bytes) (c : KemCoins E) (m1 : ByteArr 672) :
    ∃ (pk : ByteArr 672) (s : (cakePake P E).State) (m2 : Bytes),
      wideBlockEncrypt P (cakeKey P 0 ssid pw) pk.1 = some m1.1 ∧
      (cakePake P E).run ((cakePake P E).new () ssid pw .responder) c m1.1 = .ok s (some m2) ∧
      wideBlockEncrypt P (cakeKey P 1 ssid pw) (E.encap c.enc (E.pkFromBytes pk)).2.1 = some m2 ∧
      (cakePake P E).finalize s = some (E.encap c.enc (E.pkFromBytes pk)).1 := by
  obtain ⟨pk, y, h1, h2, -, h4⟩ := Cake.run1 P (Cake.new E ssid pw .responder) rfl c m1.1 m1.2
  refine ⟨pk, _, y, ?_, h4, h2, rfl⟩
  obtain ⟨x, h6, h7⟩ := C05_encrypt_decrypt P (cakeKey P 0 ssid pw) m1.1 (by rw [m1.2]; omega)
  have : some pk.1 = some x := h1.symm.trans h6
  rw [Option.some.inj this]; exact h7

/-- The two directions, and different session ids, give different inputs to the key derivation. -/
theorem C72_cake_key_inputs_distinct (d d' : UInt8) (ssid ssid' : Ssid) (h : d :: ssid.1 = d' :: ssid'.1) : d = d' ∧ ssid = ssid' := by
  simp only [List.cons.injEq] at h
  exact ⟨h.1, Subtype.ext h.2⟩

/-- Non-vacuity: the key really depends on the password, the direction and the session id in the toy instance. -/
example : cakeKey toyPrims 0 (.rep 32 1) [1, 2] ≠ cakeKey toyPrims 1 (.rep 32 1) [1, 2] ∧
    cakeKey toyPrims 0 (.rep 32 1) [1, 2] ≠ cakeKey toyPrims 0 (.rep 32 1) [1, 3] ∧
    cakeKey toyPrims 0 (.rep 32 1) [1, 2] ≠ cakeKey toyPrims 0 (.rep 32 2) [1, 2] := by
  decide +kernel

/-! ## C72: CPace -/

/-- The bits of a byte string, most significant first. -/
def bitsMsb (b : Bytes) : List Bool := b.flatMap fun x => (List.range 8).map fun i => x.toNat.testBit (7 - i)

/-- RFC 4648, section 4: the bits in groups of six, the last one filled with zero bits; then `=` up to a multiple of four characters. -/
def rfc4648 (b : Bytes) : Bytes :=
  let bits := bitsMsb b
  let n := (bits.length + 5) / 6
  ((List.range n).map fun i =>
    (ascii "ABCDEFGHIJKLMNOPQRSTUVWXYZabcdefghijklmnopqrstuvwxyz0123456789+/").getD
      ((List.range 6).map fun j => (bits.getD (6 * i + j) false).toNat * 2 ^ (5 - j)).sum 0) ++ List.replicate ((4 - n % 4) % 4) 0x3d

private theorem bitsMsb_length (b : Bytes) : (bitsMsb b).length = 8 * b.length := by
  unfold bitsMsb
  induction b with
  | nil => rfl
  | cons x l ih => rw [List.flatMap_cons, List.length_append, ih]; simp; omega

private theorem b64Char_lt (n : Nat) (h : n < 64) : b64Char n = b64Alphabet.getD n 0 := by unfold b64Char; rw [Nat.mod_eq_of_lt h]

private theorem bitsMsb_cons (x : UInt8) (l : Bytes) : bitsMsb (x :: l) = x.toNat.testBit 7 :: x.toNat.testBit 6 :: x.toNat.testBit 5 :: x.toNat.testBit 4 ::
    x.toNat.testBit 3 :: x.toNat.testBit 2 :: x.toNat.testBit 1 :: x.toNat.testBit 0 :: bitsMsb l := rfl

private theorem tb (x i : Nat) : (x.testBit i).toNat = x / 2 ^ i % 2 := by
  rw [Nat.testBit_eq_decide_div_mod_eq]
  have := Nat.mod_two_eq_zero_or_one (x / 2 ^ i)
  rcases this with h | h <;> rw [h] <;> rfl

private def grp (bits : List Bool) (i : Nat) : Nat := ((List.range 6).map fun j => (bits.getD (6 * i + j) false).toNat * 2 ^ (5 - j)).sum

private theorem rfc_eq (b : Bytes) : rfc4648 b = ((List.range ((8 * b.length + 5) / 6)).map fun i => b64Alphabet.getD (grp (bitsMsb b) i) 0) ++
    List.replicate ((4 - (8 * b.length + 5) / 6 % 4) % 4) 0x3d := by unfold rfc4648; simp only [bitsMsb_length]; rfl

private theorem grp_eq (l : List Bool) (i : Nat) : grp l i = (l.getD (6 * i) false).toNat * 32 + (l.getD (6 * i + 1) false).toNat * 16 +
    (l.getD (6 * i + 2) false).toNat * 8 + (l.getD (6 * i + 3) false).toNat * 4 + (l.getD (6 * i + 4) false).toNat * 2 + (l.getD (6 * i + 5) false).toNat := by
  unfold grp
  simp only [show List.range 6 = [0, 1, 2, 3, 4, 5] from rfl, List.map_cons, List.map_nil, List.sum_cons, List.sum_nil, Nat.add_zero]
  omega

private theorem grp_three (a b c : UInt8) (l : Bytes) (i : Nat) : grp (bitsMsb (a :: b :: c :: l)) (i + 4) = grp (bitsMsb l) i := by
  rw [grp_eq, grp_eq, bitsMsb_cons, bitsMsb_cons, bitsMsb_cons, show 6 * (i + 4) = 6 * i + 24 from by omega]
  rfl

/-- C72: the password encoding is that of RFC 4648. -/
theorem C72_base64_is_rfc4648 (pw : Bytes) : base64 pw = rfc4648 pw := by
  fun_induction base64 pw with
  | case1 => rfl
  | case2 a =>
    have ha := a.toNat_lt
    have e0 : grp (bitsMsb [a]) 0 = a.toNat / 4 := by
      rw [grp_eq, bitsMsb_cons]; simp only [List.getD_cons_zero, List.getD_cons_succ, Nat.mul_zero, Nat.zero_add, tb]; omega
    have e1 : grp (bitsMsb [a]) 1 = a.toNat % 4 * 16 := by
      rw [grp_eq, bitsMsb_cons]; simp only [Nat.mul_one, Nat.reduceAdd, List.getD_cons_zero, List.getD_cons_succ, tb, bitsMsb, List.flatMap_nil, List.getD_nil]
      simp only [Bool.toNat_false]; omega
    rw [rfc_eq, b64Char_lt _ (by omega), b64Char_lt _ (by omega), ← e0, ← e1]
    simp only [List.length_singleton, Nat.reduceMul, Nat.reduceAdd, Nat.reduceDiv, Nat.reduceMod, Nat.reduceSub]
    rfl
  | case3 a b =>
    have ha := a.toNat_lt
    have hb := b.toNat_lt
    have e0 : grp (bitsMsb [a, b]) 0 = a.toNat / 4 := by
      rw [grp_eq, bitsMsb_cons]; simp only [List.getD_cons_zero, List.getD_cons_succ, Nat.mul_zero, Nat.zero_add, tb]; omega
    have e1 : grp (bitsMsb [a, b]) 1 = a.toNat % 4 * 16 + b.toNat / 16 := by
      rw [grp_eq, bitsMsb_cons, bitsMsb_cons]; simp only [Nat.mul_one, Nat.reduceAdd, List.getD_cons_zero, List.getD_cons_succ, tb]; omega
    have e2 : grp (bitsMsb [a, b]) 2 = b.toNat % 16 * 4 := by
      rw [grp_eq, bitsMsb_cons, bitsMsb_cons]
      simp only [Nat.reduceMul, Nat.reduceAdd, List.getD_cons_zero, List.getD_cons_succ, tb, bitsMsb, List.flatMap_nil, List.getD_nil]
      simp only [Bool.toNat_false]; omega
    rw [rfc_eq, b64Char_lt _ (by omega), b64Char_lt _ (by omega), b64Char_lt _ (by omega), ← e0, ← e1, ← e2]
    simp only [List.length_cons, List.length_nil, Nat.reduceMul, Nat.reduceAdd, Nat.reduceDiv, Nat.reduceMod, Nat.reduceSub]
    rfl
  | case4 a b c rest ih =>
    have ha := a.toNat_lt
    have hb := b.toNat_lt
    have hc := c.toNat_lt
    have e0 : grp (bitsMsb (a :: b :: c :: rest)) 0 = a.toNat / 4 := by
      rw [grp_eq, bitsMsb_cons]; simp only [List.getD_cons_zero, List.getD_cons_succ, Nat.mul_zero, Nat.zero_add, tb]; omega
    have e1 : grp (bitsMsb (a :: b :: c :: rest)) 1 = a.toNat % 4 * 16 + b.toNat / 16 := by
      rw [grp_eq, bitsMsb_cons, bitsMsb_cons]; simp only [Nat.mul_one, Nat.reduceAdd, List.getD_cons_zero, List.getD_cons_succ, tb]; omega
    have e2 : grp (bitsMsb (a :: b :: c :: rest)) 2 = b.toNat % 16 * 4 + c.toNat / 64 := by
      rw [grp_eq, bitsMsb_cons, bitsMsb_cons, bitsMsb_cons]; simp only [Nat.reduceMul, Nat.reduceAdd, List.getD_cons_zero, List.getD_cons_succ, tb]; omega
    have e3 : grp (bitsMsb (a :: b :: c :: rest)) 3 = c.toNat % 64 := by
      rw [grp_eq, bitsMsb_cons, bitsMsb_cons, bitsMsb_cons]; simp only [Nat.reduceMul, Nat.reduceAdd, List.getD_cons_zero, List.getD_cons_succ, tb]; omega
    rw [ih, rfc_eq, rfc_eq, b64Char_lt _ (by omega), b64Char_lt _ (by omega), b64Char_lt _ (by omega), b64Char_lt _ (by omega), ← e0, ← e1, ← e2, ← e3]
    have hn : (8 * (a :: b :: c :: rest).length + 5) / 6 = (8 * rest.length + 5) / 6 + 4 := by simp only [List.length_cons]; omega
    rw [hn, show (8 * rest.length + 5) / 6 + 4 = (8 * rest.length + 5) / 6 + 1 + 1 + 1 + 1 from rfl]
    simp only [List.range_succ_eq_map, List.map_cons, List.map_map, List.cons_append]
    refine congrArg _ (congrArg _ (congrArg _ (congrArg _ ?_)))
    refine congrArg₂ _ ?_ (by congr 1; omega)
    apply List.map_congr_left
    intro i _
    simp only [Function.comp, Nat.succ_eq_add_one, Nat.add_assoc, Nat.reduceAdd, grp_three]

/-- "foobar", "fooba" and "foob" of RFC 4648, section 10. -/
example : rfc4648 (ascii "foobar") = ascii "Zm9vYmFy" ∧ rfc4648 (ascii "fooba") = ascii "Zm9vYmE=" ∧ rfc4648 (ascii "foob") = ascii "Zm9vYg==" := by decide +kernel

/-- C72 (CPace initiator): the first message is the packet of the crate's step 1 on the base64 password, the two role strings and the
session id; the key is the crate's step 3 on the state of that very step 1 and on the received bytes. -/
theorem C72_cpace_initiator (L : CpaceLib) (ssid : Ssid) (pw : Bytes) (c c' : L.Coins) (m1 m2 : Bytes) (s1 s2 o1 o2)
    (h1 : (cpacePake L).run ((cpacePake L).new () ssid pw .initiator) c m1 = .ok s1 o1)
    (h2 : (cpacePake L).run s1 c' m2 = .ok s2 o2) :
    ∃ st q k, L.step1 c (base64 pw) (ascii "latke_cpace_initiator") (ascii "latke_cpace_responder") ssid.1 = some st ∧
      m1 = [] ∧ o1 = some (L.packet st).1 ∧ m2 = q.1 ∧ o2 = none ∧
      L.step3 st q = some k ∧ (cpacePake L).finalize s2 = some k := by
  simp only [cpacePake, Cpace.run, Cpace.body, Cpace.new] at h1
  by_cases hm : m1.length = 0
  · cases hs : L.step1 c (base64 pw) cpaceInit cpaceResp ssid.1 with
    | none => simp [hm, hs] at h1
    | some st =>
      simp [hm, hs] at h1
      obtain ⟨rfl, rfl⟩ := h1
      simp only [cpacePake, Cpace.run, Cpace.body] at h2
      cases hp : toArr? L.step2Len m2 with
      | none => simp [hp] at h2
      | some q =>
        cases h3 : L.step3 st q with
        | none => simp [hp, h3] at h2
        | some k =>
          simp [hp, h3] at h2
          obtain ⟨rfl, rfl⟩ := h2
          exact ⟨st, q, k, hs, List.length_eq_zero_iff.mp hm, rfl, (toArr?_eq_some hp).symm, rfl, h3, rfl⟩
  · simp [hm] at h1

/-! ## C73: the outcome of every call -/

/-- The three possible outcomes of a call, without their data. -/
inductive Verdict where
  | ok
  | err
  | panic
  deriving DecidableEq

/-- The outcome of a call. -/
def verdict {σ ε α : Type} : Step σ ε α → Verdict
  | .ok _ _ => .ok
  | .err _ _ => .err
  | .panic => .panic

/-- Specification: the outcome of calling a KC-SPAKE2 session with message `m` after history `t`. -/
def kcVerdict (P : SymPrims) (S : Spake2) (c : S.Coins) (ssid : Ssid) (pw : Bytes) : Role → List Event → Bytes → Verdict
  | .initiator, [], m => if m = [] then .ok else .panic
  | .initiator, [_], m =>
    if m.length < 32 then .panic else
    let body := m.take (m.length - 32)
    match S.finish (S.start c pw ssid.1).1 body with
    | none => .panic
    | some key =>
      if m.drop (m.length - 32) = ((kcView P pw (S.start c pw ssid.1).2 body key).drop 32).take 32 then .ok else .err
  | .initiator, _, _ => .panic
  | .responder, [], m => if (S.finish (S.start c pw ssid.1).1 m).isSome then .ok else .panic
  | .responder, e :: rest, m =>
    if rest.any (·.outcome.isSome) then .panic else
    match S.finish (S.start c pw ssid.1).1 e.incoming with
    | none => .panic
    | some key => if m = (kcView P pw e.incoming (S.start c pw ssid.1).2 key).take 32 then .ok else .err

/-- C73 (KC-SPAKE2): in every history, every call panics, fails or succeeds exactly as the specification says. In particular the
peer can always crash an initiator by a message shorter than 32 bytes or an undecodable SPAKE2 message, and a responder
by an undecodable first message; wrong confirmations are errors, not panics. -/
theorem C73_kcspake2_outcome (P : SymPrims) (S : Spake2) (c : S.Coins) (ssid : Ssid) (pw : Bytes) (role : Role)
    (t : List Event) (s : (kcSpake2Pake P S).State)
    (h : Trace (kcSpake2Pake P S).run ((kcSpake2Pake P S).new c ssid pw role) t s) (u : Unit) (m : Bytes) :
    verdict ((kcSpake2Pake P S).run s u m) = kcVerdict P S c ssid pw role t m := by
  cases role with
  | initiator =>
    rcases KcSpake2.trace_inv_init P c ssid pw t s h with ⟨rfl, rfl⟩ | ⟨rfl, rfl⟩ | ⟨pm, mac, key, rfl, hf, hmac, hn, hp, hnd, hk⟩ |
      ⟨pm, key, rfl, hf, hn, -, hk⟩
    · by_cases hm : m = []
      · subst hm; simp [kcSpake2Pake, KcSpake2.run, KcSpake2.new, kcVerdict, verdict]
      · simp [kcSpake2Pake, KcSpake2.run, KcSpake2.new, kcVerdict, verdict, hm]
    · simp only [kcVerdict]
      by_cases hm : m.length < 32
      · have : splitEnd? 32 m = none := by simp [splitEnd?]; omega
        simp [kcSpake2Pake, KcSpake2.run, KcSpake2.new, verdict, hm, this]
      · have : splitEnd? 32 m = some (m.take (m.length - 32), m.drop (m.length - 32)) := by simp [splitEnd?]; omega
        cases hf : S.finish (S.start c pw ssid.1).1 (m.take (m.length - 32)) with
        | none => simp [kcSpake2Pake, KcSpake2.run, KcSpake2.new, verdict, hm, this, hf]
        | some key =>
          have e : ((kcView P pw (S.start c pw ssid.1).2 (m.take (m.length - 32)) key).drop 32).take 32 =
            (KcSpake2.sessHash P pw (S.start c pw ssid.1).2 (m.take (m.length - 32)) key).2.1 := rfl
          simp only [e, hm, if_false]
          by_cases hc : (KcSpake2.sessHash P pw (S.start c pw ssid.1).2 (m.take (m.length - 32)) key).2.1 = m.drop (m.length - 32)
          · simp [kcSpake2Pake, KcSpake2.run, KcSpake2.new, verdict, this, hf, hc]
          · have hc' : ¬ m.drop (m.length - 32) = (KcSpake2.sessHash P pw (S.start c pw ssid.1).2 (m.take (m.length - 32)) key).2.1 :=
              fun h => hc h.symm
            simp [kcSpake2Pake, KcSpake2.run, KcSpake2.new, verdict, this, hf, hc, hc']
    · have : KcSpake2.run P s u m = .panic := by
        simp only [KcSpake2.run, hn, hp]
        split <;> rfl
      show verdict (KcSpake2.run P s u m) = _
      rw [this]; rfl
    · show verdict (KcSpake2.run P s u m) = _
      rw [KcSpake2.run_late P s (by omega)]; rfl
  | responder =>
    rcases KcSpake2.trace_inv_resp P c ssid pw t s h with ⟨rfl, rfl⟩ | ⟨m1, key, errs, hf, rfl, he, rfl⟩ | ⟨m1, key, errs, hf, rfl, he, rfl⟩
    · cases hf : S.finish (S.start c pw ssid.1).1 m with
      | none => simp [kcSpake2Pake, KcSpake2.run, KcSpake2.new, kcVerdict, verdict, hf]
      | some key => simp [kcSpake2Pake, KcSpake2.run, KcSpake2.new, kcVerdict, verdict, hf]
    · have ha : (errs.any (·.outcome.isSome)) = false := by
        rw [List.any_eq_false]; intro e h; simp [(he e h).1]
      have e : (kcView P pw m1 (S.start c pw ssid.1).2 key).take 32 = (KcSpake2.sessHash P pw m1 (S.start c pw ssid.1).2 key).1 := rfl
      simp only [kcVerdict, ha, hf, e]
      by_cases hc : (KcSpake2.sessHash P pw m1 (S.start c pw ssid.1).2 key).1 = m
      · simp [kcSpake2Pake, KcSpake2.run, KcSpake2.afterFirst, verdict, hc]
      · have hc' : ¬ m = (KcSpake2.sessHash P pw m1 (S.start c pw ssid.1).2 key).1 := fun h => hc h.symm
        simp [kcSpake2Pake, KcSpake2.run, KcSpake2.afterFirst, verdict, hc, hc']
    · have hl := KcSpake2.run_late P { KcSpake2.afterFirst P c ssid pw m1 key with done := true, nextStep := 5 } (by simp) u m
      simp only [kcSpake2Pake, hl]
      simp [kcVerdict, verdict]

/-- Specification: the outcome of calling a CPace session with message `m` and coins `c` after `n` calls; `st` is the crate's state
after step 1 (for an initiator that made its first call). Never an error: a call panics exactly when the message has the wrong length for the step,
when the crate refuses it, or when the session is over. -/
def cpaceVerdict (L : CpaceLib) (c : L.Coins) (ssid : Ssid) (pw : Bytes) (st : Option L.Step1Out) : Role → Nat → Bytes → Verdict
  | .initiator, 0, m =>
    if m = [] ∧ (L.step1 c (base64 pw) (ascii "latke_cpace_initiator") (ascii "latke_cpace_responder") ssid.1).isSome then .ok else .panic
  | .initiator, 1, m =>
    if hm : m.length = L.step2Len then
      if (st.bind (L.step3 · ⟨m, hm⟩)).isSome then .ok else .panic
    else .panic
  | .responder, 0, m =>
    if hm : m.length = L.step1Len then
      if (L.step2 c ⟨m, hm⟩ (base64 pw) (ascii "latke_cpace_initiator") (ascii "latke_cpace_responder") ssid.1).isSome then .ok else .panic
    else .panic
  | _, _, _ => .panic

private theorem cpace_trace (L : CpaceLib) (ssid : Ssid) (pw : Bytes) (role : Role) (t : List Event) (s : Cpace L)
    (h : Trace Cpace.run (Cpace.new L ssid pw role) t s) :
    s.ssid = ssid ∧ s.password = base64 pw ∧
    ((role = .initiator ∧ t = [] ∧ s.nextStep = 0 ∧ s.step1State = none) ∨
     (role = .initiator ∧ s.nextStep = 2 ∧ ∃ c st, L.step1 c (base64 pw) cpaceInit cpaceResp ssid.1 = some st ∧
        t = [⟨[], some (some (L.packet st).1)⟩] ∧ s.step1State = some st) ∨
     (role = .initiator ∧ t.length = 2 ∧ s.nextStep = 4) ∨
     (role = .responder ∧ t = [] ∧ s.nextStep = 1) ∨
     (role = .responder ∧ t.length = 1 ∧ s.nextStep = 3)) := by
  induction h with
  | nil => cases role <;> simp [Cpace.new]
  | @ok t s c m s' o _ hr ih =>
    obtain ⟨i1, i2, ih⟩ := ih
    rcases ih with ⟨rfl, rfl, hn, hs⟩ | ⟨rfl, hn, c0, st, h1, rfl, hs⟩ | ⟨rfl, ht, hn⟩ | ⟨rfl, rfl, hn⟩ | ⟨rfl, ht, hn⟩
    · simp only [Cpace.run, Cpace.body, hn, i1, i2] at hr
      by_cases hm : m.length = 0
      · cases h1 : L.step1 c (base64 pw) cpaceInit cpaceResp ssid.1 with
        | none => simp [hm, h1] at hr
        | some st =>
          simp [hm, h1] at hr
          obtain ⟨rfl, rfl⟩ := hr
          refine ⟨rfl, rfl, .inr (.inl ⟨rfl, rfl, c, st, h1, ?_, rfl⟩)⟩
          rw [List.length_eq_zero_iff.mp hm]; rfl
      · simp [hm] at hr
    · obtain ⟨k, rfl⟩ := Cpace.run2_ok hn hr
      simp [i1, i2]
    · rw [Cpace.run_late s (by omega)] at hr; simp at hr
    · obtain ⟨k, rfl⟩ := Cpace.run1_ok hn hr
      simp [i1, i2]
    · rw [Cpace.run_late s (by omega)] at hr; simp at hr
  | err _ hr _ => exact absurd hr (Cpace.run_no_err _ _ _ _ _)

/-- C73 (CPace): the outcome of every call of every history. After an initiator's first call, `st` is a step-1 state of the crate on
the session's own password, role strings and session id, whose packet was the message sent. -/
theorem C73_cpace_outcome (L : CpaceLib) (ssid : Ssid) (pw : Bytes) (role : Role) (t : List Event) (s : (cpacePake L).State)
    (h : Trace (cpacePake L).run ((cpacePake L).new () ssid pw role) t s) :
    ∃ st : Option L.Step1Out,
      (role = .initiator → t.length = 1 → ∃ c0 st0, st = some st0 ∧
        L.step1 c0 (base64 pw) (ascii "latke_cpace_initiator") (ascii "latke_cpace_responder") ssid.1 = some st0 ∧
        t = [⟨[], some (some (L.packet st0).1)⟩]) ∧
      ∀ c m, verdict ((cpacePake L).run s c m) = cpaceVerdict L c ssid pw st role t.length m := by
  obtain ⟨i1, i2, ih⟩ := cpace_trace L ssid pw role t s h
  have ei : ascii "latke_cpace_initiator" = cpaceInit := rfl
  have er : ascii "latke_cpace_responder" = cpaceResp := rfl
  rcases ih with ⟨rfl, rfl, hn, hs⟩ | ⟨rfl, hn, c0, st, h1, rfl, hs⟩ | ⟨rfl, ht, hn⟩ | ⟨rfl, rfl, hn⟩ | ⟨rfl, ht, hn⟩
  · refine ⟨none, by simp, fun c m => ?_⟩
    simp only [cpacePake, Cpace.run, Cpace.body, hn, i1, i2, List.length_nil, cpaceVerdict, ei, er]
    by_cases hm : m = []
    · subst hm
      cases h1 : L.step1 c (base64 pw) cpaceInit cpaceResp ssid.1 <;> simp [h1, verdict]
    · simp [hm, verdict]
  · refine ⟨some st, fun _ _ => ⟨c0, st, rfl, h1, rfl⟩, fun c m => ?_⟩
    simp only [cpacePake, Cpace.run, Cpace.body, hn, i1, i2, hs, List.length_singleton, cpaceVerdict, toArr?]
    by_cases hm : m.length = L.step2Len
    · cases h3 : L.step3 st ⟨m, hm⟩ <;> simp [hm, h3, verdict]
    · simp [hm, verdict]
  · refine ⟨none, by omega, fun c m => ?_⟩
    have hl : (cpacePake L).run s c m = .panic := Cpace.run_late (L := L) s (by omega) c m
    rw [hl, ht]
    rfl
  · refine ⟨none, by simp, fun c m => ?_⟩
    simp only [cpacePake, Cpace.run, Cpace.body, hn, i1, i2, List.length_nil, cpaceVerdict, toArr?, ei, er]
    by_cases hm : m.length = L.step1Len
    · cases h3 : L.step2 c ⟨m, hm⟩ (base64 pw) cpaceInit cpaceResp ssid.1 <;> simp [hm, h3, verdict]
    · simp [hm, verdict]
  · refine ⟨none, by simp, fun c m => ?_⟩
    have hl : (cpacePake L).run s c m = .panic := Cpace.run_late (L := L) s (by omega) c m
    rw [hl, ht]
    rfl

/-- Non-vacuity of C73: all three outcomes occur in one toy KC-SPAKE2 session, and two in one CPace session. -/
example :
    let s0 := (kcSpake2Pake toyPrims toySpake2).new (3 : UInt8) (.rep 32 1) [1, 2] .initiator
    verdict ((kcSpake2Pake toyPrims toySpake2).run s0 () [7]) = .panic ∧
    verdict ((kcSpake2Pake toyPrims toySpake2).run s0 () []) = .ok ∧
    kcVerdict toyPrims toySpake2 (3 : UInt8) (.rep 32 1) [1, 2] .initiator [⟨[], some (some [15])⟩] (20 :: List.replicate 32 0) = .err ∧
    kcVerdict toyPrims toySpake2 (3 : UInt8) (.rep 32 1) [1, 2] .initiator [⟨[], some (some [15])⟩] (List.replicate 32 0) = .panic ∧
    cpaceVerdict toyCpace (3 : UInt8) (.rep 32 1) [1, 2] none .responder 0 [4] = .ok ∧
    cpaceVerdict toyCpace (3 : UInt8) (.rep 32 1) [1, 2] none .responder 0 [4, 4] = .panic := by
  decide +kernel

end Verif.Props
