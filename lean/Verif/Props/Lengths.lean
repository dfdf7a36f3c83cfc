import Verif.Props.LatkeExact
import Verif.Props.IbkeMessages
import Verif.Props.IdealCipher
import Verif.Latke.Ibke.SigmaSchemes

/-! # C88: message lengths and message counts are constants of the suite

For each protocol a table of lengths; the theorems say that in every history the successful calls of a session send messages of exactly the lengths of the
table, in order, `none` being no message, and that the session is done exactly when the table is used up.  The table depends on the role only: not on
the password, the identity, the keys, the coins or what the peer sent. -/

namespace Verif.Props
open Verif Verif.Latke

/-! ## Specification -/

/-- What the successful calls of a history sent: the length of each message, `none` for no message. -/
def sentLens (t : List Event) : List (Option Nat) := t.filterMap fun ev => ev.outcome.map (Option.map List.length)

/-- The calls of a session send messages of the lengths `lens`, in this order, and it is done exactly at the end of the list. -/
def Sends {σ ε κ : Type} (run : σ → κ → Bytes → Step σ ε (Option Bytes)) (done : σ → Bool) (s0 : σ) (lens : List (Option Nat)) : Prop :=
  ∀ t s, Trace run s0 t s → sentLens t <+: lens ∧ (done s = true ↔ sentLens t = lens)

/-- Every session of the key exchange sends messages of the lengths `lens role`. -/
def IbkeSends (I : Ibke) (lens : Role → List (Option Nat)) : Prop :=
  ∀ c ssid mpk cert usk role, Sends I.run I.isDone (I.newSession c ssid mpk cert usk role) (lens role)

/-- Every session of the PAKE sends messages of the lengths `lens role`. -/
def PakeSends (K : Pake) (lens : Role → List (Option Nat)) : Prop :=
  ∀ c ssid pw role, Sends K.run K.isDone (K.new c ssid pw role) (lens role)

/-- Length after sealing: a nonce of 12 and a tag of 32 bytes more; empty messages stay empty. -/
def sealedLen (n : Nat) : Nat := if n = 0 then 0 else n + 44

/-- Lengths of the encrypted exchange. -/
def eueLens (lens : List (Option Nat)) : List (Option Nat) := lens.map (Option.map sealedLen)

/-- Lengths of LATKE: those of the PAKE and then those of the encrypted exchange; where the initiator's PAKE ends without a message the first message of
the exchange is sent instead. -/
def latkeLens (lensK lensI : Role → List (Option Nat)) (role : Role) : List (Option Nat) :=
  (if role = .initiator ∧ (lensK role).getLast? = some none then (lensK role).dropLast else lensK role) ++ eueLens (lensI role)

/-! ## One session -/

private theorem sentLens_ok (t : List Event) (m : Bytes) (o : Option Bytes) :
    sentLens (t ++ [⟨m, some o⟩]) = sentLens t ++ [o.map List.length] := by simp [sentLens]

private theorem sentLens_err (t : List Event) (m : Bytes) : sentLens (t ++ [⟨m, none⟩]) = sentLens t := by simp [sentLens]

private theorem sends_of_inv {σ ε κ : Type} {run : σ → κ → Bytes → Step σ ε (Option Bytes)} {done : σ → Bool} {s0 : σ} {lens : List (Option Nat)}
    (Inv : Nat → σ → Prop) (h0 : Inv 0 s0)
    (hok : ∀ k s c m s' o, Inv k s → run s c m = .ok s' o → lens[k]? = some (o.map List.length) ∧ Inv (k + 1) s')
    (herr : ∀ k s c m s' e, Inv k s → run s c m = .err s' e → Inv k s')
    (hd : ∀ k s, Inv k s → (done s = true ↔ k = lens.length)) : Sends run done s0 lens := by
  have key : ∀ t s, Trace run s0 t s → Inv (sentLens t).length s ∧ sentLens t <+: lens := by
    intro t s h
    induction h with
    | nil => exact ⟨h0, by simp [sentLens]⟩
    | @ok t s c m s' o _ hr ih =>
      obtain ⟨h1, h2⟩ := hok _ _ _ _ _ _ ih.1 hr
      rw [sentLens_ok]
      refine ⟨by simpa using h2, ?_⟩
      obtain ⟨r, hr⟩ := ih.2
      subst hr
      rw [List.getElem?_append_right (le_refl _), Nat.sub_self] at h1
      cases r with
      | nil => simp at h1
      | cons x r => simp at h1; subst h1; exact ⟨r, by simp⟩
    | @err t s c m s' e _ hr ih => rw [sentLens_err]; exact ⟨herr _ _ _ _ _ _ ih.1 hr, ih.2⟩
  intro t s h
  obtain ⟨h1, h2⟩ := key t s h
  refine ⟨h2, (hd _ _ h1).trans ⟨fun h => h2.eq_of_length h, fun h => by rw [h]⟩⟩

/-- First step number of a role. -/
private def r0 (role : Role) : Nat := if role = .initiator then 0 else 1

/-- From a table by step number (what is sent, and whether the session is done afterwards) to the list of lengths. -/
private theorem sends_of_table {σ ε κ : Type} {run : σ → κ → Bytes → Step σ ε (Option Bytes)} {done : σ → Bool} {s0 : σ} {lens : List (Option Nat)}
    (role : Role) (next : σ → Nat) (J : σ → Prop) (tbl : Nat → Option (Option Nat × Bool))
    (hne : lens ≠ [])
    (htbl : ∀ k l d, tbl (r0 role + 2 * k) = some (l, d) → lens[k]? = some l ∧ d = decide (k + 1 = lens.length))
    (h0 : next s0 = r0 role) (hd0 : done s0 = false) (hJ0 : J s0)
    (hok : ∀ s c m s' o, J s → run s c m = .ok s' o → J s' ∧ ∃ d, tbl (next s) = some (o.map List.length, d) ∧ next s' = next s + 2 ∧
      done s' = (done s || d))
    (herr : ∀ s c m s' e, J s → run s c m = .err s' e → J s' ∧ next s' = next s ∧ done s' = done s) : Sends run done s0 lens := by
  apply sends_of_inv (fun k s => next s = r0 role + 2 * k ∧ (done s = true ↔ k = lens.length) ∧ J s)
  · refine ⟨h0, ?_, hJ0⟩
    rw [hd0]
    have := List.length_pos_iff.mpr hne
    constructor
    · intro h; cases h
    · intro h; omega
  · intro k s c m s' o ⟨h1, h2, h3⟩ hr
    obtain ⟨hJ, d, hd, hn, hdn⟩ := hok s c m s' o h3 hr
    rw [h1] at hd hn
    obtain ⟨hl, rfl⟩ := htbl k _ _ hd
    refine ⟨hl, by rw [hn]; omega, ?_, hJ⟩
    have hk : k < lens.length := by
      by_contra hc
      rw [List.getElem?_eq_none (by omega)] at hl; cases hl
    have : done s = false := by
      cases hb : done s
      · rfl
      · have := h2.1 hb; omega
    rw [hdn, this]; simp
  · intro k s c m s' e ⟨h1, h2, h3⟩ hr
    obtain ⟨hJ, hn, hdn⟩ := herr s c m s' e h3 hr
    exact ⟨by rw [hn, h1], by rw [hdn]; exact h2, hJ⟩
  · exact fun k s h => h.2.1

/-! ## The four key exchanges -/

/-- Signed DH: key 32, signature 64, certificate 160. -/
def sigDhLens : Role → List (Option Nat)
  | .initiator => [some 256, none]
  | .responder => [some 256]

private def sigDhTbl : Nat → Option (Option Nat × Bool)
  | 0 => some (some 256, false)
  | 1 => some (some 256, true)
  | 2 => some (none, true)
  | _ => none

/-- Go through the branches of a call. -/
local macro "branches" h:ident : tactic => `(tactic| repeat' (first | (cases $h:ident; done) | (dsimp only at $h:ident) | split at $h:ident))

/-- C88 (Signed DH). -/
theorem C88_sigdh_lengths (P : SymPrims) (G : Ed25519) (D : X25519) : IbkeSends (sigDhIbke P G D) sigDhLens := by
  intro c ssid mpk cert usk role
  change Sends (IdSigDh.run P) IdSigDh.done (IdSigDh.newSession ssid mpk cert usk role) _
  apply sends_of_table role IdSigDh.nextStep (fun _ => True) sigDhTbl
  · cases role <;> simp [sigDhLens]
  · intro k l d h
    rcases role with _ | _ <;> simp only [r0] at h <;> rcases k with _ | _ | k <;>
      simp [sigDhTbl, sigDhLens, Nat.mul_add, ← Nat.add_assoc] at h ⊢ <;> simp_all
  · cases role <;> rfl
  · rfl
  · trivial
  · intro s u m s' o _ hr
    refine ⟨trivial, ?_⟩
    have hl := s.cert.length_toBytes
    simp only [SigDhCert.size] at hl
    unfold IdSigDh.run at hr
    branches hr
    all_goals
      cases hr; rename_i hn
      simp_all [sigDhTbl, (D.pub u).2, (G.sign _ _).2]
  · intro s u m s' e _ hr
    refine ⟨trivial, ?_⟩
    unfold IdSigDh.run at hr
    branches hr
    all_goals cases hr; exact ⟨rfl, rfl⟩

/-- HMQV-C: point 32, MAC 32, certificate 128. -/
def hmqvLens : Role → List (Option Nat)
  | .initiator => [some 160, some 32]
  | .responder => [some 192, none]

private def hmqvTbl : Nat → Option (Option Nat × Bool)
  | 0 => some (some 160, false)
  | 1 => some (some 192, false)
  | 2 => some (some 32, true)
  | 3 => some (none, true)
  | _ => none

/-- C88 (HMQV-C). -/
theorem C88_hmqv_lengths (P : SymPrims) (G : Ed25519) (R : Group) : IbkeSends (hmqvIbke P G R) hmqvLens := by
  intro c ssid mpk cert usk role
  change Sends (IdHmqvC.run P) IdHmqvC.done (IdHmqvC.newSession ssid mpk cert usk role) _
  apply sends_of_table role IdHmqvC.nextStep (fun _ => True) hmqvTbl
  · cases role <;> simp [hmqvLens]
  · intro k l d h
    rcases role with _ | _ <;> simp only [r0] at h <;> rcases k with _ | _ | k <;>
      simp [hmqvTbl, hmqvLens, Nat.mul_add, ← Nat.add_assoc] at h ⊢ <;> simp_all
  · cases role <;> rfl
  · rfl
  · trivial
  · intro s u m s' o _ hr
    refine ⟨trivial, ?_⟩
    have hl := s.myCert.length_toBytes
    simp only [HmqvCert.size] at hl
    have hm := fun p i => (P.hkdfExpand p i 32).2
    unfold IdHmqvC.run at hr
    branches hr
    all_goals
      cases hr; rename_i hn
      simp_all [hmqvTbl, (R.compress _).2, IdHmqvC.derive]
  · intro s u m s' e _ hr
    refine ⟨trivial, ?_⟩
    unfold IdHmqvC.run at hr
    branches hr
    all_goals cases hr; exact ⟨rfl, rfl⟩

/-- FG-IBKE-C: identity 32, two points, MAC 32. -/
def fgLens : Role → List (Option Nat)
  | .initiator => [some 96, some 32]
  | .responder => [some 128, none]

private def fgTbl : Nat → Option (Option Nat × Bool)
  | 0 => some (some 96, false)
  | 1 => some (some 128, false)
  | 2 => some (some 32, true)
  | 3 => some (none, true)
  | _ => none

/-- C88 (FG-IBKE-C). -/
theorem C88_fg_lengths (P : SymPrims) (R : Group) : IbkeSends (fgIbke P R) fgLens := by
  intro c ssid mpk cert usk role
  change Sends (FgIbkeC.run P) FgIbkeC.done (FgIbkeC.newSession ssid mpk cert role) _
  apply sends_of_table role FgIbkeC.nextStep (fun _ => True) fgTbl
  · cases role <;> simp [fgLens]
  · intro k l d h
    rcases role with _ | _ <;> simp only [r0] at h <;> rcases k with _ | _ | k <;>
      simp [fgTbl, fgLens, Nat.mul_add, ← Nat.add_assoc] at h ⊢ <;> simp_all
  · cases role <;> rfl
  · rfl
  · trivial
  · intro s u m s' o _ hr
    refine ⟨trivial, ?_⟩
    have hm := FgIbkeC.length_derive P (R := R)
    unfold FgIbkeC.run at hr
    cases hb : FgIbkeC.body P s u m <;> rw [hb] at hr <;> cases hr
    unfold FgIbkeC.body at hb
    branches hb
    all_goals
      cases hb; rename_i hn
      simp_all [fgTbl, (R.compress _).2, s.cert.id.2]
  · intro s u m s' e _ hr
    refine ⟨trivial, ?_⟩
    unfold FgIbkeC.run at hr
    cases hb : FgIbkeC.body P s u m <;> rw [hb] at hr <;> cases hr
    unfold FgIbkeC.body at hb
    branches hb
    all_goals cases hb; exact ⟨rfl, rfl⟩

/-- SIGMA-R: nonce 32, KEM key 672 or ciphertext 736; then signature, MAC 32 and certificate (id 32, key, signature), sealed with 44 bytes more. -/
def sigmaLens (G : SigmaScheme) : Role → List (Option Nat)
  | .initiator => [some 704, some (G.sigLen + 32 + (32 + G.pkLen + G.sigLen) + 44), none]
  | .responder => [some 768, some (G.sigLen + 32 + (32 + G.pkLen + G.sigLen) + 44)]

private def sigmaTbl (G : SigmaScheme) : Nat → Option (Option Nat × Bool)
  | 0 => some (some 704, false)
  | 1 => some (some 768, false)
  | 2 => some (some (G.sigLen + 32 + (32 + G.pkLen + G.sigLen) + 44), false)
  | 3 => some (some (G.sigLen + 32 + (32 + G.pkLen + G.sigLen) + 44), true)
  | 4 => some (none, true)
  | _ => none

/-- C88 (SIGMA-R). -/
theorem C88_sigma_lengths (P : SymPrims) (G : SigmaScheme) (E : Kem) : IbkeSends (sigmaIbke P G E) (sigmaLens G) := by
  intro c ssid mpk cert usk role
  change Sends (IdSigmaR.run P) IdSigmaR.done (IdSigmaR.newSession c ssid mpk cert usk role) _
  apply sends_of_table role IdSigmaR.nextStep (fun _ => True) (sigmaTbl G)
  · cases role <;> simp [sigmaLens]
  · intro k l d h
    rcases role with _ | _ <;> simp only [r0] at h <;> rcases k with _ | _ | _ | k <;>
      simp [sigmaTbl, sigmaLens, Nat.mul_add, ← Nat.add_assoc] at h ⊢ <;> simp_all
  · cases role <;> rfl
  · rfl
  · trivial
  · intro s u m s' o _ hr
    refine ⟨trivial, ?_⟩
    have hl := s.cert.length_toBytes
    simp only [SigmaCert.size] at hl
    have ha := C02_authenc_length P u.ae
    have h32 : ∀ n : ByteArr 32, n.1.length = 32 := fun n => n.2
    have hct : ∀ n : ByteArr 736, n.1.length = 736 := fun n => n.2
    have hg := fun m => (G.sign u.sign s.sigPrivkey m).2
    unfold IdSigmaR.run at hr
    branches hr
    · cases hr; have hn : s.nextStep = 0 := by assumption
      refine ⟨false, ?_, rfl, by simp⟩
      rw [hn]; simp only [sigmaTbl, Option.map_some, List.length_append, h32, (E.pkToBytes _).2]
    · cases hr; have hn : s.nextStep = 1 := by assumption
      refine ⟨false, ?_, rfl, by simp⟩
      rw [hn]; simp only [sigmaTbl, Option.map_some, List.length_append, h32, hct]
    · cases hr; have hn : s.nextStep = 2 := by assumption
      refine ⟨false, ?_, rfl, by simp⟩
      rw [hn]; simp only [sigmaTbl, Option.map_some, ha, List.length_append, hl, h32, hg]
    · cases hr; have hn : s.nextStep = 3 := by assumption
      rename_i hv
      obtain ⟨i, _, rfl⟩ := IdSigmaR.verifyPeer_ok P hv
      refine ⟨true, ?_, rfl, by simp⟩
      rw [hn]; simp only [sigmaTbl, Option.map_some, ha, List.length_append, hl, h32, hg]
    · cases hr; have hn : s.nextStep = 4 := by assumption
      rename_i hv
      obtain ⟨i, _, rfl⟩ := IdSigmaR.verifyPeer_ok P hv
      exact ⟨true, by rw [hn]; rfl, rfl, by simp⟩
  · intro s u m s' e _ hr
    refine ⟨trivial, ?_⟩
    unfold IdSigmaR.run at hr
    branches hr
    all_goals cases hr
    all_goals first
      | exact ⟨rfl, rfl⟩
      | (rename_i hv; obtain ⟨i, rfl⟩ := IdSigmaR.verifyPeer_err P hv; exact ⟨rfl, rfl⟩)

/-! ## The three PAKEs -/

/-- CAKE: the encrypted KEM key and the encrypted ciphertext. -/
def cakeLens : Role → List (Option Nat)
  | .initiator => [some 672, none]
  | .responder => [some 736]

private def cakeTbl : Nat → Option (Option Nat × Bool)
  | 0 => some (some 672, false)
  | 1 => some (some 736, true)
  | 2 => some (none, true)
  | _ => none

/-- C88 (CAKE). -/
theorem C88_cake_lengths (P : SymPrims) (E : Kem) : PakeSends (cakePake P E) cakeLens := by
  intro c ssid pw role
  change Sends (Cake.run P) Cake.done (Cake.new E ssid pw role) _
  apply sends_of_table role Cake.nextStep (fun _ => True) cakeTbl
  · cases role <;> simp [cakeLens]
  · intro k l d h
    rcases role with _ | _ <;> simp only [r0] at h <;> rcases k with _ | _ | k <;>
      simp [cakeTbl, cakeLens, Nat.mul_add, ← Nat.add_assoc] at h ⊢ <;> simp_all
  · cases role <;> rfl
  · rfl
  · trivial
  · intro s u m s' o _ hr
    refine ⟨trivial, ?_⟩
    match hn : s.nextStep with
    | 0 =>
      by_cases hm : m = []
      · subst hm
        obtain ⟨y, _, hl, h⟩ := Cake.run0 P s hn u
        rw [h] at hr; cases hr
        exact ⟨false, by simp [cakeTbl, hl], rfl, by simp⟩
      · rw [Cake.run0_panic P s hn u m hm] at hr; cases hr
    | 1 =>
      by_cases hm : m.length = 672
      · obtain ⟨pk, y, _, _, hl, h⟩ := Cake.run1 P s hn u m hm
        rw [h] at hr; cases hr
        exact ⟨true, by simp [cakeTbl, hl], rfl, by simp⟩
      · rw [Cake.run1_panic P s hn u m hm] at hr; cases hr
    | 2 =>
      by_cases hm : m.length = 736
      · cases hk : s.ephSk with
        | none => simp [Cake.run, hn, Cake.step2, hk] at hr
        | some sk =>
          obtain ⟨ct, _, h⟩ := Cake.run2 P s hn sk hk u m hm
          rw [h] at hr; cases hr
          exact ⟨true, by simp [cakeTbl], rfl, by simp⟩
      · rw [Cake.run2_panic P s hn u m hm] at hr; cases hr
    | n + 3 => rw [Cake.run_late P s (by omega) u m] at hr; cases hr
  · intro s u m s' e _ hr
    exact absurd hr (Cake.run_no_err P s u m s' e)

/-- KC-SPAKE2 over SPAKE2 messages of `n` bytes (33 for the shipped crate): the message, message and MAC, MAC. -/
def kcLens (n : Nat) : Role → List (Option Nat)
  | .initiator => [some n, some 32]
  | .responder => [some (n + 32), none]

private def kcTbl (n : Nat) : Nat → Option (Option Nat × Bool)
  | 0 => some (some n, false)
  | 1 => some (some (n + 32), false)
  | 2 => some (some 32, true)
  | 3 => some (none, true)
  | _ => none

/-- C88 (KC-SPAKE2). -/
theorem C88_kcspake2_lengths (P : SymPrims) (S : Spake2) (n : Nat) (hS : ∀ c pw i, (S.start c pw i).2.length = n) :
    PakeSends (kcSpake2Pake P S) (kcLens n) := by
  intro c ssid pw role
  change Sends (KcSpake2.run P) KcSpake2.done (KcSpake2.new S c ssid pw role) _
  apply sends_of_table role KcSpake2.nextStep (fun s => s.firstOutgoing.length = n) (kcTbl n)
  · cases role <;> simp [kcLens]
  · intro k l d h
    rcases role with _ | _ <;> simp only [r0] at h <;> rcases k with _ | _ | k <;>
      simp [kcTbl, kcLens, Nat.mul_add, ← Nat.add_assoc] at h ⊢ <;> simp_all
  · cases role <;> rfl
  · rfl
  · exact hS c pw ssid.1
  · intro s u m s' o hJ hr
    have hm : ∀ a b c d, (KcSpake2.sessHash P a b c d).1.length = 32 ∧ (KcSpake2.sessHash P a b c d).2.1.length = 32 := by
      intro a b c d; simp [KcSpake2.sessHash, (P.hkdfExpand _ _ 96).2]
    unfold KcSpake2.run at hr
    branches hr
    all_goals cases hr; simp_all [kcTbl]
  · intro s u m s' e hJ hr
    unfold KcSpake2.run at hr
    branches hr
    all_goals cases hr; exact ⟨hJ, rfl, rfl⟩

/-- CPace: the crate's two packets. -/
def cpaceLens (L : CpaceLib) : Role → List (Option Nat)
  | .initiator => [some L.step1Len, none]
  | .responder => [some L.step2Len]

private def cpaceTbl (L : CpaceLib) : Nat → Option (Option Nat × Bool)
  | 0 => some (some L.step1Len, false)
  | 1 => some (some L.step2Len, true)
  | 2 => some (none, true)
  | _ => none

/-- C88 (CPace). -/
theorem C88_cpace_lengths (L : CpaceLib) : PakeSends (cpacePake L) (cpaceLens L) := by
  intro c ssid pw role
  change Sends Cpace.run Cpace.done (Cpace.new L ssid pw role) _
  apply sends_of_table role Cpace.nextStep (fun _ => True) (cpaceTbl L)
  · cases role <;> simp [cpaceLens]
  · intro k l d h
    rcases role with _ | _ <;> simp only [r0] at h <;> rcases k with _ | _ | k <;>
      simp [cpaceTbl, cpaceLens, Nat.mul_add, ← Nat.add_assoc] at h ⊢ <;> simp_all
  · cases role <;> rfl
  · rfl
  · trivial
  · intro s u m s' o _ hr
    refine ⟨trivial, ?_⟩
    have hp := fun st => (L.packet st).2
    have hq : ∀ b : ByteArr L.step2Len, b.1.length = L.step2Len := fun b => b.2
    unfold Cpace.run at hr
    cases hb : Cpace.body s u m with
    | none => rw [hb] at hr; cases hr
    | some x =>
      rw [hb] at hr; cases hr
      unfold Cpace.body at hb
      split at hb
      · rename_i hn
        split at hb
        · cases hb
        · simp only [Option.bind_eq_bind, Option.bind_eq_some_iff, Option.pure_def, Option.some.injEq] at hb
          obtain ⟨st, _, rfl⟩ := hb
          exact ⟨false, by rw [hn]; simp [cpaceTbl, hp], rfl, by simp⟩
      · rename_i hn
        simp only [Option.bind_eq_bind, Option.bind_eq_some_iff, Option.pure_def, Option.some.injEq] at hb
        obtain ⟨_, _, y, _, rfl⟩ := hb
        exact ⟨true, by rw [hn]; simp [cpaceTbl, hq], rfl, by simp⟩
      · rename_i hn
        simp only [Option.bind_eq_bind, Option.bind_eq_some_iff, Option.pure_def, Option.some.injEq] at hb
        obtain ⟨_, _, _, _, _, _, rfl⟩ := hb
        exact ⟨true, by rw [hn]; simp [cpaceTbl], rfl, by simp⟩
      · cases hb
  · intro s u m s' e _ hr
    exact absurd hr (Cpace.run_no_err s u m s' e)

/-! ## The encrypted exchange and LATKE -/

private theorem length_sealedWith (P : SymPrims) (n : ByteArr 12) (k : AuthEncKey) (m : Bytes) : (sealedWith P n k m).length = sealedLen m.length := by
  unfold sealedWith sealedLen
  by_cases h : m = []
  · simp [h]
  · rw [if_neg h, if_neg (by simpa using h), C02_authenc_length]

private theorem sentLens_wrapped {P : SymPrims} {ik : ByteArr 32} {ssid : Ssid} {role : Role} {t t' : List Event}
    (h : WrappedCalls P ik ssid role t t') : sentLens t = eueLens (sentLens t') := by
  induction h with
  | nil => rfl
  | @snoc t t' ev ev' _ h2 ih =>
    obtain ⟨-, nonce, h3⟩ := h2
    simp only [sentLens, eueLens, List.filterMap_append, List.map_append] at ih ⊢
    rw [ih]
    congr 1
    simp only [List.filterMap_cons, List.filterMap_nil, h3]
    rcases ev'.outcome with _ | _ | m
    · rfl
    · rfl
    · simp [length_sealedWith]

private theorem sealedLen_inj : Function.Injective sealedLen := by
  intro a b h
  unfold sealedLen at h
  split at h <;> split at h <;> omega

/-- C88 (encrypted exchange): every EUE session sends exactly the lengths of the wrapped protocol, 44 more for each message that is not empty. -/
theorem C88_eue_lengths (I : Ibke) (P : SymPrims) (lens : Role → List (Option Nat)) (hI : IbkeSends I lens) (ik : ByteArr 32) (ssid : Ssid)
    (c : I.SessCoins) (mpk : I.MainPubkey) (cert : I.Certificate) (usk : I.UserPrivkey) (role : Role) :
    Sends (Eue.run P) Eue.isDone (Eue.newSession P c ssid mpk cert usk role ik) (eueLens (lens role)) := by
  intro t e h
  obtain ⟨t', z, h1, h2, h3, -⟩ := C86_eue_is_wrapped I P ik ssid c mpk cert usk role t e h
  obtain ⟨h4, h5⟩ := hI c ssid mpk cert usk role t' z h1
  rw [sentLens_wrapped h2, h3]
  refine ⟨h4.map _, h5.trans ⟨fun h => by rw [h], fun h => ?_⟩⟩
  exact (Option.map_injective sealedLen_inj).list_map h

/-- What the calls of a LATKE history sent. -/
def latkeSent (tr : List (Bytes × Option Bytes)) : List (Option Nat) := tr.map fun x => x.2.map List.length

private theorem sentLens_eventsOf (tr : List (Bytes × Option Bytes)) : sentLens (eventsOf tr) = latkeSent tr := by
  simp [sentLens, eventsOf, latkeSent, List.filterMap_map]

private theorem sentLens_append (a b : List Event) : sentLens (a ++ b) = sentLens a ++ sentLens b := by simp [sentLens]

private theorem last_none {t : List Event} (hall : ∀ ev ∈ t, ev.outcome.isSome = true) (h : (sentLens t).getLast? = some none) :
    ∃ i, t.getLast? = some ⟨i, some none⟩ := by
  rcases List.eq_nil_or_concat t with rfl | ⟨t', ev, rfl⟩
  · simp [sentLens] at h
  · obtain ⟨i, o⟩ := ev
    have := hall ⟨i, o⟩ (by simp)
    rcases o with _ | _ | m
    · simp at this
    · exact ⟨i, by simp⟩
    · simp [sentLens] at h

private theorem getLast?_of_snoc {α : Type} {a : List α} {x : α} : (a ++ [x]).getLast? = some x := by simp

/-- C88 (LATKE): in every history of a LATKE session, whatever was received, the messages sent have the lengths of the table, in order; and the session is
done exactly when the table is used up. The table does not depend on the passwords, identities or keys involved. -/
theorem C88_latke_lengths (I : Ibke) (K : Pake) (P : SymPrims) (lensI lensK : Role → List (Option Nat))
    (hI : IbkeSends I lensI) (hK : PakeSends K lensK) (hIne : ∀ r, lensI r ≠ [])
    (hnone : ∀ q c inc q', K.run q c inc = .ok q' none → K.isDone q' = true)
    (n : K.NewCoins) (ssid : Ssid) (pw : LatkePwfile I) (role : Role) (peer : PeerModel) (hist : List (LatkeCoins I K × Bytes))
    (s : Latke I K) (tr : List (Bytes × Option Bytes))
    (h : latkeHistory P (Latke.newSession n ssid pw role peer) hist = some (s, tr)) :
    latkeSent tr <+: latkeLens lensK lensI role ∧ (s.isDone = true ↔ latkeSent tr = latkeLens lensK lensI role) := by
  obtain ⟨tP, q, hq, hc⟩ := C87_latke_is_pake_then_eue P hnone n ssid pw role peer hist s tr h
  obtain ⟨hp1, hp2⟩ := hK n ssid (Latke.pakeInput pw role peer) role tP q hq
  have hene : eueLens (lensI role) ≠ [] := by simpa [eueLens] using hIne role
  have hall : ∀ ev ∈ eventsOf tr, ev.outcome.isSome = true := by
    intro ev hev
    simp only [eventsOf, List.mem_map] at hev
    obtain ⟨x, _, rfl⟩ := hev
    rfl
  have hproper : ∀ {a b : List (Option Nat)}, a <+: b → a ≠ b → a <+: b.dropLast := by
    intro a b ⟨r, hr⟩ hne
    subst hr
    rcases List.eq_nil_or_concat r with rfl | ⟨r', x, rfl⟩
    · simp at hne
    · exact ⟨r', by rw [List.concat_eq_append, ← List.append_assoc, List.dropLast_concat]⟩
  have hlt : ∀ {a b : List (Option Nat)}, a <+: b → a ≠ b → a.length < b.length := by
    intro a b h hne
    rcases Nat.lt_or_ge a.length b.length with h' | h'
    · exact h'
    · exact absurd (h.eq_of_length (Nat.le_antisymm h.length_le h')) hne
  have hepos := List.length_pos_iff.mpr hene
  rcases hc with ⟨hd, he, hs, -⟩ | ⟨hd, he, hl, hs, -⟩ | ⟨hd, k, sc, tE, e, -, ht, hj, hs, -⟩
  · have hne : sentLens tP ≠ lensK role := fun hh => by rw [hp2.2 hh] at hd; cases hd
    rw [← sentLens_eventsOf, he, hs]
    have hpre : sentLens tP <+: (if role = .initiator ∧ (lensK role).getLast? = some none then (lensK role).dropLast else lensK role) := by
      split
      · exact hproper hp1 hne
      · exact hp1
    refine ⟨hpre.trans (List.prefix_append _ _), by simp, fun hh => ?_⟩
    exfalso
    have := hpre.length_le
    rw [hh, latkeLens, List.length_append] at this
    omega
  · have heq := hp2.1 hd
    rw [← sentLens_eventsOf, he, hs, heq]
    have hcond : ¬ (role = .initiator ∧ (lensK role).getLast? = some none) := by
      rintro ⟨-, hx⟩
      obtain ⟨i, hi⟩ := last_none (by rw [← he]; exact hall) (heq ▸ hx)
      exact hl i hi
    rw [latkeLens, if_neg hcond]
    refine ⟨List.prefix_append _ _, by simp, fun hh => ?_⟩
    have := congrArg List.length hh
    rw [List.length_append] at this
    omega
  · have heq := hp2.1 hd
    obtain ⟨he1, he2⟩ := C88_eue_lengths I P lensI hI k ssid sc pw.mpk pw.cert pw.usk role tE e ht
    have hpre : ∃ l, latkeLens lensK lensI role = l ++ eueLens (lensI role) ∧ latkeSent tr = l ++ sentLens tE := by
      rw [← sentLens_eventsOf]
      generalize hev : eventsOf tr = evs at hj hall
      cases hj with
      | @merged t i o tE' hr =>
        refine ⟨sentLens t, ?_, by simp [sentLens]⟩
        rw [sentLens_ok] at heq
        rw [latkeLens, if_pos ⟨hr, by rw [← heq]; simp⟩, ← heq, List.dropLast_concat]
      | apart hr =>
        refine ⟨lensK role, ?_, by rw [sentLens_append, heq]⟩
        rw [latkeLens, if_neg]
        rintro ⟨hi, hx⟩
        obtain ⟨i, hl⟩ := last_none (fun ev hev => hall ev (by simp [hev])) (heq ▸ hx)
        exact hr hi i hl
    obtain ⟨l, hl1, hl2⟩ := hpre
    rw [hl1, hl2, hs]
    exact ⟨(List.prefix_append_right_inj l).2 he1, he2.trans ⟨fun hh => by rw [hh], fun hh => List.append_cancel_left hh⟩⟩

/-! ## The shipped suites -/

/-- Message lengths of the post-quantum suite: LATKE over CAKE and SIGMA-R with Dilithium2. -/
def pqLens : Role → List (Option Nat)
  | .initiator => [some 672, some 748, some 6304, none]
  | .responder => [some 736, some 812, some 6304]

/-- C88 for the post-quantum suite: the lengths of all messages of all sessions. -/
theorem C88_pq_suite (P : SymPrims) (E : Kem) (C : Dilithium.CSem) (H : Dilithium.Shake)
    (ssid : Ssid) (pw : LatkePwfile (sigmaIbke P (dilithiumScheme C H) E)) (role : Role) (peer : PeerModel) (hist) (s) (tr)
    (h : latkeHistory P (Latke.newSession (K := cakePake P E) () ssid pw role peer) hist = some (s, tr)) :
    latkeSent tr <+: pqLens role ∧ (s.isDone = true ↔ latkeSent tr = pqLens role) := by
  have := C88_latke_lengths _ (cakePake P E) P _ _ (C88_sigma_lengths P (dilithiumScheme C H) E) (C88_cake_lengths P E)
    (by intro r; cases r <;> simp [sigmaLens])
    (C17_pakes_done_when_silent P toySpake2 E toyCpace).2.1 () ssid pw role peer hist s tr h
  have e : latkeLens cakeLens (sigmaLens (dilithiumScheme C H)) role = pqLens role := by
    cases role <;> simp [pqLens, latkeLens, cakeLens, sigmaLens, eueLens, sealedLen, dilithiumScheme, Dilithium.Rust.signatureBytes,
      Dilithium.Rust.publicKeyBytes, Dilithium.PKLEN, Dilithium.SIGLEN]
  rwa [e] at this

/-- Message lengths of a classical suite: LATKE over KC-SPAKE2 (33-byte messages) and SIGMA-R with Ed25519. -/
def classicalLens : Role → List (Option Nat)
  | .initiator => [some 33, some 32, some 748, some 312, none]
  | .responder => [some 65, none, some 812, some 312]

/-- C88 for a classical suite. -/
theorem C88_classical_suite (P : SymPrims) (S : Spake2) (hS : ∀ c pw i, (S.start c pw i).2.length = 33) (G : Ed25519) (E : Kem)
    (n : S.Coins) (ssid : Ssid) (pw : LatkePwfile (sigmaIbke P (edScheme G) E)) (role : Role) (peer : PeerModel) (hist) (s) (tr)
    (h : latkeHistory P (Latke.newSession (K := kcSpake2Pake P S) n ssid pw role peer) hist = some (s, tr)) :
    latkeSent tr <+: classicalLens role ∧ (s.isDone = true ↔ latkeSent tr = classicalLens role) := by
  have := C88_latke_lengths _ (kcSpake2Pake P S) P _ _ (C88_sigma_lengths P (edScheme G) E) (C88_kcspake2_lengths P S 33 hS)
    (by intro r; cases r <;> simp [sigmaLens])
    (C17_pakes_done_when_silent P S E toyCpace).1 n ssid pw role peer hist s tr h
  have e : latkeLens (kcLens 33) (sigmaLens (edScheme G)) role = classicalLens role := by
    cases role <;> simp [classicalLens, latkeLens, kcLens, sigmaLens, eueLens, sealedLen, edScheme]
  rwa [e] at this

/-- Lengths sent by two users passing on each other's messages. -/
private def lensOf : Nat → Latke toyIbke (kcSpake2Pake toyPrims toySpake2) → Latke toyIbke (kcSpake2Pake toyPrims toySpake2) → Bytes → List (Option Nat)
  | 0, _, _, _ => []
  | f + 1, a, p, inc => match a.run toyPrims ⟨(), (), ⟨(5 : UInt8), toyNonce⟩⟩ inc with
    | none => []
    | some (a', o) => o.map List.length :: lensOf f p a' (o.getD [])

/-- Non-vacuity of C88: a complete run of the toy suite (1-byte SPAKE2 messages, 33-byte key-exchange messages). -/
example : lensOf 7 (Latke.newSession (3 : UInt8) toyId1 ⟨(), toyId1, ()⟩ .initiator .postSpecified)
      (Latke.newSession (4 : UInt8) toyId1 ⟨(), toyId2, ()⟩ .responder .postSpecified) [] =
    [some 1, some 33, some 32, none, some 77, some 77, none] := by decide +kernel

end Verif.Props
