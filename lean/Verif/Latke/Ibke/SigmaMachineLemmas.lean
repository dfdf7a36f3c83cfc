import Verif.Latke.Ibke.SigmaMachine
import Verif.Latke.Ibke.SigmaRLemmas
import Verif.Latke.IbkeSpec

/-! # A step of a SIGMA-R session that succeeds with a strict verifier succeeds with every more lenient one -/

namespace Verif.Latke
namespace IdSigmaR
variable {G : SigmaScheme} {E : Kem} (P : SymPrims)

theorem verifyPeer_recode {sg : G.SignCoins → G.Sk → Bytes → ByteArr G.sigLen} {vf : G.Pk → Bytes → ByteArr G.sigLen → Bool}
    (hto : ∀ b pk, G.pkFromBytes b = some pk → G.pkToBytes pk = b) (hfrom : ∀ pk, G.pkFromBytes (G.pkToBytes pk) = some pk)
    (hvf : ∀ pk m x, G.verify pk m x = true → vf pk m x = true) {s s' : IdSigmaR G E} {macKey : ByteArr 32} {b : UInt8} {tbs : Bytes → Bytes}
    {pt : Bytes} {o : Unit} (h : verifyPeer P s macKey b tbs pt = .ok s' o) :
    verifyPeer P (s.recode sg vf) macKey b tbs pt = .ok (s'.recode sg vf) o := by
  obtain ⟨id, ⟨sig, csig, upkb, upk, h1, h2, h3, h4⟩, h5⟩ := verifyPeer_ok P h
  have e := hto _ _ h1
  subst h5 e
  have := verifyPeer_msg (G := G.withCode sg vf) P (fun pk => hfrom pk) (s.recode sg vf) macKey b tbs sig ⟨id, upk, csig⟩ (hvf _ _ _ h3) (hvf _ _ _ h4)
  rw [h2]
  exact this

theorem run_recode {sg : G.SignCoins → G.Sk → Bytes → ByteArr G.sigLen} {vf : G.Pk → Bytes → ByteArr G.sigLen → Bool}
    (hto : ∀ b pk, G.pkFromBytes b = some pk → G.pkToBytes pk = b) (hfrom : ∀ pk, G.pkFromBytes (G.pkToBytes pk) = some pk)
    (hvf : ∀ pk m x, G.verify pk m x = true → vf pk m x = true) {s s' : IdSigmaR G E} (hsg : ∀ c m, sg c s.sigPrivkey m = G.sign c s.sigPrivkey m)
    {c : SigmaCoins G E} {inc : Bytes} {o : Option Bytes} (h : run P s c inc = .ok s' o) :
    run P (s.recode sg vf) (⟨c.kem, c.sign, c.ae⟩ : SigmaCoins (G.withCode sg vf) E) inc = .ok (s'.recode sg vf) o := by
  obtain ⟨ssid, nA, nB, mpk, cert, usk, kp, ks, ek, mk, eks, oi, ok, n, d⟩ := s
  dsimp only at hsg
  have hsg' : ∀ c m, (G.withCode sg vf).sign c usk m = G.sign c usk m := hsg
  match n with
  | 0 =>
    unfold run at h ⊢
    simp only [recode] at h ⊢
    split at h
    · cases h
    · rename_i hl
      rw [if_neg hl]
      cases nA with
      | none => cases h
      | some a => cases h; rfl
  | 1 =>
    unfold run at h ⊢
    simp only [recode] at h ⊢
    split at h
    · cases h
    · cases h
      rfl
  | 2 =>
    unfold run at h ⊢
    simp only [recode] at h ⊢
    split at h
    · cases h
    · cases h
      erw [hsg']
      rfl
  | 3 =>
    unfold run at h ⊢
    simp only [recode] at h ⊢
    match eks, nA, nB, kp, ek, mk with
    | some (encA, encB), some a, some b, some pk, some ct, some macKey =>
      dsimp only at h ⊢
      split at h
      · cases h
      · cases h
      · split at h
        · cases h
        · cases h
        · rename_i hv
          have := verifyPeer_recode (sg := sg) (vf := vf) P hto hfrom hvf hv
          dsimp only [recode] at this
          rw [this]
          obtain ⟨id, -, hk⟩ := verifyPeer_ok P hv
          subst hk
          cases h
          dsimp only
          erw [hsg']
          rfl
    | none, _, _, _, _, _ => cases h
    | some _, none, _, _, _, _ => cases h
    | some _, some _, none, _, _, _ => cases h
    | some _, some _, some _, none, _, _ => cases h
    | some _, some _, some _, some _, none, _ => cases h
    | some _, some _, some _, some _, some _, none => cases h
  | 4 =>
    unfold run at h ⊢
    simp only [recode] at h ⊢
    match eks, nA, kp, ek, mk with
    | some (encA, encB), some a, some pk, some ct, some macKey =>
      dsimp only at h ⊢
      split at h
      · cases h
      · cases h
      · split at h
        · cases h
        · cases h
        · rename_i hv
          have := verifyPeer_recode (sg := sg) (vf := vf) P hto hfrom hvf hv
          dsimp only [recode] at this
          rw [this]
          cases h
          rfl
    | none, _, _, _, _ => cases h
    | some _, none, _, _, _ => cases h
    | some _, some _, none, _, _ => cases h
    | some _, some _, some _, none, _ => cases h
    | some _, some _, some _, some _, none => cases h
  | n + 5 => rw [run_late P _ (by show 5 ≤ n + 5; omega)] at h; cases h

/-- The long-term secret key of a session never changes. -/
theorem run_sigPrivkey {s s' : IdSigmaR G E} {c : SigmaCoins G E} {inc : Bytes} {o : Option Bytes} (h : run P s c inc = .ok s' o) :
    s'.sigPrivkey = s.sigPrivkey := by
  obtain ⟨ssid, nA, nB, mpk, cert, usk, kp, ks, ek, mk, eks, oi, ok, n, d⟩ := s
  match n with
  | 0 =>
    unfold run at h
    simp only at h
    split at h
    · cases h
    · cases nA with
      | none => cases h
      | some a => cases h; rfl
  | 1 | 2 =>
    unfold run at h
    simp only at h
    split at h
    · cases h
    · cases h; rfl
  | 3 =>
    unfold run at h
    simp only at h
    match eks, nA, nB, kp, ek, mk with
    | some (encA, encB), some a, some b, some pk, some ct, some macKey =>
      dsimp only at h
      split at h
      · cases h
      · cases h
      · split at h
        · cases h
        · cases h
        · rename_i hv
          obtain ⟨id, -, hk⟩ := verifyPeer_ok P hv
          subst hk
          cases h
          rfl
    | none, _, _, _, _, _ => cases h
    | some _, none, _, _, _, _ => cases h
    | some _, some _, none, _, _, _ => cases h
    | some _, some _, some _, none, _, _ => cases h
    | some _, some _, some _, some _, none, _ => cases h
    | some _, some _, some _, some _, some _, none => cases h
  | 4 =>
    unfold run at h
    simp only at h
    match eks, nA, kp, ek, mk with
    | some (encA, encB), some a, some pk, some ct, some macKey =>
      dsimp only at h
      split at h
      · cases h
      · cases h
      · split at h
        · cases h
        · cases h
        · rename_i hv
          obtain ⟨id, -, hk⟩ := verifyPeer_ok P hv
          subst hk
          cases h
          rfl
    | none, _, _, _, _ => cases h
    | some _, none, _, _, _ => cases h
    | some _, some _, none, _, _ => cases h
    | some _, some _, some _, none, _ => cases h
    | some _, some _, some _, some _, none => cases h
  | n + 5 => rw [run_late P _ (by show 5 ≤ n + 5; omega)] at h; cases h

end IdSigmaR

/-- Two systems with corresponding successful steps have corresponding conversations. -/
theorem converse_sim {σ σ' ε ε' κ κ' : Type} {run : σ → κ → Bytes → Step σ ε (Option Bytes)} {done : σ → Bool}
    {run' : σ' → κ' → Bytes → Step σ' ε' (Option Bytes)} {done' : σ' → Bool} (f : σ → σ') (g : κ' → κ) (hd : ∀ s, done' (f s) = done s)
    (I : σ → Prop) (hI : ∀ s c m s' o, I s → run s c m = .ok s' o → I s')
    (hr : ∀ s c m s' o, I s → run s (g c) m = .ok s' o → run' (f s) c m = .ok (f s') o) :
    ∀ (cs : List κ') (a p : σ) (inc : Bytes) (tr : List Bytes) (a' p' : σ), I a → I p → converse run done (cs.map g) a p inc = some (tr, a', p') →
      converse run' done' cs (f a) (f p) inc = some (tr, f a', f p') := by
  intro cs
  induction cs with
  | nil => intro a p inc tr a' p' ia ip h; simp [converse] at h
  | cons c cs ih =>
    intro a p inc tr a' p' ia ip h
    simp only [List.map_cons, converse] at h ⊢
    rw [hd]
    split at h
    · cases h
    · rename_i hda
      rw [if_neg hda]
      split at h
      · rename_i a1 m h1
        rw [hr _ _ _ _ _ ia h1]
        dsimp only
        split at h
        · cases h
        · rename_i hm
          rw [if_neg hm]
          split at h
          · rename_i h2
            cases h
            rw [ih _ _ _ _ _ _ ip (hI _ _ _ _ _ ia h1) h2]
          · cases h
      · rename_i a1 h1
        rw [hr _ _ _ _ _ ia h1]
        dsimp only
        rw [hd, hd]
        split at h
        · rename_i h2
          cases h
          rw [if_pos]
          simpa using h2
        · cases h
      · cases h
      · cases h

end Verif.Latke
