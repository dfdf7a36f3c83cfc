import Verif.Latke.AuthEnc

/-!
# The `Pake` and `IdentityBasedKeyExchange` traits (latke/src/lib.rs:41-117)

A trait becomes a record of functions; an implementation is a value of the record.  Randomness drawn by a
call (from the `rng` argument or from `thread_rng`) is an explicit "coins" argument of that call.
-/

namespace Verif.Latke

/-- `trait Pake` (lib.rs:42-57). -/
structure Pake where
  State : Type
  Err : Type
  NewCoins : Type
  RunCoins : Type
  /-- `new` (lib.rs:46) -/
  new : NewCoins → Ssid → Bytes → Role → State
  /-- `run` (lib.rs:50) -/
  run : State → RunCoins → Bytes → Step State Err (Option Bytes)
  /-- `is_done` (lib.rs:53) -/
  isDone : State → Bool
  /-- `finalize` (lib.rs:56); `none` = panic -/
  finalize : State → Option SessKey

/-- `trait IdentityBasedKeyExchange` (lib.rs:66-113), with `AsBytes` (115-117) for the main public key and
`IdCertificate` (60-62) for certificates. -/
structure Ibke where
  MainPubkey : Type
  MainPrivkey : Type
  UserPubkey : Type
  UserPrivkey : Type
  Certificate : Type
  Err : Type
  State : Type
  MainCoins : Type
  UserCoins : Type
  ExtractCoins : Type
  SessCoins : Type
  RunCoins : Type
  /-- `MainPubkey::as_bytes` -/
  mpkBytes : MainPubkey → Bytes
  /-- `Certificate::id` -/
  certId : Certificate → Id
  /-- `gen_main_keypair` (lib.rs:75) -/
  genMain : MainCoins → MainPubkey × MainPrivkey
  /-- `gen_user_keypair` (lib.rs:78) -/
  genUser : UserCoins → UserPubkey × UserPrivkey
  /-- `extract` (lib.rs:81-86) -/
  extract : ExtractCoins → MainPrivkey → Id → UserPubkey → Certificate
  /-- `new_session` (lib.rs:89-96) -/
  newSession : SessCoins → Ssid → MainPubkey → Certificate → UserPrivkey → Role → State
  /-- `run` (lib.rs:99-103) -/
  run : State → RunCoins → Bytes → Step State Err (Option Bytes)
  /-- `run_sim` (lib.rs:106); outer `none` = panic -/
  runSim : State → Option (State × Option Nat)
  /-- `is_done` (lib.rs:109) -/
  isDone : State → Bool
  /-- `finalize` (lib.rs:112); `none` = panic -/
  finalize : State → Option (Id × SessKey)

/-! ## Running two machines against each other

`converse` is the specification-level notion of an honest execution of a two-party protocol: the two parties
alternate, every message of one is the input of the other, every step succeeds, and the conversation ends
when a step has nothing to send, at which point both parties must report completion.  One element of the
coin list is consumed per call, and the list must be used up exactly. -/

/-- Successful part of a step. -/
def Step.okOnly {σ ε α : Type} : Step σ ε α → Option (σ × α)
  | .ok s a => some (s, a)
  | _ => none

/-- `converse run done coins active passive incoming`: final transcript and the final states of the two parties
(`active` first), or `none` if any step fails, a message is empty, a party is called after it is done, the
conversation ends before both are done, or the number of coins is not the number of calls. -/
def converse {σ ε κ : Type} (run : σ → κ → Bytes → Step σ ε (Option Bytes)) (done : σ → Bool) :
    List κ → σ → σ → Bytes → Option (List Bytes × σ × σ)
  | [], _, _, _ => none
  | c :: cs, a, p, inc =>
    if done a then none else
    match run a c inc with
    | .ok a' (some m) =>
      if m = [] then none else
      match converse run done cs p a' m with
      | some (tr, p', a'') => some (m :: tr, a'', p')
      | none => none
    | .ok a' none => if done a' && done p && cs.isEmpty then some ([], a', p) else none
    | .err _ _ => none
    | .panic => none

theorem converse_cons {σ ε κ : Type} {run : σ → κ → Bytes → Step σ ε (Option Bytes)} {done : σ → Bool}
    {c : κ} {cs : List κ} {a a' a'' p p' : σ} {inc m : Bytes} {tr : List Bytes}
    (hd : done a = false) (hr : run a c inc = .ok a' (some m)) (hm : m ≠ [])
    (h : converse run done cs p a' m = some (tr, p', a'')) :
    converse run done (c :: cs) a p inc = some (m :: tr, a'', p') := by
  simp [converse, hd, hr, hm, h]

theorem converse_last {σ ε κ : Type} {run : σ → κ → Bytes → Step σ ε (Option Bytes)} {done : σ → Bool}
    {c : κ} {a a' p : σ} {inc : Bytes} (hd : done a = false) (hr : run a c inc = .ok a' none)
    (h1 : done a' = true) (h2 : done p = true) :
    converse run done [c] a p inc = some ([], a', p) := by
  simp [converse, hd, hr, h1, h2]

/-! ## Histories of one session under an arbitrary peer -/

/-- One non-panicking call of `run`: the incoming message and either `some out` (it returned `Ok(out)`) or `none`
(it returned `Err`). -/
structure Event where
  incoming : Bytes
  outcome : Option (Option Bytes)
  deriving DecidableEq

/-- `Trace run s0 t s`: starting from `s0` the calls recorded in `t` (oldest first), with any coins and any incoming
messages, led to `s`.  A session object stays usable after an `Err`, and is gone after a panic. -/
inductive Trace {σ ε κ : Type} (run : σ → κ → Bytes → Step σ ε (Option Bytes)) (s0 : σ) : List Event → σ → Prop
  | nil : Trace run s0 [] s0
  | ok {t s c m s' o} : Trace run s0 t s → run s c m = .ok s' o → Trace run s0 (t ++ [⟨m, some o⟩]) s'
  | err {t s c m s' e} : Trace run s0 t s → run s c m = .err s' e → Trace run s0 (t ++ [⟨m, none⟩]) s'

/-- Number of calls of a history that returned `Ok`. -/
def okCount (t : List Event) : Nat := t.countP fun e => e.outcome.isSome

end Verif.Latke
