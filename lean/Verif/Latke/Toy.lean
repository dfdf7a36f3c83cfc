import Verif.Latke.Traits

/-!
# A toy key exchange, used only to show that hypotheses of the generic theorems are satisfiable

It is not a model of any code in the repository.
-/

namespace Verif.Latke

/-- A sample id. -/
def toyId1 : Id := ⟨List.replicate 32 1, by simp⟩
/-- Another sample id. -/
def toyId2 : Id := ⟨List.replicate 32 2, by simp⟩
/-- A sample nonce. -/
def toyNonce : ByteArr 12 := ⟨List.replicate 12 7, by simp⟩

/-- State of the toy exchange. -/
structure ToyState where
  next : Nat
  id : Id
  mine : UInt8
  done : Bool
  out : Option (Id × SessKey)

/-- Key of the toy exchange. -/
def toyKey (a b : UInt8) : SessKey := ⟨List.replicate 32 (a + 3 * b), by simp⟩

/-- Step of the toy exchange: each side sends `id ‖ coin`. -/
def toyRun (s : ToyState) (c : UInt8) (inc : Bytes) : Step ToyState Unit (Option Bytes) :=
  match s.next with
  | 0 => if inc = [] then .ok { s with next := 2, mine := c } (some (s.id.1 ++ [c])) else .panic
  | 1 =>
    match toArr? 32 (inc.take 32), inc.drop 32 with
    | some i, [x] => .ok { s with next := 3, done := true, out := some (i, toyKey x c) } (some (s.id.1 ++ [c]))
    | _, _ => .panic
  | 2 =>
    match toArr? 32 (inc.take 32), inc.drop 32 with
    | some i, [x] => .ok { s with next := 4, done := true, out := some (i, toyKey s.mine x) } none
    | _, _ => .panic
  | _ => .panic

/-- The toy exchange as an IBKE: certificates are bare ids. -/
def toyIbke : Ibke where
  MainPubkey := Unit
  MainPrivkey := Unit
  UserPubkey := Unit
  UserPrivkey := Unit
  Certificate := Id
  Err := Unit
  State := ToyState
  MainCoins := Unit
  UserCoins := Unit
  ExtractCoins := Unit
  SessCoins := Unit
  RunCoins := UInt8
  mpkBytes _ := [42]
  certId c := c
  genMain _ := ((), ())
  genUser _ := ((), ())
  extract _ _ id _ := id
  newSession _ _ _ cert _ role := ⟨if role = .initiator then 0 else 1, cert, 0, false, none⟩
  run := toyRun
  runSim s := some ({ s with next := s.next + 2, done := true }, some 33)
  isDone s := s.done
  finalize s := s.out

end Verif.Latke
