import Verif.Latke.Eue

/-! # Specification of the EUE key chain and wire transcript -/

namespace Verif.Latke

/-- Specification: the chain keys, a function of the initial key, the ssid and the position only. -/
def chainAt (P : SymPrims) (ik : ByteArr 32) (ssid : Ssid) : Nat → ByteArr 32
  | 0 => P.hkdfExpand ik.1 (ascii "init chain key" ++ ssid.1) 32
  | n + 1 => P.hkdfExpand (chainAt P ik ssid n).1 (ascii "chain key") 32

/-- Specification: the key protecting the `n`-th wire message of an EUE session. -/
def msgKeyAt (P : SymPrims) (ik : ByteArr 32) (ssid : Ssid) : Nat → AuthEncKey
  | 0 => P.hkdfExpand ik.1 (ascii "init msg key" ++ ssid.1) 64
  | n + 1 => P.hkdfExpand (chainAt P ik ssid n).1 (ascii "msg key") 64

/-- Specification: the wire messages corresponding to the plaintext messages `tr`, the first of which is number `n`. -/
def encryptFrom {I : Ibke} (P : SymPrims) (ik : ByteArr 32) (ssid : Ssid) :
    Nat → List (EueCoins I) → List Bytes → List Bytes
  | n, c :: cs, m :: ms => authEncrypt P c.nonce (msgKeyAt P ik ssid n) m :: encryptFrom P ik ssid (n + 1) cs ms
  | _, _, _ => []

/-- Specification: a history of successful calls on one session, with arbitrary (adversarial) inputs. -/
def Eue.runAll {I : Ibke} (P : SymPrims) (e : Eue I) : List (EueCoins I × Bytes) → Option (Eue I)
  | [] => some e
  | (c, inc) :: rest =>
    match e.run P c inc with
    | .ok e' _ => Eue.runAll P e' rest
    | _ => none

/-- Specification: states reachable by any history of calls that return (`Ok` or `Err`). -/
inductive Eue.Reach {I : Ibke} (P : SymPrims) (e0 : Eue I) : Eue I → Prop
  | start : Eue.Reach P e0 e0
  | ok {e e' c inc out} : Eue.Reach P e0 e → e.run P c inc = .ok e' out → Eue.Reach P e0 e'
  | err {e e' c inc er} : Eue.Reach P e0 e → e.run P c inc = .err e' er → Eue.Reach P e0 e'

/-- Specification: number (on the wire, both directions) of the message the `j`-th call of a role receives.
The initiator's call number 0 receives nothing. -/
def recvIdx : Role → Nat → Nat
  | .initiator, j => 2 * j - 1
  | .responder, j => 2 * j

/-- Specification: number of the message the `j`-th call of a role sends. -/
def sendIdx : Role → Nat → Nat
  | .initiator, j => 2 * j
  | .responder, j => 2 * j + 1

end Verif.Latke
