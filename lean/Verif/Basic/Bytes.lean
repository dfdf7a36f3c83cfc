/-!
# Bytes, fixed-size arrays and outcomes

Shared vocabulary of the model.  `Vec<u8>`/`&[u8]` are `List UInt8`; `[u8; n]` is `ByteArr n`.
A Rust call has three possible outcomes: it returns, it returns `Err`, or it panics.
-/

namespace Verif

/-- `Vec<u8>` and `&[u8]`. -/
abbrev Bytes := List UInt8

/-- `[u8; n]`: byte strings of a fixed length. -/
abbrev ByteArr (n : Nat) := { b : Bytes // b.length = n }

/-- `[x; n]`. -/
def ByteArr.rep (n : Nat) (x : UInt8) : ByteArr n := ⟨List.replicate n x, List.length_replicate⟩

/-- Outcome of a pure fallible Rust call: `Ok`, `Err`, or a panic. -/
inductive Res (ε α : Type) where
  | ok (a : α)
  | err (e : ε)
  | panic
  deriving DecidableEq

/-- `Result::is_ok`. -/
def Res.isOk {ε α : Type} : Res ε α → Bool
  | .ok _ => true
  | _ => false

/-- Outcome of a `&mut self` method returning `Result<α, ε>`: the state is kept on `Ok` and on `Err`
(a Rust `Err` return leaves a usable, possibly modified object), and is lost on a panic. -/
inductive Step (σ ε α : Type) where
  | ok (s : σ) (out : α)
  | err (s : σ) (e : ε)
  | panic

/-- `slice.split_at(n)`: panics when `n > len` (core slice documentation). -/
def splitAt? (n : Nat) (b : Bytes) : Option (Bytes × Bytes) :=
  if n ≤ b.length then some (b.take n, b.drop n) else none

/-- `<[u8; n]>::try_from(slice)`: succeeds exactly when the length is `n`. -/
def toArr? (n : Nat) (b : Bytes) : Option (ByteArr n) :=
  if h : b.length = n then some ⟨b, h⟩ else none

/-- `slice.split_at(slice.len() - n)`: the subtraction or the split panics when `len < n`. -/
def splitEnd? (n : Nat) (b : Bytes) : Option (Bytes × Bytes) :=
  if n ≤ b.length then some (b.take (b.length - n), b.drop (b.length - n)) else none

/-- Bytewise exclusive or of two byte strings (of the shorter length). -/
def xorBytes (a b : Bytes) : Bytes := List.zipWith (· ^^^ ·) a b

theorem splitAt?_append {n : Nat} {a b : Bytes} (h : a.length = n) :
    splitAt? n (a ++ b) = some (a, b) := by
  subst h
  simp [splitAt?]

theorem splitEnd?_append {n : Nat} {a b : Bytes} (h : b.length = n) :
    splitEnd? n (a ++ b) = some (a, b) := by
  subst h
  simp [splitEnd?]

theorem splitAt?_eq_some {n : Nat} {x a b : Bytes} (h : splitAt? n x = some (a, b)) :
    x = a ++ b ∧ a.length = n := by
  unfold splitAt? at h
  split at h
  · simp only [Option.some.injEq, Prod.mk.injEq] at h
    obtain ⟨rfl, rfl⟩ := h
    simp; omega
  · simp at h

theorem splitEnd?_eq_some {n : Nat} {x a b : Bytes} (h : splitEnd? n x = some (a, b)) :
    x = a ++ b ∧ b.length = n := by
  unfold splitEnd? at h
  split at h
  · simp only [Option.some.injEq, Prod.mk.injEq] at h
    obtain ⟨rfl, rfl⟩ := h
    simp; omega
  · simp at h

theorem toArr?_val {n : Nat} (a : ByteArr n) : toArr? n a.1 = some a := by
  simp [toArr?, a.2]

theorem toArr?_eq_some {n : Nat} {b : Bytes} {a : ByteArr n} (h : toArr? n b = some a) : a.1 = b := by
  unfold toArr? at h
  split at h
  · simp only [Option.some.injEq] at h; rw [← h]
  · simp at h

theorem length_xorBytes (a b : Bytes) : (xorBytes a b).length = min a.length b.length := by
  simp [xorBytes]

theorem xorBytes_self_cancel (a b : Bytes) (h : a.length = b.length) :
    xorBytes (xorBytes a b) b = a := by
  induction a generalizing b with
  | nil => simp [xorBytes]
  | cons x xs ih =>
    cases b with
    | nil => simp at h
    | cons y ys =>
      have hl : xs.length = ys.length := by simpa using h
      have := ih ys hl
      simp only [xorBytes, List.zipWith_cons_cons, List.cons.injEq] at this ⊢
      exact ⟨by rw [UInt8.xor_assoc, UInt8.xor_self, UInt8.xor_zero], this⟩

end Verif
