import Verif.Model.Basic

/-!
# Specification of a bounded byte queue
-/

namespace Ublox.Spec

/-- Operations a client can perform on an underlying buffer. -/
inductive QOp where
  | clear
  | extend (xs : Bytes)
  | drain (n : Nat)
  | find (v : UInt8)
  | range (s e : Nat)
  | index (i : Nat)
  | len
  | capacity
  deriving DecidableEq, Repr

/-- What a client sees of an operation. -/
inductive QOut where
  | unit
  | num (n : Nat)
  | pos (p : Option Nat)
  | bytes (xs : Bytes)
  | byte (b : UInt8)
  | panic
  deriving DecidableEq, Repr

/-- `v` is at position `i` of `q` and at no smaller one. -/
def IsFirst (q : Bytes) (v : UInt8) (i : Nat) : Prop :=
  q[i]? = some v ∧ ∀ j, j < i → q[j]? ≠ some v

/-- The bounded queue: `q` before, `q'` after the operation.  The byte seen by `index` between the
length and the capacity is unspecified. -/
inductive QStep (cap : Nat) (q : Bytes) : QOp → QOut → Bytes → Prop
  | clear : QStep cap q .clear .unit []
  | extend {xs : Bytes} (fit out : Bytes) : xs = fit ++ out →
      (q ++ fit).length ≤ cap → (out = [] ∨ (q ++ fit).length = cap) →
      QStep cap q (.extend xs) (.num out.length) (q ++ fit)
  | drain {n : Nat} : n ≤ q.length → QStep cap q (.drain n) .unit (q.drop n)
  | drainAll {n : Nat} : q.length < n → QStep cap q (.drain n) .unit []
  | findSome {v i} : IsFirst q v i → QStep cap q (.find v) (.pos (some i)) q
  | findNone {v} : v ∉ q → QStep cap q (.find v) (.pos none) q
  | range {s e pre xs post} : q = pre ++ xs ++ post → pre.length = s → s + xs.length = e →
      QStep cap q (.range s e) (.bytes xs) q
  | rangePanic {s e} : (e < s ∨ q.length < e) → QStep cap q (.range s e) .panic q
  | index {i b} : q[i]? = some b → QStep cap q (.index i) (.byte b) q
  | indexBeyond {i b} : q.length ≤ i → i < cap → QStep cap q (.index i) (.byte b) q
  | indexPanic {i} : cap ≤ i → QStep cap q (.index i) .panic q
  | len : QStep cap q .len (.num q.length) q
  | capacity : QStep cap q .capacity (.num cap) q

/-- A sequence of operations. -/
inductive QRun (cap : Nat) : Bytes → List QOp → List QOut → Bytes → Prop
  | nil (q) : QRun cap q [] [] q
  | cons {q op out q' ops outs q''} : QStep cap q op out q' → QRun cap q' ops outs q'' →
      QRun cap q (op :: ops) (out :: outs) q''

end Ublox.Spec
