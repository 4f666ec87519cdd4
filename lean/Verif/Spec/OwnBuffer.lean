import Verif.Spec.Queue
import Verif.Model.Buffer

/-!
# What the documentation asks of a buffer of one's own
-/

namespace Ublox.Spec

open UnderlyingBuffer (len maxCapacity)

/-- A type of buffers with the properties that the documentation of the trait `UnderlyingBuffer`
(`ublox/src/parser.rs:9-52`) asks for: `Valid` are the states that can occur, `holds b` are the bytes
in the buffer.  `extend_from_slice` copies the beginning `fit` of what it is given and returns how many
bytes it did not copy; it may refuse bytes only if the buffer holds at least `max_capacity` bytes
then ("this value should be a minimum max capacity").  The documentation also allows it to panic;
that is left out here. -/
structure Documented (T : Type) [UnderlyingBuffer T] (Valid : T → Prop) (holds : T → Bytes) :
    Prop where
  len : ∀ {b}, Valid b → len b = (holds b).length
  index : ∀ {b i x}, Valid b → (holds b)[i]? = some x → UnderlyingBuffer.index b i = .ok x
  range : ∀ {b pre xs post}, Valid b → holds b = pre ++ xs ++ post →
    UnderlyingBuffer.range b pre.length (pre.length + xs.length) = .ok xs
  clear : ∀ {b}, Valid b → Valid (UnderlyingBuffer.clear b) ∧ holds (UnderlyingBuffer.clear b) = [] ∧
    maxCapacity (UnderlyingBuffer.clear b) = maxCapacity b
  find : ∀ {b v}, Valid b → ∃ r, UnderlyingBuffer.find b v = .ok r ∧
    match r with
    | some i => IsFirst (holds b) v i
    | none => v ∉ holds b
  drain : ∀ {b pre post}, Valid b → holds b = pre ++ post →
    ∃ b', UnderlyingBuffer.drain b pre.length = .ok b' ∧ Valid b' ∧ holds b' = post ∧
      maxCapacity b' = maxCapacity b
  extend : ∀ {b xs}, Valid b → ∃ b' fit out, xs = fit ++ out ∧
    UnderlyingBuffer.extendFromSlice b xs = .ok (b', out.length) ∧ Valid b' ∧
    holds b' = holds b ++ fit ∧ maxCapacity b' = maxCapacity b ∧
    (out = [] ∨ maxCapacity b ≤ (holds b').length)

/-- A buffer type that never holds more bytes than `max_capacity` says. -/
def NeverMore (T : Type) [UnderlyingBuffer T] (Valid : T → Prop) (holds : T → Bytes) : Prop :=
  ∀ b, Valid b → (holds b).length ≤ maxCapacity b

end Ublox.Spec
