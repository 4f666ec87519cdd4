import Verif.Spec.Stream

/-!
# Specification of streams of frames among arbitrary other bytes
-/

namespace Ublox.Spec

/-- No well-formed frame (payload of at most `maxLen` bytes) begins in the first `n` bytes of `s`. -/
def NoFrameIn (maxLen n : Nat) (s : Bytes) : Prop :=
  ∀ k < n, ∀ c i payload rest, payload.length ≤ maxLen → s.drop k ≠ frame c i payload ++ rest

/-- `s` consists of the frames `fs` (class, id, payload), each preceded by arbitrary bytes in which no
well-formed frame begins, followed by at least `n` more bytes. -/
inductive Junky (maxLen n : Nat) : Bytes → List (UInt8 × UInt8 × Bytes) → Prop
  | nil {s} : n ≤ s.length → Junky maxLen n s []
  | cons {junk rest c i payload fs} : payload.length ≤ maxLen →
      NoFrameIn maxLen junk.length (junk ++ frame c i payload ++ rest) → Junky maxLen n rest fs →
      Junky maxLen n (junk ++ frame c i payload ++ rest) ((c, i, payload) :: fs)

/-- Every well-formed frame (payload of at most `maxLen` bytes) that begins in the first `n` bytes of
`s` ends within them. -/
def FramesWithin (maxLen n : Nat) (s : Bytes) : Prop :=
  ∀ k < n, ∀ c i payload rest, payload.length ≤ maxLen → s.drop k = frame c i payload ++ rest →
    k + (frame c i payload).length ≤ n

/-- `s` contains the frames `fs` (class, id, payload) in this order, among arbitrary other bytes and
frames none of which reaches into one of them, followed by at least `n` more
bytes. -/
inductive Among (maxLen n : Nat) : Bytes → List (UInt8 × UInt8 × Bytes) → Prop
  | nil {s} : n ≤ s.length → Among maxLen n s []
  | cons {other rest c i payload fs} : payload.length ≤ maxLen →
      FramesWithin maxLen other.length (other ++ frame c i payload ++ rest) →
      Among maxLen n rest fs →
      Among maxLen n (other ++ frame c i payload ++ rest) ((c, i, payload) :: fs)

/-- The bytes `b5 62` do not occur next to each other. -/
def NoSync (s : Bytes) : Prop := ∀ a b, s ≠ a ++ [0xb5, 0x62] ++ b

end Ublox.Spec
