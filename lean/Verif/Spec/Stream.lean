import Verif.Spec.Frame

/-!
# Specification of streams: sequences of steps, embedded frames, clean streams
-/

namespace Ublox.Spec

/-- Several decoding steps in a row. -/
inductive Run (maxLen cap : Nat) : Bytes → List (Option Ev) → Bytes → Prop
  | nil (s) : Run maxLen cap s [] s
  | cons {s s' s'' ev evs} : Step maxLen cap s ev s' → Run maxLen cap s' evs s'' →
      Run maxLen cap s (ev :: evs) s''

/-- Drop everything before the first sync byte, if there is one. -/
def trim (s : Bytes) : Bytes :=
  if (0xb5 : UInt8) ∈ s then s.dropWhile (· ≠ 0xb5) else s

/-- `n` is a payload length announced by one of the headers the decoder looks at while decoding
`s`. -/
inductive Announces (maxLen : Nat) : Bytes → Nat → Prop
  | here {s c i lo hi tail} : scan maxLen s = .cand c i lo hi tail →
      Announces maxLen s (announced lo hi)
  | afterPacket {s c i lo hi tail a b after n} : scan maxLen s = .cand c i lo hi tail →
      tail.drop (announced lo hi) = a :: b :: after →
      a = ckA (covered c i lo hi tail) → b = ckB (covered c i lo hi tail) →
      Announces maxLen after n → Announces maxLen s n
  | afterBad {s c i lo hi tail a b after n} : scan maxLen s = .cand c i lo hi tail →
      tail.drop (announced lo hi) = a :: b :: after →
      ¬ (a = ckA (covered c i lo hi tail) ∧ b = ckB (covered c i lo hi tail)) →
      Announces maxLen (c :: i :: lo :: hi :: tail) n → Announces maxLen s n

/-- Every frame announced in `s` fits in a buffer of `cap` bytes when its last byte is still
missing. -/
def Fits (maxLen cap : Nat) (s : Bytes) : Prop := ∀ n, Announces maxLen s n → n + 7 ≤ cap

/-- The frames `fs` (class, id, payload) occur in `s` as disjoint contiguous pieces, in this order,
with payloads of at most `maxLen` bytes. -/
inductive Embeds (maxLen : Nat) : Bytes → List (UInt8 × UInt8 × Bytes) → Prop
  | nil (s) : Embeds maxLen s []
  | cons {gap rest c i payload fs} : payload.length ≤ maxLen → Embeds maxLen rest fs →
      Embeds maxLen (gap ++ frame c i payload ++ rest) ((c, i, payload) :: fs)

/-- The frames among the reports. -/
def packets : List Ev → List (UInt8 × UInt8 × Bytes)
  | [] => []
  | .packet c i p :: evs => (c, i, p) :: packets evs
  | _ :: evs => packets evs

/-- A stream of well-formed frames, each preceded by a separator, with one more separator at the
end. -/
def cleanStream : List (Bytes × UInt8 × UInt8 × Bytes) → Bytes → Bytes
  | [], last => last
  | (sep, c, i, p) :: rest, last => sep ++ frame c i p ++ cleanStream rest last

end Ublox.Spec
