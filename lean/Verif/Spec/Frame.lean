import Verif.Model.Basic

/-!
# Specification of UBX frames and of the reference stream decoder

This file is the yardstick for the parser.  It only uses lists of bytes; nothing of the model of
the code (buffers, offsets, checksum loops) is used.
-/

namespace Ublox.Spec

/-- Sum of the bytes as natural number. -/
def byteSum (xs : Bytes) : Nat := (xs.map UInt8.toNat).sum

/-- First checksum byte: the sum of all bytes modulo 256. -/
def ckA (xs : Bytes) : UInt8 := UInt8.ofNat (byteSum xs)

/-- Second checksum byte: the sum of all non-empty prefix sums modulo 256. -/
def ckB (xs : Bytes) : UInt8 :=
  UInt8.ofNat (((List.range xs.length).map fun i => byteSum (xs.take (i + 1))).sum)

/-- The bytes over which the checksum of a frame runs: class, id, length (little endian),
payload. -/
def body (cls id : UInt8) (payload : Bytes) : Bytes :=
  cls :: id :: UInt8.ofNat (payload.length % 256) :: UInt8.ofNat (payload.length / 256) :: payload

/-- A complete UBX frame. -/
def frame (cls id : UInt8) (payload : Bytes) : Bytes :=
  0xb5 :: 0x62 :: (body cls id payload ++ [ckA (body cls id payload), ckB (body cls id payload)])

/-- What a stream decoder reports. -/
inductive Ev where
  /-- a well-formed frame -/
  | packet (cls id : UInt8) (payload : Bytes)
  /-- checksum mismatch: received checksum bytes, checksum bytes of the data -/
  | badChecksum (received computed : UInt8 × UInt8)
  /-- a frame announced with this payload length does not fit in the buffer -/
  | tooLarge (payloadLen : Nat)
  deriving DecidableEq, Repr

/-- Where the next frame could start. -/
inductive Scan where
  /-- no complete header in the input; these bytes could be the beginning of one -/
  | wait (rest : Bytes)
  /-- a complete header `b5 62 c i lo hi`, followed by `tail` -/
  | cand (c i lo hi : UInt8) (tail : Bytes)
  deriving DecidableEq, Repr

/-- The payload length announced in a header. -/
def announced (lo hi : UInt8) : Nat := lo.toNat + 256 * hi.toNat

/-- Skip to the next `b5 62` whose header is complete and announces at most `maxLen` bytes. -/
def scan (maxLen : Nat) : Bytes → Scan
  | [] => .wait []
  | b :: t =>
    if b = 0xb5 then
      match t with
      | [] => .wait [b]
      | c :: u =>
        if c = 0x62 then
          match u with
          | c :: i :: lo :: hi :: tail =>
            if announced lo hi ≤ maxLen then .cand c i lo hi tail
            else scan maxLen u
          | u => .wait (b :: c :: u)
        else scan maxLen (c :: u)
    else scan maxLen t

/-- The bytes of a candidate header and what follows it. -/
def header (c i lo hi : UInt8) (tail : Bytes) : Bytes := 0xb5 :: 0x62 :: c :: i :: lo :: hi :: tail

/-- The bytes covered by the checksum of a candidate. -/
def covered (c i lo hi : UInt8) (tail : Bytes) : Bytes :=
  c :: i :: lo :: hi :: tail.take (announced lo hi)

/-- Length of what `scan` leaves. -/
theorem scan_length_le (maxLen : Nat) (s : Bytes) :
    (∀ r, scan maxLen s = .wait r → r.length ≤ s.length) ∧
    (∀ c i lo hi tail, scan maxLen s = .cand c i lo hi tail →
      (header c i lo hi tail).length ≤ s.length) := by
  fun_induction scan maxLen s <;> simp_all [header] <;> grind

/-- The reference decoder without capacity limit: all reports for the pending bytes, in order, and
the bytes that stay pending. -/
def decode (maxLen : Nat) (s : Bytes) : List Ev × Bytes :=
  match h : scan maxLen s with
  | .wait r => ([], r)
  | .cand c i lo hi tail =>
    have : (header c i lo hi tail).length ≤ s.length := (scan_length_le maxLen s).2 _ _ _ _ _ h
    match _h2 : tail.drop (announced lo hi) with
    | a :: b :: after =>
      if a = ckA (covered c i lo hi tail) ∧ b = ckB (covered c i lo hi tail) then
        ( .packet c i (tail.take (announced lo hi)) :: (decode maxLen after).1,
          (decode maxLen after).2 )
      else
        ( .badChecksum (a, b) (ckA (covered c i lo hi tail), ckB (covered c i lo hi tail))
            :: (decode maxLen (c :: i :: lo :: hi :: tail)).1,
          (decode maxLen (c :: i :: lo :: hi :: tail)).2 )
    | _ => ([], header c i lo hi tail)
termination_by s.length
decreasing_by
  all_goals
    simp only [header, List.length_cons] at this
    have h3 := congrArg List.length _h2
    simp only [List.length_drop, List.length_cons] at h3 ⊢
    omega

/-- One decoding step on pending bytes `s` with a buffer of `cap` bytes: what is reported (nothing:
more input is needed) and which bytes stay pending.  The only freedom is that a frame that is
completely available, but whose payload and checksum do not fit in the buffer, may or may not be
reported. -/
inductive Step (maxLen cap : Nat) (s : Bytes) : Option Ev → Bytes → Prop
  | wait {r} : scan maxLen s = .wait r → Step maxLen cap s none r
  | incomplete {c i lo hi tail} : scan maxLen s = .cand c i lo hi tail →
      tail.length < announced lo hi + 2 → (header c i lo hi tail).length ≤ cap →
      Step maxLen cap s none (header c i lo hi tail)
  | noRoom {c i lo hi tail} : scan maxLen s = .cand c i lo hi tail →
      tail.length < announced lo hi + 2 → cap < (header c i lo hi tail).length →
      Step maxLen cap s (some (.tooLarge (announced lo hi))) (c :: i :: lo :: hi :: tail)
  | noRoomComplete {c i lo hi tail} : scan maxLen s = .cand c i lo hi tail →
      announced lo hi + 2 ≤ tail.length → cap < announced lo hi + 2 →
      Step maxLen cap s (some (.tooLarge (announced lo hi))) (c :: i :: lo :: hi :: tail)
  | packet {c i lo hi tail a b after} : scan maxLen s = .cand c i lo hi tail →
      tail.drop (announced lo hi) = a :: b :: after →
      a = ckA (covered c i lo hi tail) → b = ckB (covered c i lo hi tail) →
      Step maxLen cap s (some (.packet c i (tail.take (announced lo hi)))) after
  | bad {c i lo hi tail a b after} : scan maxLen s = .cand c i lo hi tail →
      tail.drop (announced lo hi) = a :: b :: after →
      ¬ (a = ckA (covered c i lo hi tail) ∧ b = ckB (covered c i lo hi tail)) →
      Step maxLen cap s
        (some (.badChecksum (a, b) (ckA (covered c i lo hi tail), ckB (covered c i lo hi tail))))
        (c :: i :: lo :: hi :: tail)

end Ublox.Spec
