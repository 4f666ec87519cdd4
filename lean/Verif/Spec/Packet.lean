import Verif.Spec.Wire
import Verif.Spec.Bits
import Verif.Model.Pack

/-!
# Specification of payload layouts

A packet declaration lists its fields in the order in which they are on the wire; fields of fixed
size follow each other without gaps, at most the end of the payload has variable size.
-/

namespace Ublox.Spec

/-- Number of payload bytes of a raw type; 0 for a field of variable size. -/
def width : RawTy → Nat
  | .u8 => 1
  | .i8 => 1
  | .u16 => 2
  | .i16 => 2
  | .u32 => 4
  | .i32 => 4
  | .f32 => 4
  | .f64 => 8
  | .bytes n => n
  | .tail => 0

/-- Sum of the sizes. -/
def total (fs : List FieldDesc) : Nat := (fs.map fun f => width f.ty).sum

/-- Where the `i`-th field starts. -/
def start (fs : List FieldDesc) (i : Nat) : Nat := total (fs.take i)

/-- The bytes of the `i`-th field `f`: its slot if it has a fixed size, otherwise everything from
its start on. -/
def fieldBytes (fs : List FieldDesc) (i : Nat) (f : FieldDesc) (payload : Bytes) : Bytes :=
  if f.ty = .tail then payload.drop (start fs i)
  else (payload.drop (start fs i)).take (width f.ty)

/-- The bytes are the UTF-8 encoding of some sequence of Unicode scalar values. -/
def Utf8 (s : Bytes) : Prop := ∃ cs : List Char, s = cs.flatMap String.utf8EncodeChar

/-- `s` is the text of a slot for a zero-terminated string: what is before the first NUL, which must
be UTF-8. -/
def CStr (slot s : Bytes) : Prop := Utf8 s ∧ 0 ∉ s ∧ ∃ rest, slot = s ++ 0 :: rest

/-- The `i`-th block of `n` bytes. -/
def block (n : Nat) (bs : Bytes) (i : Nat) : Bytes := (bs.drop (n * i)).take n

/-- Size of the repeated blocks. -/
def blockSize : IterKind → Nat
  | .navSat => 12
  | .monVerExt => 30
  | .esfMeas => 4
  | .esfRaw => 8
  | .rxmRawx => 32
  | .dwrd => 4

/-- The bytes are acceptable for the field: closed enumerations have a declared code, strings are
terminated and UTF-8, repeated parts consist of complete blocks. -/
def FieldValid (f : FieldDesc) (bs : Bytes) : Prop :=
  f.mayFail = true →
    match f.map with
    | some (.enum e) => ∃ b, bs = [b] ∧ b ∈ e.variants.map (·.2)
    | some .cstr => ∃ s, CStr bs s
    | some (.iter k) => blockSize k ∣ bs.length ∧
        (k = .monVerExt → ∀ i < bs.length / 30, ∃ s, CStr (block 30 bs i) s)
    | _ => True

/-- The number of bytes that an ESF-MEAS payload announces in its flags (bytes 4 and 5) for the
measurements (bits 15..11) and for the calibration tag (bit 3). -/
def announcedSize (payload : Bytes) : SizeFn → Nat
  | .dataLen => 4 * field (leNat ((payload.drop 4).take 2)) 11 5
  | .calibTagLen => if bit (leNat ((payload.drop 4).take 2)) 3 then 4 else 0

/-- The number of bytes that a payload must have at least: the fields of fixed size and, if the
payload contains them, the announced sizes. -/
def required (d : PackDesc) (payload : Bytes) : Nat :=
  if payload.length < total d.fields then total d.fields
  else total d.fields + ((d.fields.filterMap (·.sizeFn)).map (announcedSize payload)).sum

/-- The payload has an acceptable length: exactly the required one, or at least that if the last
field has variable size. -/
def LenOk (d : PackDesc) (payload : Bytes) : Prop :=
  if d.fields.any (fun f => f.ty == .tail) then required d payload ≤ payload.length
  else payload.length = required d payload

/-- The payload is valid for the packet. -/
def Valid (d : PackDesc) (payload : Bytes) : Prop :=
  LenOk d payload ∧ ∀ i f, d.fields[i]? = some f → FieldValid f (fieldBytes d.fields i f payload)

/-- Field `i` is the first one that is not acceptable. -/
def FirstInvalid (d : PackDesc) (payload : Bytes) (i : Nat) (f : FieldDesc) : Prop :=
  d.fields[i]? = some f ∧ ¬ FieldValid f (fieldBytes d.fields i f payload) ∧
  ∀ j g, j < i → d.fields[j]? = some g → FieldValid g (fieldBytes d.fields j g payload)

end Ublox.Spec
