import Verif.Model.Dispatch
import Verif.Model.Iter

/-!
# Serialization of repeated blocks

`Dispatch.lean` models the map that a packet is serialized as with the values of the accessors.  A
value that is an iterator is serialized as a sequence of its items.  What a `Serializer` of serde
does with a number, a string, an enum or a set of flags is not modelled.
-/

namespace Ublox

/-- An item of an iterator as it is given to the serializer.  `map`: the entries of
`NavSatSvInfoRef` and `RxmRawxInfoRef` (`ublox_derive/src/output.rs:55-72`) or the fields of a
structure with derived serialization. -/
inductive SerItem where
  | map (entries : List (String × Val))
  | str (s : Bytes)
  | u32 (w : UInt32)
  deriving DecidableEq, Repr

/-- The value of a field as it is given to the serializer. -/
inductive Ser where
  | val (v : Val)
  | seq (items : List SerItem)
  deriving DecidableEq, Repr

/-- Serialization of one item: `ublox_derive/src/output.rs:36-72` for the two references,
`packets.rs:3171-3176` (EsfMeasData), `3216-3222` (EsfRawData), `&str` and `u32`. -/
def IterItem.serialize : IterItem → R SerItem
  | .sv data => do return .map (← Gen.navSatSvInfo_.serializeFields data Gen.navSatSvInfo_.getters)
  | .rawx data => do return .map (← Gen.rxmRawxInfo_.serializeFields data Gen.rxmRawxInfo_.getters)
  | .str s => .ok (.str s)
  | .esfMeas dataType dataField =>
    .ok (.map [("data_type", .raw (.u8 dataType)), ("data_field", .raw (.u32 dataField))])
  | .esfRaw dataType dataField tag =>
    .ok (.map [("data_type", .raw (.u8 dataType)), ("data_field", .raw (.u32 dataField)),
      ("sensor_time_tag", .raw (.u32 tag))])
  | .word w => .ok (.u32 w)

/-- `ublox/src/ubx_packets/types.rs:140-153`, `FieldIter::serialize`: `collect_seq` calls `next` until it
returns `None` and serializes every item.  The result is `none` if this does not terminate. -/
def IterKind.collectSeq (M : Nat) (k : IterKind) (st : IterState) : Option (R (List SerItem)) :=
  match k.next M st with
  | .error p => some (.error p)
  | .ok (none, _) => some (.ok [])
  | .ok (some x, st) =>
    match x.serialize with
    | .error p => some (.error p)
    | .ok y => do
      let ys ← k.collectSeq M st
      return ys.map (y :: ·)
partial_fixpoint

/-- `ublox_derive/src/types.rs:76-81`, `is_optional` -/
def FieldDesc.isOptional (f : FieldDesc) : Bool := f.map == some .infStr || f.map == some .calibTag

/-- `ublox_derive/src/output.rs:38-52`: the value of the accessor, or, for a field without size that
is not optional, the accessor's iterator inside a `FieldIter`. -/
def FieldDesc.serialize (M : Nat) (f : FieldDesc) (v : Val) : Option (R Ser) :=
  if f.ty.size.isSome || f.isOptional then some (.ok (.val v))
  else match v with
    | .iter k data => do
      let ys ← k.collectSeq M (k.new data)
      return ys.map Ser.seq
    | _ => some (.error .illTyped)

/-- `ublox_derive/src/output.rs:55-60`, the body of `serialize_fields`. -/
def PackDesc.serializeEntries (M : Nat) (d : PackDesc) (payload : Bytes) :
    List Getter → Option (R (List (String × Ser)))
  | [] => some (.ok [])
  | g :: gs =>
    match g.run d payload with
    | .error p => some (.error p)
    | .ok v => do
      match ← g.field.serialize M v with
      | .error p => return .error p
      | .ok s => return (← d.serializeEntries M payload gs).map ((g.field.name, s) :: ·)

/-- `ublox_derive/src/output.rs:791-823`, serialization of a `PacketRef`. -/
def PacketRef.serializeAll (M : Nat) : PacketRef → Option (R (List (String × Ser)))
  | .known d payload => do
    return (← d.serializeEntries M payload d.getters).map
      ([("class", .val (.raw (.u8 d.cls))), ("msg_id", .val (.raw (.u8 d.id)))] ++ ·)
  | .unknown payload cls msgId =>
    some (.ok [("payload", .val (.raw (.bytes payload))), ("class", .val (.raw (.u8 cls))),
      ("msg_id", .val (.raw (.u8 msgId)))])

end Ublox
