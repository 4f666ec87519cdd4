import Verif.Spec.Iter
import Verif.Model.Serialize

/-! # Specification of the serialized form of repeated blocks -/

namespace Ublox.Spec

/-- The entries of a packet or block are its fields in declaration order with what the accessors
return. -/
def EntriesOf (d : PackDesc) (data : Bytes) (kvs : List (String × Val)) : Prop :=
  kvs.map Prod.fst = d.fields.map FieldDesc.name ∧
  ∀ (j : Nat) (f : FieldDesc), d.fields[j]? = some f →
    ∃ v, kvs[j]? = some (f.name, v) ∧ d.get f.getName data = .ok v

/-- The serialized form of a block of this kind: satellites and measurements as maps of all their
fields, ESF-MEAS and ESF-RAW data as maps of the parts of the word, MON-VER extensions as strings,
subframe words as numbers. -/
def SerItemOf (k : IterKind) (blk : Bytes) (x : SerItem) : Prop :=
  match k with
  | .navSat => ∃ kvs, x = .map kvs ∧ EntriesOf Gen.navSatSvInfo_ blk kvs
  | .rxmRawx => ∃ kvs, x = .map kvs ∧ EntriesOf Gen.rxmRawxInfo_ blk kvs
  | .monVerExt => ∃ s, x = .str s ∧ CStr blk s
  | .esfMeas => ∃ (ty : UInt8) (dat : UInt32),
      x = .map [("data_type", .raw (.u8 ty)), ("data_field", .raw (.u32 dat))] ∧
      ty.toNat = field (leNat blk) 24 6 ∧ dat.toNat = field (leNat blk) 0 24
  | .esfRaw => ∃ (ty : UInt8) (dat tag : UInt32),
      x = .map [("data_type", .raw (.u8 ty)), ("data_field", .raw (.u32 dat)),
        ("sensor_time_tag", .raw (.u32 tag))] ∧
      ty.toNat = field (leNat (blk.take 4)) 24 8 ∧ dat.toNat = field (leNat (blk.take 4)) 0 24 ∧
      tag.toNat = leNat (blk.drop 4)
  | .dwrd => ∃ w, x = .u32 w ∧ w.toNat = leNat blk

/-- The serialized form of an accessor's value: an iterator as the sequence of all its blocks,
everything else as it is. -/
def SerOf (v : Val) (s : Ser) : Prop :=
  (∀ k data, v = .iter k data → ∃ items : List SerItem, s = .seq items ∧
    items.length = data.length / blockSize k ∧
    ∀ (i : Nat) (x : SerItem), items[i]? = some x → SerItemOf k (block (blockSize k) data i) x) ∧
  ((∀ k data, v ≠ .iter k data) → s = .val v)

end Ublox.Spec
