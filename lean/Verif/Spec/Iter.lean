import Verif.Spec.Packet
import Verif.Model.Iter
import Verif.Spec.Cfg

/-! # Specification of the items of repeated blocks -/

namespace Ublox.Spec

/-- The item is what a block of this kind stands for.  ESF-MEAS: a word with 24 bits of data and 6
bits of type; ESF-RAW: a word with 24 bits of data and 8 bits of type, then a time tag; RXM-SFRBX:
a word; MON-VER: a zero-terminated string; NAV-SAT and RXM-RAWX: the block itself. -/
def ItemOf (k : IterKind) (blk : Bytes) (item : IterItem) : Prop :=
  match k, item with
  | .navSat, .sv data => data = blk
  | .monVerExt, .str s => CStr blk s
  | .esfMeas, .esfMeas ty dat =>
    ty.toNat = field (leNat blk) 24 6 ∧ dat.toNat = field (leNat blk) 0 24
  | .esfRaw, .esfRaw ty dat tag =>
    ty.toNat = field (leNat (blk.take 4)) 24 8 ∧ dat.toNat = field (leNat (blk.take 4)) 0 24 ∧
      tag.toNat = leNat (blk.drop 4)
  | .dwrd, .word w => w.toNat = leNat blk
  | .rxmRawx, .rawx data => data = blk
  | _, _ => False

/-- Calling `next` again and again gives the items of the blocks of `data` in order and then
nothing, for any number of further calls. -/
def Visits (M : Nat) (k : IterKind) (data : Bytes) : Prop :=
  ∃ items : List IterItem, items.length = data.length / blockSize k ∧
    (∀ (i : Nat) (x : IterItem), items[i]? = some x → ItemOf k (block (blockSize k) data i) x) ∧
    ((List.range items.length).map (block (blockSize k) data)).flatten = data ∧
    ∀ extra, ∃ st, iterate (k.next M) (items.length + extra) (k.new data) =
      .ok (items.map some ++ List.replicate extra none, st)

end Ublox.Spec
