import Verif.Spec.Packet
import Verif.Spec.Scale

/-!
# Specification of builders

Which values a builder field can have, which raw value goes on the wire for it, and what it means
to hand a byte string to a writer piece by piece.
-/

namespace Ublox.Spec

/-- The value has the type of the builder field: the raw type of an unmapped field, otherwise the
type the field is mapped to.  Flag types have a named or reserved flag for every bit, so that every
number of the right width is a flag value. -/
def HasType (f : FieldDesc) (v : Val) : Prop :=
  match f.map, v with
  | none, .raw r => r.ofTy f.ty = true
  | some .f32, .f32 _ => True
  | some .f64, .f64 _ => True
  | some (.enum e), .enum x => x ∈ e.allVariants
  | some (.flags d), .flags b => b < 2 ^ d.nbits
  | some .uartMode, .uartMode _ => True
  | some .itfmConfig, .itfmConfig _ => True
  | some .itfmConfig2, .itfmConfig2 _ => True
  | some .resetMode, .resetMode _ => True
  | some .alignment, .alignment _ => True
  | _, _ => False

/-- The value is a NaN for a field whose integer type is signed: the one case in which building
panics (`c43_nan_panics`). -/
def SignedNan (f : FieldDesc) (v : Val) : Prop :=
  (∃ lo hi, intRange f.ty = some (lo, hi) ∧ lo < 0) ∧
  ∃ neg, v = .f32 (.nan neg) ∨ v = .f64 (.nan neg)

/-- The number of a reset mode in the interface description. -/
def resetCode : ResetMode → Nat
  | .hardwareResetImmediately => 0
  | .controlledSoftwareReset => 1
  | .controlledSoftwareResetGpsOnly => 2
  | .hardwareResetAfterShutdown => 4
  | .controlledGpsStop => 8
  | .controlledGpsStart => 9

/-- The number of a time reference in the interface description. -/
def timeRefCode : AlignmentToReferenceTime → Nat
  | .utc => 0
  | .gps => 1
  | .glo => 2
  | .bds => 3
  | .gal => 4

/-- The integer that a float in a scaled field stands for: see `Near` for finite values; infinities
give the bounds. -/
def Scaled (f : FieldDesc) (slack : Rat) (x : Fl) (r : RawVal) : Prop :=
  ∃ m lo hi s, intOf r = some m ∧ intRange f.ty = some (lo, hi) ∧ f.scale = some s ∧
    (∀ q, x.val? = some q → Near lo hi slack (q / s) m) ∧
    (∀ neg, x = .inf neg → m = if neg then lo else hi)

/-- The raw value that goes on the wire for a value of a builder field.  For the two words of
CFG-ITFM it is what the types' own encoding gives, whose layout is the subject of C31. -/
def RawOf (f : FieldDesc) (v : Val) (r : RawVal) : Prop :=
  r.ofTy f.ty = true ∧
  match f.map, v with
  | none, .raw r' => r = r'
  | some .f32, .f32 x => Scaled f (1 / 50) x r
  | some .f64, .f64 x => Scaled f (1 / 400000) x r
  | some (.enum _), .enum x => intOf r = some (x.2.toNat : Int)
  | some (.flags _), .flags b => intOf r = some (b : Int)
  | some .uartMode, .uartMode m =>
    intOf r = some ((dataBitsCode m.dataBits * 2 ^ 6 + parityCode m.parity * 2 ^ 9
      + stopBitsCode m.stopBits * 2 ^ 12 : Nat) : Int)
  | some .itfmConfig, .itfmConfig c => r = .u32 c.intoRaw
  | some .itfmConfig2, .itfmConfig2 c => r = .u32 c.intoRaw
  | some .resetMode, .resetMode m => intOf r = some (resetCode m : Int)
  | some .alignment, .alignment a => intOf r = some (timeRefCode a : Int)
  | _, _ => False

/-- The builder holds one value of the right type for every field, none of them a NaN that cannot
be converted. -/
def Buildable (fs : List FieldDesc) (b : Builder) : Prop :=
  b.length = fs.length ∧
  ∀ (i : Nat) (f : FieldDesc) (v : Val), fs[i]? = some f → b[i]? = some v →
    HasType f v ∧ ¬ SignedNan f v

/-- The payload is the concatenation of the wire forms of the fields' raw values, in the order of
the fields. -/
def PayloadOf (fs : List FieldDesc) (b : Builder) (payload : Bytes) : Prop :=
  ∃ blocks : List Bytes, payload = blocks.flatten ∧ blocks.length = fs.length ∧
    ∀ (i : Nat) (f : FieldDesc) (v : Val) (k : Bytes), fs[i]? = some f → b[i]? = some v →
      blocks[i]? = some k → k.length = width f.ty ∧ ∃ r, RawOf f v r ∧ Denotes r k

/-- Hand pieces to a writer, one after the other, up to the first error. -/
def writeAll {W E : Type} (write : W → Bytes → R (Except E Unit × W)) :
    List Bytes → W → R (Except E Unit × W)
  | [], w => .ok (.ok (), w)
  | c :: cs, w =>
    match write w c with
    | .error e => .error e
    | .ok (.error e, w) => .ok (.error e, w)
    | .ok (.ok (), w) => writeAll write cs w

end Ublox.Spec
