import Verif.Model.Pack

/-!
# The checks of the derive macros

What `parse_packet_description` refuses, for a declaration that is given as `PackDesc`.  The reading of
the tokens, which yields the `PackDesc`, is modelled in `Model/Input.lean`.
-/

namespace Ublox

/-- The errors of `ublox_derive/src/input.rs` that depend on the content of a declaration. -/
inductive DeclError where
  /-- `base10_parse::<u16>()` of the payload length fails, `input.rs:311`, `322` -/
  | badNumber
  /-- "You map type to the same type", `input.rs:426` -/
  | sameType (field : String)
  /-- "Non-finite size for field which is not the last field", `input.rs:36` -/
  | nonFinite (field : String)
  /-- "Calculated packet size doesn't match specified", `input.rs:53` -/
  | sizeMismatch
  deriving DecidableEq, Repr

/-- `map_ty.ty == ty` (`ublox_derive/src/input.rs:422-429`); the only types that are both raw types
and map types are the floats. -/
def FieldDesc.mapsToSame (f : FieldDesc) : Bool :=
  match f.map, f.ty with
  | some .f32, .f32 => true
  | some .f64, .f64 => true
  | _, _ => false

/-- `ublox_derive/src/input.rs:15-59`, `parse_packet_description`, with the relevant parts of
`parse_ubx_attr` (`260-367`) and `parse_fields` (`389-443`). -/
def PackDesc.parse (d : PackDesc) : Except DeclError PackDesc :=
  if 65536 ≤ d.maxPayloadLen then .error .badNumber
  else match d.fields.find? (·.mapsToSame) with
    | some f => .error (.sameType f.name)
    | none =>
      match (d.fields.reverse.drop 1).find? fun f => f.ty.size.isNone && f.sizeFn.isNone with
      | some f => .error (.nonFinite f.name)
      | none => if d.fixedPayloadLen = d.packetPayloadSize then .ok d else .error .sizeMismatch

/-! ## Enumerations and flags -/

/-- The errors of the macros `ubx_extend` and `ubx_extend_bitflags` that depend on the content of a
declaration. -/
inductive ExtendError where
  /-- "you should use rest_error with from_unchecked", `input.rs:251` -/
  | fromWithRestError
  /-- the failing `assert_ne!` of `output.rs:535` (in `from_unchecked`): a panic of the macro -/
  | assertion
  /-- "Only reserved supported", `output.rs:613-618` -/
  | onlyReserved
  /-- "Not supported type", `input.rs:163-166` -/
  | badType
  /-- "Strange flags, not power of 2?", `output.rs:653-660` -/
  | strangeFlags
  /-- `unimplemented!()`, `output.rs:675` -/
  | unimplemented
  deriving DecidableEq, Repr

/-- `ublox_derive/src/input.rs:246-253` at the end of `parse_ubx_extend_attrs`, and the two `assert_ne!`
of `generate_code_to_extend_enum`, `ublox_derive/src/output.rs:518-521`, `535`. -/
def EnumDesc.extend (e : EnumDesc) : Except ExtendError EnumDesc :=
  if e.fromFn = some .from ∧ e.rest = some .errorProne then .error .fromWithRestError
  else if e.fromFn = some .fromUnchecked ∧ e.rest = some .reserved then .error .assertion
  else .ok e

/-- What the compiler asks of the generated enumeration: distinct names, distinct discriminants, and a
`match` in `from` that covers every byte. -/
def EnumDesc.compiles (e : EnumDesc) : Bool :=
  decide (e.allVariants.map (·.1)).Nodup && decide (e.allVariants.map (·.2)).Nodup &&
  (e.fromFn != some .from || (List.range 256).all fun x => (e.lookup (UInt8.ofNat x)).isSome)

/-- `ublox_derive/src/input.rs:143-190`, `parse_bitflags`, and
`generate_code_to_extend_bitflags`, `ublox_derive/src/output.rs:611-676`, as far as they refuse
something; `fromFn` and `rest` are the attributes of the declaration. -/
def FlagsDesc.extend (d : FlagsDesc) (fromFn : Option FromFn) (rest : Option Rest) :
    Except ExtendError FlagsDesc :=
  if fromFn = some .from ∧ rest = some .errorProne then .error .fromWithRestError
  else if d.nbits ≠ 8 ∧ d.nbits ≠ 16 ∧ d.nbits ≠ 32 then .error .badType
  else if rest ≠ some .reserved then .error .onlyReserved
  else if d.accepted = false then .error .strangeFlags
  else if fromFn = some .fromUnchecked then .error .unimplemented
  else .ok d

end Ublox
