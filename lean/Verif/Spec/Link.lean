import Verif.Spec.Codegen
import Verif.Model.Serialize

/-!
# Linking

What the names in the generated code stand for in a program: the pieces of generated code refer to each
other, and to functions that are written by hand.  A program is a list of conversions (enumerations, flags,
and types written by hand) and a list of packets.  The functions written by hand are those of the model
(`Model/Pack.lean`, `Model/Iter.lean`).
-/

namespace Ublox.Rust
open Spec
open Syn (Ty Fn Word)

variable {W E : Type}

/-- Nothing is defined. -/
def noX (M rest : Nat) (w : MemWriter W E) : Externs W E where
  maxUsize := M
  usizeRest := rest
  writer := w
  const _ := .error .illTyped
  fn _ _ := .error .illTyped
  call _ _ := .error .illTyped
  method _ _ := .error .illTyped
  methodMut _ _ _ := .error .illTyped

/-- The code of an enumeration refers to its variants, to `true` and to `false`. -/
def enumX (base : Externs W E) (code : EnumCode) : Externs W E :=
  { base with
    const := fun s =>
      if s = "true" then .ok (.bool true)
      else if s = "false" then .ok (.bool false)
      else match code.variants.find? fun v => code.name ++ "::" ++ v.1 = s with
        | some v => .ok (variantV (v.1, UInt8.ofNat v.2))
        | none => .error .illTyped }

/-- A generated function, if there is one. -/
def callFn (x : Externs W E) (f : Option FnDecl) (args : List (V W E)) : R (V W E) :=
  match f with
  | some f => f.call x args
  | none => .error .illTyped

/-- The functions of an enumeration, called with a value of the right type. -/
def enumFn (base : Externs W E) (e : EnumDesc) (name : Word) (v : V W E) : R (V W E) :=
  match generateEnumCode e with
  | .error _ => .error .illTyped
  | .ok code =>
    match name, v with
    | .from_, .val (.raw (.u8 _)) => callFn (enumX base code) code.from_ [v]
    | .fromUnchecked, .val (.raw (.u8 _)) => callFn (enumX base code) code.fromUnchecked [v]
    | .isValid, .val (.raw (.u8 _)) => callFn (enumX base code) code.isValid [v]
    | .intoRaw, .val (.enum _) => callFn (enumX base code) code.intoRaw [v]
    | _, _ => .error .illTyped

/-- The methods of the `bitflags` crate for constants with these values. -/
def flagsX (base : Externs W E) (nbits : Nat) (vals : List Nat) : Externs W E :=
  { base with
    call := fun p args =>
      match args with
      | [.val (.raw r)] =>
        if p = "Self::from_bits_truncate" then
          match r.unsigned? nbits with
          | some n => .ok (flagsV (n &&& vals.foldl (· ||| ·) 0))
          | none => .error .illTyped
        else .error .illTyped
      | _ => .error .illTyped
    method := fun v m =>
      match v with
      | .val (.flags n) =>
        if m = "bits" then rawV <$> RawVal.ofUnsigned nbits n else .error .illTyped
      | _ => .error .illTyped }

/-- The values of constants. -/
def constValues (x : Externs W E) (nbits : Nat) : List (String × Expr) → R (List Nat)
  | [] => .ok []
  | i :: is => do
    match ← ConstDecl.eval x ⟨"", i.1, i.2⟩ with
    | .val (.raw r) =>
      match r.unsigned? nbits with
      | some n => return n :: (← constValues x nbits is)
      | none => .error .illTyped
    | _ => .error .illTyped

/-- The functions of flags, called with a value of the right type. -/
def flagsFn (base : Externs W E) (d : FlagsDesc) (name : Word) (v : V W E) : R (V W E) :=
  match generateFlagsCode d (if d.from_ then some .from else none) (some .reserved) with
  | .error _ => .error .illTyped
  | .ok code => do
    let x := flagsX base d.nbits (← constValues base d.nbits code.items)
    match name, v with
    | .from_, .val (.raw r) =>
      if (r.unsigned? d.nbits).isSome then callFn x code.from_ [v] else .error .illTyped
    | .intoRaw, .val (.flags _) => callFn x code.intoRaw [v]
    | _, _ => .error .illTyped

/-- The functions of a type that is written by hand. -/
def handFn (c : Conv) (name : Word) (v : V W E) : R (V W E) :=
  match name, v with
  | .from_, .val (.raw r) => valV <$> c.convert false r
  | .fromUnchecked, .val (.raw r) => valV <$> c.convert true r
  | .isValid, .val (.raw r) => V.bool <$> c.isValid r
  | .intoRaw, .val v => rawV <$> c.intoRaw none .tail v
  | _, _ => .error .illTyped

/-- The type of an integer. -/
def intTyOf : Ty → RawTy
  | .path [.u8] => .u8
  | .path [.i8] => .i8
  | .path [.u16] => .u16
  | .path [.i16] => .i16
  | .path [.u32] => .u32
  | .path [.i32] => .i32
  | _ => .tail

/-- The functions that the declarations of a program name: the methods of a type are found by the type,
other functions by their path. -/
def linkFn (base : Externs W E) (cs : List Conv) (f : Fn) (v : V W E) : R (V W E) :=
  match f with
  | .method ty name =>
    match cs.find? fun c => convTy c = ty with
    | some (.enum e) => enumFn base e name v
    | some (.flags d) => flagsFn base d name v
    | some c => handFn c name v
    | none => .error .illTyped
  | .custom p =>
    match cs.find? fun c => convFrom c = some p with
    | some c => handFn c .from_ v
    | none =>
      match cs.find? fun c => convIsValid c = some p with
      | some c => handFn c .isValid v
      | none => .error .illTyped
  | .scaleBack ty q raw =>
    match v with
    | .val (.f32 y) =>
      if ty = .path [.f32] then rawV <$> (ScaleBack.ofScale fmt32 q).asRaw (intTyOf raw) y
      else .error .illTyped
    | .val (.f64 y) =>
      if ty = .path [.f64] then rawV <$> (ScaleBack.ofScale fmt64 q).asRaw (intTyOf raw) y
      else .error .illTyped
    | _ => .error .illTyped

/-- The conversions of a program can be told apart by their types, and the macros accept the enumerations
and flags, whose variants have different names. -/
structure ProgramOk (cs : List Conv) : Prop where
  types : (cs.map convTy).Nodup
  enums : ∀ e, .enum e ∈ cs → (∃ code, generateEnumCode e = .ok code) ∧ (e.allVariants.map (·.1)).Nodup
  flags : ∀ d, .flags d ∈ cs → (d.nbits = 8 ∨ d.nbits = 16 ∨ d.nbits = 32) ∧
    ∃ code, generateFlagsCode d (if d.from_ then some .from else none) (some .reserved) = .ok code

/-- The packet belongs to the program: its conversions are there, and enumerations that are used with
`may_fail` have the function `is_valid`. -/
structure PacketIn (cs : List Conv) (d : Ublox.PackDesc) : Prop where
  convs : ∀ f ∈ d.fields, ∀ c, f.map = some c → c ∈ cs
  mayFail : ∀ f ∈ d.fields, ∀ e, f.map = some (.enum e) → f.mayFail = true →
    e.fromFn = some .fromUnchecked

/-- `Name::CLASS` and the other constants of a packet. -/
def packetConst (base : Externs W E) (ds : List Ublox.PackDesc) (s : String) : R (V W E) :=
  match (ds.flatMap fun d => (generateTypes (packetCode d)).map fun c => (d, c)).find? fun p =>
    p.1.name ++ "::" ++ p.2.name = s with
  | some p => p.2.eval base
  | none => .error .illTyped

/-- `Self::PACKET_LEN` in the code of a builder. -/
def packetLenConst (d : Ublox.PackDesc) : R (V W E) :=
  match generateSendCode (packetCode d) with
  | .ok ⟨_, _, _, _, .fixed n _ _ _⟩ => .ok (.usize n)
  | _ => .error .illTyped

/-- What the code of a packet refers to. -/
def packX (base : Externs W E) (cs : List Conv) (d : Ublox.PackDesc) : Externs W E :=
  { base with
    const := fun s =>
      if s = "SYNC_CHAR_1" then .ok (.byte SYNC_CHAR_1)
      else if s = "SYNC_CHAR_2" then .ok (.byte SYNC_CHAR_2)
      else if s = "Self::PACKET_LEN" then packetLenConst d
      else packetConst base [d] s
    fn := linkFn base cs
    method := fun v m =>
      match v with
      | .data name [("0", .val (.raw (.bytes payload)))] =>
        if name = d.name ++ "Ref" then
          match [SizeFn.dataLen, .calibTagLen].find? fun s => pathText (sizeFnName s) = m with
          | some s => V.usize <$> s.run d payload
          | none => .error .illTyped
        else .error .illTyped
      | _ => .error .illTyped
    methodMut := fun v m out =>
      match v, out with
      | .cfgVal c, .val (.raw (.bytes out)) =>
        if m = "extend_to" then (fun p => (.usize p.2, .bytes p.1)) <$> c.extendTo out
        else .error .illTyped
      | _, _ => .error .illTyped }

/-- What the code of a packet refers to, with the methods of the builder. -/
def buildX (base : Externs W E) (cs : List Conv) (d : Ublox.PackDesc) : Externs W E :=
  let x := packX base cs d
  { x with
    method := fun v m =>
      match generateSendCode (packetCode d) with
      | .ok ⟨_, _, _, _, .fixed _ intoPacketBytes _ _⟩ =>
        if m = "into_packet_bytes" then intoPacketBytes.call x [v] else x.method v m
      | _ => x.method v m
    methodMut := fun v m out =>
      match generateSendCode (packetCode d), v with
      | .ok ⟨_, _, _, _, .dynamic _ extendTo⟩, .data _ _ =>
        if m = "extend_to" then runMut x extendTo v out else x.methodMut v m out
      | _, _ => x.methodMut v m out }

/-- What the functions of the builder do in a program. -/
def BuilderRuns (base : Externs W E) (cs : List Conv) (d : PackDesc) (b : Builder) : BuilderBody → Prop
  | .fixed len intoPacketBytes fromBuilder createPacket =>
    (∃ size, d.packetPayloadSize = some size ∧ len = size + 8) ∧
    intoPacketBytes.call (buildX base cs d) [builderV d b] = V.bytes <$> d.intoPacketBytes b ∧
    fromBuilder.call (buildX base cs d) [builderV d b] = V.bytes <$> d.intoPacketBytes b ∧
    ∀ w, runMut (buildX base cs d) createPacket (builderV d b) (.writer w) =
      (fun p => (writeResultV p.1, .writer p.2)) <$> d.createPacket base.writer b w
  | .dynamic intoPacketVec extendTo =>
    d.packetPayloadSize = none ∧
    intoPacketVec.call (buildX base cs d) [builderV d b] = V.bytes <$> d.intoPacketVec base.maxUsize b ∧
    ∀ out, runMut (buildX base cs d) extendTo (builderV d b) (.bytes out) =
      (fun o => (.unit, .bytes o)) <$> d.extendTo base.maxUsize b out

/-- A method of the type of received packets. -/
def recvMethod (base : Externs W E) (cs : List Conv) (d : Ublox.PackDesc) (name : String)
    (args : List (V W E)) : R (V W E) :=
  match generateRecvCode (packetCode d) with
  | .error _ => .error .illTyped
  | .ok code => callFn (packX base cs d) (methodNamed code.methods name) args

/-- What the code for the list of packets refers to. -/
def parseX (base : Externs W E) (cs : List Conv) (ds : List Ublox.PackDesc) : Externs W E :=
  { base with
    const := packetConst base ds
    call := fun p args =>
      if p = "max_u16" then maxU16Code.call base args
      else match ds.find? fun d => "<" ++ d.name ++ "Ref>::validate" = p with
        | some d => recvMethod base cs d "validate" args
        | none => .error .illTyped }

/-- What the code for the debug output and the serialization of a packet refers to. -/
def accX (base : Externs W E) (cs : List Conv) (d : Ublox.PackDesc) : Externs W E :=
  { packX base cs d with
    method := fun v m => recvMethod base cs d m [v]
    call := fun p args =>
      match args with
      | [v] => if p = "crate::ubx_packets::FieldIter" then .ok (fieldIterV v) else .error .illTyped
      | _ => .error .illTyped }

/-- `serialize_fields` of the packets of a program, found by the type. -/
def serializeFieldsX (base : Externs W E) (cs : List Conv) (ds : List Ublox.PackDesc) : Externs W E :=
  { base with
    methodMut := fun v m state =>
      match v with
      | .data name _ =>
        if m = "serialize_fields" then
          match ds.find? fun d => d.name ++ "Ref" = name with
          | some d =>
            match generateRecvCode (packetCode d) with
            | .ok code => runState (accX base cs d) code.serializeFields v state
            | .error _ => .error .illTyped
          | none => .error .illTyped
        else .error .illTyped
      | _ => .error .illTyped }

/-- What the serialization of the enumeration of packets refers to; the unknown packet is serialized by
derived code as a structure (`ublox/src/ubx_packets.rs:86-92`). -/
def unionX (base : Externs W E) (cs : List Conv) (r : Syn.RecvPackets) (ds : List Ublox.PackDesc) :
    Externs W E :=
  { base with
    const := packetConst base ds
    methodMut := fun v m s =>
      match v, s with
      | .data name fs, .entries n es =>
        if m = "serialize" then
          if name = "crate::ubx_packets::PacketSerializer" then
            (fun w => (w, s)) <$>
              (generateParseCode r).serializePacket.call (serializeFieldsX base cs ds) [v, s]
          else if name = r.unknownTy then .ok (.ok (.entries n (es ++ fs)), s)
          else .error .illTyped
        else .error .illTyped
      | _, _ => .error .illTyped }

end Ublox.Rust
