import Verif.Model.CfgVal
import Verif.Model.GenMacro

/-!
# What `cfg_val!` makes

`ublox/src/ubx_packets/cfg_val.rs:211-301`: the functions and declarations that the macro makes of a table, as
syntax.  That this is what the rules in the text make is proved (`c93_expansion`).
-/

namespace Ublox.Macro

open Code

/-- A row of the table: name and key, and the type of the value -/
structure Row where
  id : List Nat
  key : Nat
  ty : CfgTy
  deriving DecidableEq, Repr

/-- The name of a type, by its codes -/
def tyCodes : CfgTy → List Nat
  | .bool => c!"bool"
  | .u8 => c!"u8"
  | .u16 => c!"u16"
  | .i16 => c!"i16"
  | .u32 => c!"u32"
  | .u64 => c!"u64"
  | .cfgInfMask => c!"CfgInfMask"
  | .dataBits => c!"DataBits"
  | .parity => c!"Parity"
  | .stopBits => c!"StopBits"
  | .alignment => c!"AlignmentToReferenceTime"
  | .tpPulse => c!"TpPulse"
  | .tpPulseLength => c!"TpPulseLength"

namespace Row

/-- A row as it is written, `cfg_val.rs:215` -/
def tokens (r : Row) : List Tk := [.id r.id, .p 44, .num r.key, .p 44, .id (tyCodes r.ty), .p 44]

/-- The number of its name -/
def name (r : Row) : Name := Code.name r.id

end Row

/-- The row of the table for an item of the model -/
def rowOf (i : CfgItem) : Row := ⟨Src.codes i.name, i.key.toNat, i.ty⟩

/-- Arguments -/
def exprs : List Expr → Exprs
  | [] => .nil
  | e :: es => .cons e (exprs es)

/-- Arms of `match` -/
def armsOf : List (Pat × Expr) → Arms
  | [] => .nil
  | a :: l => .cons a.1 a.2 (armsOf l)

/-- `(&buf[4..])[k]` -/
def byteAt (k : Nat) : Expr := .index (.un .ref (.index (.path [i!"buf"]) (.rangeFrom (.int 4)))) (.int k)

/-- `u16::from_le_bytes([..])` and the like: type and number of bytes -/
def fromLe (ty : Name) (n : Nat) : Expr :=
  .call [ty, i!"from_le_bytes"] (exprs [.array (exprs ((List.range n).map byteAt))])

/-- `match $buf[0] { 0 => .., 1 => .., _ => unreachable!() }` -/
def fromMatch (l : List (Nat × List Name)) : Expr :=
  .match_ (byteAt 0) (armsOf (l.map (fun p => (Pat.int p.1, .path p.2)) ++ [(.name i!"_", .panic)]))

/-- `cfg_val.rs:51-127`, `from_cfg_v_bytes!(&buf[4..], ty)` -/
def fromBytes : CfgTy → Expr
  | .bool => fromMatch [(0, [i!"false"]), (1, [i!"true"])]
  | .u8 => byteAt 0
  | .u16 => fromLe i!"u16" 2
  | .i16 => fromLe i!"i16" 2
  | .u32 => fromLe i!"u32" 4
  | .u64 => fromLe i!"u64" 8
  | .cfgInfMask => .call [i!"CfgInfMask", i!"from_bits_truncate"] (exprs [byteAt 0])
  | .dataBits => fromMatch [(0, [i!"DataBits", i!"Eight"]), (1, [i!"DataBits", i!"Seven"])]
  | .parity => fromMatch [(0, [i!"Parity", i!"None"]), (1, [i!"Parity", i!"Odd"]), (2, [i!"Parity", i!"Even"])]
  | .stopBits =>
    fromMatch [(0, [i!"StopBits", i!"Half"]), (1, [i!"StopBits", i!"One"]), (2, [i!"StopBits", i!"OneHalf"]),
      (3, [i!"StopBits", i!"Two"])]
  | .alignment =>
    fromMatch [(0, [i!"AlignmentToReferenceTime", i!"Utc"]), (1, [i!"AlignmentToReferenceTime", i!"Gps"]),
      (2, [i!"AlignmentToReferenceTime", i!"Glo"]), (3, [i!"AlignmentToReferenceTime", i!"Bds"]),
      (4, [i!"AlignmentToReferenceTime", i!"Gal"])]
  | .tpPulse => fromMatch [(0, [i!"TpPulse", i!"Period"]), (1, [i!"TpPulse", i!"Freq"])]
  | .tpPulseLength => fromMatch [(0, [i!"TpPulseLength", i!"Ratio"]), (1, [i!"TpPulseLength", i!"Length"])]

/-- `cfg_val.rs:130-139`, `into_cfg_kv_bytes!(@inner [..])` -/
def inner (l : List Expr) : Stmts :=
  .let_ (.name i!"key_id") (.meth (.field (.path [i!"Self", i!"KEY"]) i!"0") i!"to_le_bytes" .nil)
    (.last (.array (exprs ((List.range 4).map (fun k => Expr.index (.path [i!"key_id"]) (.int k)) ++ l))))

/-- `self.0` -/
def this : Expr := .field (.path [i!"self"]) i!"0"

/-- `let bytes = self.0.to_le_bytes();`, then the first `n` bytes -/
def intoLe (n : Nat) : Stmts :=
  .let_ (.name i!"bytes") (.meth this i!"to_le_bytes" .nil)
    (.last (.block (inner ((List.range n).map fun k => Expr.index (.path [i!"bytes"]) (.int k)))))

/-- `match self.0 { A::X => 0, .. }` -/
def intoMatch (l : List (List Name × Nat)) : Expr :=
  .match_ this (armsOf (l.map fun p => (Pat.path p.1, .int p.2)))

/-- `cfg_val.rs:129-209`, `into_cfg_kv_bytes!(self, ty)` -/
def intoBytes : CfgTy → Stmts
  | .bool => inner [.cast this i!"u8"]
  | .u8 => .last (.block (inner [this]))
  | .u16 => intoLe 2
  | .i16 => intoLe 2
  | .u32 => intoLe 4
  | .u64 => intoLe 8
  | .cfgInfMask => inner [.meth this i!"bits" .nil]
  | .dataBits => inner [intoMatch [([i!"DataBits", i!"Eight"], 0), ([i!"DataBits", i!"Seven"], 1)]]
  | .parity =>
    inner [intoMatch [([i!"Parity", i!"None"], 0), ([i!"Parity", i!"Odd"], 1), ([i!"Parity", i!"Even"], 2)]]
  | .stopBits =>
    inner [intoMatch [([i!"StopBits", i!"Half"], 0), ([i!"StopBits", i!"One"], 1),
      ([i!"StopBits", i!"OneHalf"], 2), ([i!"StopBits", i!"Two"], 3)]]
  | .alignment => inner [.cast this i!"u8"]
  | .tpPulse => inner [.cast this i!"u8"]
  | .tpPulseLength => inner [.cast this i!"u8"]

namespace Row

/-- `cfg_val.rs:231-233`, the arm of `len` -/
def lenArm (r : Row) : Pat × Expr :=
  (.variant i!"Self" r.name i!"_", .block (.last (.path [r.name, i!"SIZE"])))

/-- `cfg_val.rs:247-249`, the arm of `parse` -/
def parseArm (r : Row) : Pat × Expr :=
  (.int r.key, .block (.last (.call [i!"Self", r.name] (exprs [fromBytes r.ty]))))

/-- `X(*value).into_cfg_kv_bytes()` -/
def kv (r : Row) : Expr :=
  .meth (.call [r.name] (exprs [.un .deref (.path [i!"value"])])) i!"into_cfg_kv_bytes" .nil

/-- `cfg_val.rs:261-269`, the arm of `extend_to` -/
def extendArm (r : Row) : Pat × Expr :=
  (.variant i!"Self" r.name i!"value",
    .block
      (.let_ (.name i!"bytes") r.kv
        (.let_ (.name i!"bytes_len") (.meth (.path [i!"bytes"]) i!"len" .nil)
          (.semi
            (.for_ i!"b" (.meth (.path [i!"bytes"]) i!"iter" .nil)
              (.semi
                (.meth (.path [i!"buf"]) i!"extend"
                  (exprs [.call [i!"core", i!"iter", i!"once"] (exprs [.un .deref (.path [i!"b"])])]))
                .nil))
            (.last (.path [i!"bytes_len"]))))))

/-- `cfg_val.rs:277-281`, the arm of `write_to` -/
def writeArm (r : Row) : Pat × Expr :=
  (.variant i!"Self" r.name i!"value",
    .block
      (.let_ (.name i!"kv") r.kv
        (.semi
          (.meth (.index (.path [i!"buf"]) (.rangeTo (.meth (.path [i!"kv"]) i!"len" .nil))) i!"copy_from_slice"
            (exprs [.un .ref (.index (.path [i!"kv"]) (.rangeFrom (.int 0)))]))
          (.last (.meth (.path [i!"kv"]) i!"len" .nil)))))

/-- `cfg_val.rs:291`, `KEY` -/
def keyFn (r : Row) : Fn := ⟨i!"KEY", [], i!"KeyId", .last (.call [i!"KeyId"] (exprs [.int r.key]))⟩

/-- `cfg_val.rs:292`, `SIZE` -/
def sizeFn : Fn :=
  ⟨i!"SIZE", [], i!"usize",
    .last (.bin .add (.path [i!"KeyId", i!"SIZE"])
      (.meth (.meth (.path [i!"Self", i!"KEY"]) i!"value_size" .nil) i!"to_usize" .nil))⟩

/-- `cfg_val.rs:294-296`, `into_cfg_kv_bytes` -/
def intoFn (r : Row) : Fn := ⟨i!"into_cfg_kv_bytes", [i!"self"], 0, .last (.block (intoBytes r.ty))⟩

/-- `cfg_val.rs:290-297`, the functions of an item -/
def impl (r : Row) : Impl := ⟨[], r.name, [r.keyFn, sizeFn, r.intoFn]⟩

/-- `cfg_val.rs:288`, the structure of an item -/
def decl (r : Row) : Decl := .struct r.name [(i!"0", Code.name (tyCodes r.ty))]

end Row

/-- `cfg_val.rs:228-236`, `len` -/
def lenFn (rows : List Row) : Fn :=
  ⟨i!"len", [i!"self"], i!"usize", .last (.match_ (.path [i!"self"]) (armsOf (rows.map Row.lenArm)))⟩

/-- `cfg_val.rs:238-240`, `is_empty` -/
def isEmptyFn : Fn :=
  ⟨i!"is_empty", [i!"self"], i!"bool", .last (.bin .eq (.meth (.path [i!"self"]) i!"len" .nil) (.int 0))⟩

/-- `cfg_val.rs:243-253`, `parse` -/
def parseFn (rows : List Row) : Fn :=
  ⟨i!"parse", [i!"buf"], i!"Self",
    .let_ (.name i!"key_id")
      (.call [i!"u32", i!"from_le_bytes"]
        (exprs [.array (exprs ((List.range 4).map fun k => Expr.index (.path [i!"buf"]) (.int k)))]))
      (.last (.match_ (.path [i!"key_id"]) (armsOf (rows.map Row.parseArm ++ [(.name i!"_", .panic)]))))⟩

/-- `cfg_val.rs:255-272`, `extend_to` -/
def extendFn (rows : List Row) : Fn :=
  ⟨i!"extend_to", [i!"self", i!"buf"], 0, .last (.match_ (.path [i!"self"]) (armsOf (rows.map Row.extendArm)))⟩

/-- `cfg_val.rs:274-284`, `write_to` -/
def writeFn (rows : List Row) : Fn :=
  ⟨i!"write_to", [i!"self", i!"buf"], i!"usize",
    .last (.match_ (.path [i!"self"]) (armsOf (rows.map Row.writeArm)))⟩

/-- `cfg_val.rs:227-285`, the functions of `CfgVal` -/
def cfgValImpl (rows : List Row) : Impl :=
  ⟨[], i!"CfgVal", [lenFn rows, isEmptyFn, parseFn rows, extendFn rows, writeFn rows]⟩

/-- `cfg_val.rs:218-225`, the enumeration `CfgVal` -/
def cfgValDecl (rows : List Row) : Decl := .enum i!"CfgVal" (rows.map fun r => (r.name, none))

/-- `cfg_val.rs:1115-1121`, the enumeration `TpPulse` -/
def tpPulseDecl : Decl := .enum i!"TpPulse" [(i!"Period", some 0), (i!"Freq", some 1)]

/-- `cfg_val.rs:1123-1129`, the enumeration `TpPulseLength` -/
def tpPulseLengthDecl : Decl := .enum i!"TpPulseLength" [(i!"Ratio", some 0), (i!"Length", some 1)]

end Ublox.Macro
