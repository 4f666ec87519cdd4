import Verif.Lemmas.EmitStep

/-!
# `generate_types_for_packet`, `generate_debug_impl`, `generate_serialize_impl`, `get_raw_field_code`
-/

namespace Ublox.Quote

open Code (Tk Name)
open Emit

set_option maxRecDepth 10000

theorem path_lits : path "crate::ubx_packets::FieldIter" = t!"crate::ubx_packets::FieldIter" ∧
    path "ParserError::InvalidField" = t!"ParserError::InvalidField" ∧
    path "ParserError::InvalidPacketLen" = t!"ParserError::InvalidPacketLen" ∧
    path "Self::PACKET_LEN" = t!"Self::PACKET_LEN" ∧
    path "SYNC_CHAR_1" = t!"SYNC_CHAR_1" ∧
    path "SYNC_CHAR_2" = t!"SYNC_CHAR_2" ∧
    path "into_packet_bytes" = t!"into_packet_bytes" ∧
    path "true" = t!"true" ∧
    path "false" = t!"false" ∧
    path "Self::from_bits_truncate" = t!"Self::from_bits_truncate" ∧
    path "bits" = t!"bits" ∧
    path "max_u16" = t!"max_u16" ∧
    path "crate::ubx_packets::PacketSerializer" = t!"crate::ubx_packets::PacketSerializer" ∧
    path "CLASS" = t!"CLASS" ∧
    path "ID" = t!"ID" ∧
    path "Unknown" = t!"Unknown" ∧
    path "MAX_PAYLOAD_LEN" = t!"MAX_PAYLOAD_LEN" ∧
    path "serialize" = t!"serialize" ∧
    path "extend_to" = t!"extend_to" := by
  simp [path, codesLit, splitPath, sign, flush]

theorem emits_types (k : Nat) (doc : List Nat) (docs : Syn.PackField → List Nat) (d : Syn.PackDesc) :
    Emits Gen.outputRs_fns (k + 1) i!"generate_types_for_packet" [.pack (packV doc docs d)] (typesToks doc d) := by
  obtain ⟨nm, ⟨cl, id, pl, fl⟩, fs⟩ := d
  cases pl
  all_goals
    refine Gives.emits (f := Gen.generate_types_for_packet) ?_ rfl
    apply gives
    · knf
    · simp [typesToks, flatAll, Node.flat, Rust.generateTypes, exprToks, docToks, ident, intTyName, packV,
        Syn.payloadFixed]

theorem stmtsToks_append (a b : List Rust.Stmt) : stmtsToks (a ++ b) = stmtsToks a ++ stmtsToks b := by
  induction a with
  | nil => simp [stmtsToks]
  | cons s a ih => rw [List.cons_append, stmtsToks, stmtsToks, ih]; simp

theorem stmtsToks_map {α : Type} (f : α → Rust.Stmt) (l : List α) :
    stmtsToks (l.map f) = (l.map fun a => stmtsToks [f a]).flatten := by
  induction l with
  | nil => simp [stmtsToks]
  | cons a l ih => rw [List.map_cons, stmtsToks, ih]; simp [stmtsToks]

theorem debug_chain (fs : List Syn.PackField) (e : Rust.Expr) :
    exprToks (fs.foldl (fun acc f => .meth acc .field
      [.stringify f.name, .ref (Rust.selfCall f.intermediateFieldName)]) e) =
    exprToks e ++ (fs.map fun f => t!".field(stringify!(" ++ ident f.name ++ t!"), &self." ++
      path f.intermediateFieldName ++ t!"())").flatten := by
  induction fs generalizing e with
  | nil => simp
  | cons f fs ih =>
    rw [List.foldl_cons, ih]
    simp [exprToks, exprsToks, methToks, Rust.selfCall, varToks, ident]

theorem emits_debug (k : Nat) (doc : List Nat) (docs : Syn.PackField → List Nat) (d : Syn.PackDesc)
    (hd : ∀ f ∈ d.fields, IsName f.intermediateFieldName) :
    Emits Gen.outputRs_fns (k + 1) i!"generate_debug_impl" [.str (Src.codes d.name), .ident (Src.codes (d.name ++ "Ref")),
      .pack (packV doc docs d)] (debugToks d) := by
  refine Gives.emits (f := Gen.generate_debug_impl) ?_ rfl
  apply gives_map (fs := d.fields) (docs := docs) (ts := fun f => t!".field(stringify!(" ++ ident f.name ++
      t!"), &self." ++ path f.intermediateFieldName ++ t!"())")
  · kernel_rfl
  · intro f hf
    apply gives
    · knf
    · simp [flatAll, Node.flat, fieldV, path_name (hd f hf), ident]
  · intro rounds hr
    apply gives
    · knf
    · simp only [debugToks, flatAll, Node.flat, flatRounds_toks, hr]
      simp [debug_chain, joinToks_nil, ident, Rust.debugCode, bodyToks, stmtsToks, stmtToks, stmtEnd, exprToks, methToks, exprsToks, varToks]

theorem emits_serialize (k : Nat) (doc : List Nat) (docs : Syn.PackField → List Nat) (d : Syn.PackDesc)
    (hd : ∀ f ∈ d.fields, IsName f.intermediateFieldName) :
    Emits Gen.outputRs_fns (k + 1) i!"generate_serialize_impl" [.str (Src.codes d.name),
      .ident (Src.codes (d.name ++ "Ref")), .pack (packV doc docs d)] (serializeToks d) := by
  refine Gives.emits (f := Gen.generate_serialize_impl) ?_ rfl
  apply gives_map (fs := d.fields) (docs := docs) (ts := fun f => stmtsToks [Rust.serializeEntryCode f])
  · kernel_rfl
  · intro f hf
    have hb : (f.sizeBytes.isSome || f.isOptional) = true ∨ (f.sizeBytes.isSome || f.isOptional) = false := by
      cases f.sizeBytes.isSome || f.isOptional <;> simp
    generalize hv : fieldV docs f = v
    obtain ⟨nm, ty, mp, cm, sb, it, ifn, ba, sf, op⟩ := v
    simp only [fieldV, FieldV.mk.injEq] at hv
    obtain ⟨rfl, -, -, -, hsb, -, rfl, -, -, hop⟩ := hv
    rw [hsb, hop] at hb
    cases sb <;> cases op
    all_goals
      apply gives
      · knf
      · simp [flatAll, Node.flat, stmtsToks, stmtToks, stmtEnd, Rust.serializeEntryCode, Rust.selfCall, exprToks, exprsToks,
          methToks, varToks, hsb, hop, funcToks, path_name (hd f hf), path_lits, ident]
  · intro rounds hr
    apply gives
    · knf
    · simp only [serializeToks, flatAll, Node.flat, flatRounds_toks, hr, joinToks_nil, bodyToks,
        Rust.serializeFieldsCode, stmtsToks_append, stmtsToks_map]
      generalize (d.fields.map fun f => stmtsToks [Rust.serializeEntryCode f]).flatten = l
      simp [ident, stmtsToks, stmtToks, stmtEnd, exprToks, methToks, exprsToks, varToks,
        serializeHead, Rust.serializeCode, Rust.newMap, codesLit, minEnd]

/-! ## `get_raw_field_code` -/

/-- One byte of a field -/
def byteNodes (off : Nat) (data : List Node) (i : Nat) : List Node :=
  [.sub data, .tks t!"[", .tks [.tnum (off + i) i!"usize"], .tks t!"]"]

/-- The bytes of a field -/
def bytesNode (n off : Nat) (data : List Node) : Node :=
  .rep t!"," ((((List.range n).map (byteNodes off data)).map V.toks).map fun v => [V.node v])

/-- What `get_raw_field_code` returns for a field of `n` bytes -/
def rawNodes (f : FieldV) (n off : Nat) (data : List Node) : List Node :=
  if f.map.getAsRef then
    [.tks t!"&", .sub data, .tks t!"[", .tks [.tnum off i!"usize"], .tks t!".. (", .tks [.tnum off i!"usize"],
     .tks t!"+", .tks [.tnum n i!"usize"], .tks t!")]"]
  else if f.byteArray then [.tks t!"[", bytesNode n off data, .tks t!"]"]
  else if !(n == 1) || f.ty == .path [.i8] then
    [.tks t!"<", .ty f.ty, .tks t!"> :: from_le_bytes([", bytesNode n off data, .tks t!"])"]
  else [.sub data, .tks t!"[", .tks [.tnum off i!"usize"], .tks t!"]"]

theorem run_raw (k n off : Nat) (f : FieldV) (data : List Node) (hn : f.sizeBytes = some n) :
    run Gen.outputRs_fns (k + 1) i!"get_raw_field_code" [.packField f, usizeV off, .toks data] =
      .ok (.toks (rawNodes f n off data)) := by
  obtain ⟨nm, ty, ⟨mt, sc, cf, gr⟩, cm, sb, it, ifn, ba, sf, op⟩ := f
  cases hn
  have hb : (!(n == 1) || ty == .path [.i8]) = false ∨ (!(n == 1) || ty == .path [.i8]) = true := by
    cases !(n == 1) || ty == .path [.i8] <;> simp
  rcases gr with _ | _ <;> rcases ba with _ | _ <;> rcases hb with hb | hb
  all_goals
    simp only [rawNodes, hb, if_true, Bool.false_eq_true, if_false]
    apply run_val (f := Gen.get_raw_field_code) rfl
    show evalS _ Gen.get_raw_field_code_body _ = _
    unfold Gen.get_raw_field_code_body
    apply step_name
    · knf
    apply step_name
    · knf
    apply step_for
    · knf
    · refine Eq.trans (loop_fold (β := List (List Node)) (l := List.range n)
        (g := fun i => .num (0 + i) (numTy 0 i!"usize"))
        (st := fun bs => (i!"bytes", .list (bs.map .toks)) :: _) (step := fun bs i => bs ++ [byteNodes off data i])
        ?_ []) ?_
      · intro i _ bs
        refine ⟨.unit, ?_⟩
        rw [List.map_append]
        simp only [Nat.zero_add]
        kernel_rfl
      · rw [foldl_snoc, List.nil_append]
  · apply step_name
    · knf
    apply step_name
    · knf
    rw [evalS]
    apply eval_ite_false
    · knf
    · rfl
    · rw [evalS]
      apply eval_ite_false
      · knf
      · rfl
      · rw [evalS]
        apply eval_ite_false
        · apply eval_or
          · knf
          · knf
        · exact hb
        · knf
        · rfl
      · rfl
    · rfl
  · apply step_name
    · knf
    apply step_name
    · knf
    rw [evalS]
    apply eval_ite_false
    · knf
    · rfl
    · rw [evalS]
      apply eval_ite_false
      · knf
      · rfl
      · rw [evalS]
        apply eval_ite_true
        · apply eval_or
          · knf
          · knf
        · exact hb
        · knf
        · rfl
      · rfl
    · rfl
  all_goals
    knf_lhs
    rfl

end Ublox.Quote
