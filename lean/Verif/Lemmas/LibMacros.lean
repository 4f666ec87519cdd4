import Verif.Lemmas.GenMeth
import Verif.Model.LibMacros

/-!
# What the macros in the text of `lib.rs` do
-/

namespace Ublox.Lib

open Code (Tk Name)
open Quote (O Stop stuck)

set_option maxRecDepth 10000
set_option linter.unusedSimpArgs false

variable (x : Extras) (out : List Quote.Fn)

/-- The functions of `lib.rs` -/
abbrev fns : List Meth.Fn := Gen.Meth.libRs_fns

theorem f_recv : Meth.findFn 0 i!"generate_code_for_recv_packet" fns = some Gen.Meth.generate_code_for_recv_packet := rfl
theorem f_send : Meth.findFn 0 i!"generate_code_for_send_packet" fns = some Gen.Meth.generate_code_for_send_packet := rfl
theorem f_both : Meth.findFn 0 i!"generate_code_for_recv_send_packet" fns = some Gen.Meth.generate_code_for_recv_send_packet := rfl
theorem f_enum : Meth.findFn 0 i!"extend_enum" fns = some Gen.Meth.extend_enum := rfl
theorem f_flags : Meth.findFn 0 i!"extend_bitflags" fns = some Gen.Meth.extend_bitflags := rfl
theorem f_list : Meth.findFn 0 i!"do_define_recv_packets" fns = some Gen.Meth.do_define_recv_packets := rfl
theorem g_recv : Meth.findFn 0 i!"ubx_packet_recv" fns = some Gen.Meth.ubx_packet_recv := rfl
theorem g_send : Meth.findFn 0 i!"ubx_packet_send" fns = some Gen.Meth.ubx_packet_send := rfl
theorem g_both : Meth.findFn 0 i!"ubx_packet_recv_send" fns = some Gen.Meth.ubx_packet_recv_send := rfl
theorem g_enum : Meth.findFn 0 i!"ubx_extend" fns = some Gen.Meth.ubx_extend := rfl
theorem g_flags : Meth.findFn 0 i!"ubx_extend_bitflags" fns = some Gen.Meth.ubx_extend_bitflags := rfl
theorem g_list : Meth.findFn 0 i!"define_recv_packets" fns = some Gen.Meth.define_recv_packets := rfl

/-- What a macro returns for the result of its function -/
def outcome : O V → O (Option (List Tk))
  | .ok (.ok (.toks ts)) => .ok (some ts)
  | .ok (.err .error) => .ok none
  | .ok _ => stuck
  | .error e => .error e

/-- The results that the functions have -/
inductive Good : O V → Prop where
  | toks (ts : List Tk) : Good (.ok (.ok (.toks ts)))
  | err : Good (.ok (.err .error))
  | panic (e : Stop) : Good (.error e)

/-- What is around the functions -/
abbrev ctx (k : Nat) : Ctx := ⟨x, out, fun n => (Meth.findFn 0 n fns).map fun _ => run x out fns k n⟩

theorem run_fn (k : Nat) {n : Name} {f : Meth.Fn} (h : Meth.findFn 0 n fns = some f) (args : List V) :
    run x out fns (k + 1) n args = closed (evalS (ctx x out k) f.body (bindParams f.params args)) := by
  rw [run, h]

theorem expand_fn {n : Name} {f : Meth.Fn} (h : Meth.findFn 0 n fns = some f) (d : Decl) :
    expand x out fns n d =
      match closed (evalS (ctx x out 2) f.body (bindParams f.params (match f.params with
        | [_] => [.input d]
        | _ => [.unit, .input d]))) with
      | .ok (.toks ts) => .ok (some ts)
      | .ok .compileError => .ok none
      | .ok _ => stuck
      | .error e => .error e := by
  rw [expand, h, ← run_fn x out 2 h]
  rfl

theorem expand_recv (s : Syn.StructDecl) {r : O V}
    (hr : run x out fns 2 i!"generate_code_for_recv_packet" [.ident s.name, .attrs s.attrs, .fields s.fields] = r) (h : Good r) :
    expand x out fns i!"ubx_packet_recv" (.struct s) = outcome r := by
  rw [expand_fn x out g_recv]
  simp only [Gen.Meth.ubx_packet_recv, Gen.Meth.ubx_packet_recv_body]
  cases h <;>
  simp [evalS, eval, evals, bindV, andThen, lookup, callPath, parseMacroInput, bindParams, scope, fieldOf, bindPat, f_recv, hr,
    closureOf, closed, methodOf, outcome, Except.map]

theorem expand_send (s : Syn.StructDecl) {r : O V}
    (hr : run x out fns 2 i!"generate_code_for_send_packet" [.ident s.name, .attrs s.attrs, .fields s.fields] = r) (h : Good r) :
    expand x out fns i!"ubx_packet_send" (.struct s) = outcome r := by
  rw [expand_fn x out g_send]
  simp only [Gen.Meth.ubx_packet_send, Gen.Meth.ubx_packet_send_body]
  cases h <;>
  simp [evalS, eval, evals, bindV, andThen, lookup, callPath, parseMacroInput, bindParams, scope, fieldOf, bindPat, f_send, hr,
    closureOf, closed, methodOf, outcome, Except.map]

theorem expand_both (s : Syn.StructDecl) {r : O V}
    (hr : run x out fns 2 i!"generate_code_for_recv_send_packet" [.ident s.name, .attrs s.attrs, .fields s.fields] = r) (h : Good r) :
    expand x out fns i!"ubx_packet_recv_send" (.struct s) = outcome r := by
  rw [expand_fn x out g_both]
  simp only [Gen.Meth.ubx_packet_recv_send, Gen.Meth.ubx_packet_recv_send_body]
  cases h <;>
  simp [evalS, eval, evals, bindV, andThen, lookup, callPath, parseMacroInput, bindParams, scope, fieldOf, bindPat, f_both, hr,
    closureOf, closed, methodOf, outcome, Except.map]

theorem expand_enum (s : Syn.EnumDecl) {r : O V}
    (hr : run x out fns 2 i!"extend_enum" [.ident s.name, .attrs s.attrs, .variants s.variants] = r) (h : Good r) :
    expand x out fns i!"ubx_extend" (.enum s) = outcome r := by
  rw [expand_fn x out g_enum]
  simp only [Gen.Meth.ubx_extend, Gen.Meth.ubx_extend_body]
  cases h <;>
  simp [evalS, eval, evals, bindV, andThen, lookup, callPath, parseMacroInput, bindParams, scope, fieldOf, bindPat, f_enum, hr,
    closureOf, closed, methodOf, outcome, Except.map]

theorem expand_flags (b : Bool) (s : Syn.FlagsDecl) {r : O V}
    (hr : run x out fns 2 i!"extend_bitflags" [.parsed (.macro b s)] = r) (h : Good r) :
    expand x out fns i!"ubx_extend_bitflags" (.macro b s) = outcome r := by
  rw [expand_fn x out g_flags]
  simp only [Gen.Meth.ubx_extend_bitflags, Gen.Meth.ubx_extend_bitflags_body]
  cases h <;>
  simp [evalS, eval, evals, bindV, andThen, lookup, callPath, parseMacroInput, bindParams, scope, fieldOf, bindPat, f_flags, hr,
    closureOf, closed, methodOf, outcome, Except.map]

theorem expand_list (ts : List Syn.Tok) {r : O V}
    (hr : run x out fns 2 i!"do_define_recv_packets" [.input (.list ts)] = r) (h : Good r) :
    expand x out fns i!"define_recv_packets" (.list ts) = outcome r := by
  rw [expand_fn x out g_list]
  simp only [Gen.Meth.define_recv_packets, Gen.Meth.define_recv_packets_body]
  cases h <;>
  simp [evalS, eval, evals, bindV, andThen, lookup, callPath, parseMacroInput, bindParams, scope, fieldOf, bindPat, f_list, hr,
    closureOf, closed, methodOf, outcome, Except.map]

theorem run_recv_err {s : Syn.StructDecl} {e : String} (hp : Syn.parsePacketDescription ⟨.recv, s.name, s.attrs, s.fields⟩ = .error e) :
    run x out fns 2 i!"generate_code_for_recv_packet" [.ident s.name, .attrs s.attrs, .fields s.fields] = .ok (.err .error) := by
  rw [run_fn x out 1 f_recv]
  simp only [Gen.Meth.generate_code_for_recv_packet, Gen.Meth.generate_code_for_recv_packet_body]
  simp [evalS, eval, evals, bindV, andThen, lookup, callPath, bindParams, closed, Except.map, parser, hp, parserResult]

theorem run_recv_ok {s : Syn.StructDecl} {d : Syn.PackDesc} {ts trecv : List Tk}
    (hp : Syn.parsePacketDescription ⟨.recv, s.name, s.attrs, s.fields⟩ = .ok d)
    (ht : generator out i!"generate_types_for_packet" [.desc (.pack (Quote.packV x.doc x.docs d))] = .ok (.toks ts))
    (hrecv : generator out i!"generate_recv_code_for_packet" [.desc (.pack (Quote.packV x.doc x.docs d))] = .ok (.toks trecv)) :
    run x out fns 2 i!"generate_code_for_recv_packet" [.ident s.name, .attrs s.attrs, .fields s.fields] = .ok (.ok (.toks (ts ++ trecv))) := by
  rw [run_fn x out 1 f_recv]
  simp only [Gen.Meth.generate_code_for_recv_packet, Gen.Meth.generate_code_for_recv_packet_body]
  simp [evalS, eval, evals, bindV, andThen, lookup, callPath, bindParams, closed, Except.map, parser, hp, parserResult, ht, assign, hrecv]

theorem run_recv_panic_recv {s : Syn.StructDecl} {d : Syn.PackDesc} {ts : List Tk}
    (hp : Syn.parsePacketDescription ⟨.recv, s.name, s.attrs, s.fields⟩ = .ok d)
    (ht : generator out i!"generate_types_for_packet" [.desc (.pack (Quote.packV x.doc x.docs d))] = .ok (.toks ts))
    (hrecv : generator out i!"generate_recv_code_for_packet" [.desc (.pack (Quote.packV x.doc x.docs d))] = .error .panic) :
    run x out fns 2 i!"generate_code_for_recv_packet" [.ident s.name, .attrs s.attrs, .fields s.fields] = .error .panic := by
  rw [run_fn x out 1 f_recv]
  simp only [Gen.Meth.generate_code_for_recv_packet, Gen.Meth.generate_code_for_recv_packet_body]
  simp [evalS, eval, evals, bindV, andThen, lookup, callPath, bindParams, closed, Except.map, parser, hp, parserResult, ht, assign, hrecv]

theorem run_send_err {s : Syn.StructDecl} {e : String} (hp : Syn.parsePacketDescription ⟨.recv, s.name, s.attrs, s.fields⟩ = .error e) :
    run x out fns 2 i!"generate_code_for_send_packet" [.ident s.name, .attrs s.attrs, .fields s.fields] = .ok (.err .error) := by
  rw [run_fn x out 1 f_send]
  simp only [Gen.Meth.generate_code_for_send_packet, Gen.Meth.generate_code_for_send_packet_body]
  simp [evalS, eval, evals, bindV, andThen, lookup, callPath, bindParams, closed, Except.map, parser, hp, parserResult]

theorem run_send_ok {s : Syn.StructDecl} {d : Syn.PackDesc} {ts tsend : List Tk}
    (hp : Syn.parsePacketDescription ⟨.recv, s.name, s.attrs, s.fields⟩ = .ok d)
    (ht : generator out i!"generate_types_for_packet" [.desc (.pack (Quote.packV x.doc x.docs d))] = .ok (.toks ts))
    (hsend : generator out i!"generate_send_code_for_packet" [.desc (.pack (Quote.packV x.doc x.docs d))] = .ok (.toks tsend)) :
    run x out fns 2 i!"generate_code_for_send_packet" [.ident s.name, .attrs s.attrs, .fields s.fields] = .ok (.ok (.toks (ts ++ tsend))) := by
  rw [run_fn x out 1 f_send]
  simp only [Gen.Meth.generate_code_for_send_packet, Gen.Meth.generate_code_for_send_packet_body]
  simp [evalS, eval, evals, bindV, andThen, lookup, callPath, bindParams, closed, Except.map, parser, hp, parserResult, ht, assign, hsend]

theorem run_send_panic_send {s : Syn.StructDecl} {d : Syn.PackDesc} {ts : List Tk}
    (hp : Syn.parsePacketDescription ⟨.recv, s.name, s.attrs, s.fields⟩ = .ok d)
    (ht : generator out i!"generate_types_for_packet" [.desc (.pack (Quote.packV x.doc x.docs d))] = .ok (.toks ts))
    (hsend : generator out i!"generate_send_code_for_packet" [.desc (.pack (Quote.packV x.doc x.docs d))] = .error .panic) :
    run x out fns 2 i!"generate_code_for_send_packet" [.ident s.name, .attrs s.attrs, .fields s.fields] = .error .panic := by
  rw [run_fn x out 1 f_send]
  simp only [Gen.Meth.generate_code_for_send_packet, Gen.Meth.generate_code_for_send_packet_body]
  simp [evalS, eval, evals, bindV, andThen, lookup, callPath, bindParams, closed, Except.map, parser, hp, parserResult, ht, assign, hsend]

theorem run_both_err {s : Syn.StructDecl} {e : String} (hp : Syn.parsePacketDescription ⟨.recv, s.name, s.attrs, s.fields⟩ = .error e) :
    run x out fns 2 i!"generate_code_for_recv_send_packet" [.ident s.name, .attrs s.attrs, .fields s.fields] = .ok (.err .error) := by
  rw [run_fn x out 1 f_both]
  simp only [Gen.Meth.generate_code_for_recv_send_packet, Gen.Meth.generate_code_for_recv_send_packet_body]
  simp [evalS, eval, evals, bindV, andThen, lookup, callPath, bindParams, closed, Except.map, parser, hp, parserResult]

theorem run_both_ok {s : Syn.StructDecl} {d : Syn.PackDesc} {ts tsend trecv : List Tk}
    (hp : Syn.parsePacketDescription ⟨.recv, s.name, s.attrs, s.fields⟩ = .ok d)
    (ht : generator out i!"generate_types_for_packet" [.desc (.pack (Quote.packV x.doc x.docs d))] = .ok (.toks ts))
    (hsend : generator out i!"generate_send_code_for_packet" [.desc (.pack (Quote.packV x.doc x.docs d))] = .ok (.toks tsend))
    (hrecv : generator out i!"generate_recv_code_for_packet" [.desc (.pack (Quote.packV x.doc x.docs d))] = .ok (.toks trecv)) :
    run x out fns 2 i!"generate_code_for_recv_send_packet" [.ident s.name, .attrs s.attrs, .fields s.fields] = .ok (.ok (.toks (ts ++ tsend ++ trecv))) := by
  rw [run_fn x out 1 f_both]
  simp only [Gen.Meth.generate_code_for_recv_send_packet, Gen.Meth.generate_code_for_recv_send_packet_body]
  simp [evalS, eval, evals, bindV, andThen, lookup, callPath, bindParams, closed, Except.map, parser, hp, parserResult, ht, assign, hsend, hrecv]

theorem run_both_panic_send {s : Syn.StructDecl} {d : Syn.PackDesc} {ts : List Tk}
    (hp : Syn.parsePacketDescription ⟨.recv, s.name, s.attrs, s.fields⟩ = .ok d)
    (ht : generator out i!"generate_types_for_packet" [.desc (.pack (Quote.packV x.doc x.docs d))] = .ok (.toks ts))
    (hsend : generator out i!"generate_send_code_for_packet" [.desc (.pack (Quote.packV x.doc x.docs d))] = .error .panic) :
    run x out fns 2 i!"generate_code_for_recv_send_packet" [.ident s.name, .attrs s.attrs, .fields s.fields] = .error .panic := by
  rw [run_fn x out 1 f_both]
  simp only [Gen.Meth.generate_code_for_recv_send_packet, Gen.Meth.generate_code_for_recv_send_packet_body]
  simp [evalS, eval, evals, bindV, andThen, lookup, callPath, bindParams, closed, Except.map, parser, hp, parserResult, ht, assign, hsend]

theorem run_both_panic_recv {s : Syn.StructDecl} {d : Syn.PackDesc} {ts tsend : List Tk}
    (hp : Syn.parsePacketDescription ⟨.recv, s.name, s.attrs, s.fields⟩ = .ok d)
    (ht : generator out i!"generate_types_for_packet" [.desc (.pack (Quote.packV x.doc x.docs d))] = .ok (.toks ts))
    (hsend : generator out i!"generate_send_code_for_packet" [.desc (.pack (Quote.packV x.doc x.docs d))] = .ok (.toks tsend))
    (hrecv : generator out i!"generate_recv_code_for_packet" [.desc (.pack (Quote.packV x.doc x.docs d))] = .error .panic) :
    run x out fns 2 i!"generate_code_for_recv_send_packet" [.ident s.name, .attrs s.attrs, .fields s.fields] = .error .panic := by
  rw [run_fn x out 1 f_both]
  simp only [Gen.Meth.generate_code_for_recv_send_packet, Gen.Meth.generate_code_for_recv_send_packet_body]
  simp [evalS, eval, evals, bindV, andThen, lookup, callPath, bindParams, closed, Except.map, parser, hp, parserResult, ht, assign, hsend, hrecv]

theorem run_enum (s : Syn.EnumDecl) {r : Except String EnumDesc} (hp : Syn.parseUbxEnumType ⟨s.name, s.attrs, s.variants⟩ = r) :
    run x out fns 2 i!"extend_enum" [.ident s.name, .attrs s.attrs, .variants s.variants] =
      match r with
      | .error e => if e = "not implemented" then .error .panic else .ok (.err .error)
      | .ok d => (generator out i!"generate_code_to_extend_enum" [.desc (.enum (Quote.enumV x.attrs d))]).map .ok := by
  rw [run_fn x out 1 f_enum]
  simp only [Gen.Meth.extend_enum, Gen.Meth.extend_enum_body]
  cases r with
  | error e =>
    by_cases he : e = "not implemented" <;>
    simp [evalS, eval, evals, bindV, andThen, lookup, callPath, bindParams, closed, Except.map, parser, hp, enumResult, parserResult, he]
  | ok d =>
    cases hg : generator out i!"generate_code_to_extend_enum" [.desc (.enum (Quote.enumV x.attrs d))] <;>
    simp [evalS, eval, evals, bindV, andThen, lookup, callPath, bindParams, closed, Except.map, parser, hp, enumResult, parserResult, hg]

theorem run_flags (s : Syn.FlagsDecl) {r : Except String (FlagsDesc × Option FromFn × Option Rest)} (hp : Syn.parseBitflags s = r) :
    run x out fns 2 i!"extend_bitflags" [.parsed (.macro true s)] =
      match r with
      | .error _ => .ok (.err .error)
      | .ok d => generator out i!"generate_code_to_extend_bitflags"
          [.desc (.flags (Quote.flagsV x.attrs x.vis x.constAttrs d.1 d.2.1 d.2.2))] := by
  rw [run_fn x out 1 f_flags]
  simp only [Gen.Meth.extend_bitflags, Gen.Meth.extend_bitflags_body]
  have hc : Macro.sameCodes c!"bitflags" c!"bitflags" = true := rfl
  cases r with
  | error e =>
    simp [evalS, eval, evals, bindV, andThen, lookup, callPath, bindParams, closed, Except.map, parser, hp, parserResult, fieldOf, methodOf, hc, scope]
  | ok d =>
    cases hg : generator out i!"generate_code_to_extend_bitflags"
      [.desc (.flags (Quote.flagsV x.attrs x.vis x.constAttrs d.1 d.2.1 d.2.2))] <;>
    simp [evalS, eval, evals, bindV, andThen, lookup, callPath, bindParams, closed, Except.map, parser, hp, parserResult, fieldOf, methodOf, hc, scope, hg]

theorem run_flags_other (s : Syn.FlagsDecl) :
    run x out fns 2 i!"extend_bitflags" [.parsed (.macro false s)] = .ok (.err .error) := by
  rw [run_fn x out 1 f_flags]
  simp only [Gen.Meth.extend_bitflags, Gen.Meth.extend_bitflags_body]
  have hc : Macro.sameCodes c!"bitflags" c!"bitflags" = true := rfl
  simp [evalS, eval, evals, bindV, andThen, lookup, callPath, bindParams, closed, fieldOf, methodOf, hc, scope, closureOf]

theorem run_list (ts : List Syn.Tok) {r : Except String Syn.RecvPackets} (hp : Syn.parseIdentsList ts = r) :
    run x out fns 2 i!"do_define_recv_packets" [.input (.list ts)] =
      match r with
      | .error _ => .ok (.err .error)
      | .ok d => (generator out i!"generate_code_for_parse" [.desc (.recv (Quote.recvV d))]).map .ok := by
  rw [run_fn x out 1 f_list]
  simp only [Gen.Meth.do_define_recv_packets, Gen.Meth.do_define_recv_packets_body]
  cases r with
  | error e =>
    simp [evalS, eval, evals, bindV, andThen, lookup, callPath, bindParams, closed, Except.map, parser, hp, enumResult, parserResult]
  | ok d =>
    cases hg : generator out i!"generate_code_for_parse" [.desc (.recv (Quote.recvV d))] <;>
    simp [evalS, eval, evals, bindV, andThen, lookup, callPath, bindParams, closed, Except.map, parser, hp, enumResult, parserResult, hg]

end Ublox.Lib
