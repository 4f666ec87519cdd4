import Verif.Lemmas.EmitSend3

/-!
# `generate_code_for_parse`
-/

namespace Ublox.Quote

open Code (Tk Name)
open Emit

set_option maxRecDepth 10000

theorem flush_append {w : List Nat} (h : w ≠ []) (u : List Nat) : flush (u ++ w.reverse) = [.id (w ++ u.reverse)] := by
  have h' := flush_name (w := w ++ u.reverse) (by simp [h])
  simpa using h'

/-- `nameRef` -/
theorem path_ref {s : String} (h : IsName s) : path (s ++ "Ref") = [.id (Src.codes s ++ c!"Ref")] := by
  rw [path_name_append h]
  simp only [codesLit]
  simp [splitPath, sign]
  exact flush_append h.1 [102, 101, 82]

/-- `<nameRef>::validate` -/
theorem path_validate {s : String} (h : IsName s) :
    path ("<" ++ s ++ "Ref>::validate") = .p 60 :: .id (Src.codes s ++ c!"Ref") :: t!">::validate" := by
  rw [path, codes_append, codes_append]
  simp only [codesLit, List.cons_append, List.nil_append]
  rw [splitPath, if_pos (by decide), splitPath_name h.2.1, List.append_nil]
  simp [splitPath, sign]
  have h₁ := flush_append h.1 [102, 101, 82]
  simp only [List.cons_append, List.nil_append] at h₁
  rw [h₁]
  simp [flush]

/-- `a::b` -/
theorem path_pair {s t : String} (h : IsName s) (h' : IsName t) :
    path (s ++ "::" ++ t) = [.id (Src.codes s), .p 58, .p 58, .id (Src.codes t)] := by
  rw [path_qualified h, path_name h']

theorem path_unknown {s : String} (h : IsName s) : path (s ++ "::Unknown") = .id (Src.codes s) :: t!"::Unknown" := by
  rw [path_name_append h]
  simp only [codesLit]
  rw [splitPath_sign h.1 rfl]
  rfl

/-- The variables of the loop -/
def parseSt (r : RecvV) (vs ms cs ss : List V) : Env :=
  [(i!"serializers", .list ss), (i!"class_id_matches", .list cs), (i!"matches", .list ms), (i!"pack_enum_variants", .list vs),
   (i!"union_enum_name", .ident r.unionName), (i!"recv_packs", .recv r)]

/-- One round -/
def parseRound (c : Ctx) : V → Env → Res :=
  forBody (.name i!"name") fun env => evalS c Gen.generate_code_for_parse_loop0 env

/-- An arm of `match_packet` -/
def matchArm (u n : String) : Rust.Arm :=
  .guarded (.consts (n ++ "::CLASS") (n ++ "::ID"))
    (.meth (.call (.user ("<" ++ n ++ "Ref>::validate")) [.var .payload]) .isOk [])
    (.block [.tail (.ok (.ctor (u ++ "::" ++ n) (.ctor (n ++ "Ref") (.var .payload))))])

/-- An arm of `class_and_msg_id` -/
def classArm (u n : String) : Rust.Arm :=
  .plain (.ctor (u ++ "::" ++ n) none) (.pair (.const (n ++ "::CLASS")) (.const (n ++ "::ID")))

/-- An arm of `serialize` -/
def serializeArm (u n : String) : Rust.Arm :=
  .plain (.ctor (u ++ "::" ++ n) (some .msg))
    (.callMut (.struct "crate::ubx_packets::PacketSerializer"
      [("class", .const (n ++ "::CLASS")), ("msg_id", .const (n ++ "::ID")), ("msg", .var .msg)]) "serialize" false .serializer)

theorem exists_parse {r : RecvV} {res : Res} {v : V} {vs ms cs ss : List V} {tv tm tc ts : List (List Tk)}
    (h : res = .ok (.val v, parseSt r vs ms cs ss)) (h₁ : Rounds vs tv) (h₂ : Rounds ms tm) (h₃ : Rounds cs tc)
    (h₄ : Rounds ss ts) : ∃ vs ms cs ss v, res = .ok (.val v, parseSt r vs ms cs ss) ∧ Rounds vs tv ∧ Rounds ms tm ∧
      Rounds cs tc ∧ Rounds ss ts := ⟨vs, ms, cs, ss, v, h, h₁, h₂, h₃, h₄⟩

theorem parse_round {c : Ctx} {r : Syn.RecvPackets} {n : String} {vs ms cs ss : List V} {tv tm tc ts : List (List Tk)}
    (hu : IsName r.unionEnumName) (hn : IsName n) (h₁ : Rounds vs tv) (h₂ : Rounds ms tm) (h₃ : Rounds cs tc) (h₄ : Rounds ss ts) :
    ∃ vs' ms' cs' ss' v, parseRound c (.ident (Src.codes n)) (parseSt (recvV r) vs ms cs ss) =
        .ok (.val v, parseSt (recvV r) vs' ms' cs' ss') ∧
      Rounds vs' (tv ++ [variantToks n]) ∧ Rounds ms' (tm ++ [armToks (matchArm r.unionEnumName n)]) ∧
      Rounds cs' (tc ++ [armToks (classArm r.unionEnumName n)]) ∧ Rounds ss' (ts ++ [armToks (serializeArm r.unionEnumName n)]) := by
  refine exists_parse (by unfold parseRound parseSt; knf) (h₁.snoc ?_) (h₂.snoc ?_) (h₃.snoc ?_) (h₄.snoc ?_)
  · simp [flatAll, Node.flat, variantToks, ident, codes_append, codesLit]
  · simp [flatAll, Node.flat, armToks, matchArm, patToks, exprToks, path_const hn, exprsToks, funcToks, methToks, varToks,
      path_validate hn, path_ref hn, path_pair hu hn, stmtsToks, stmtToks, stmtEnd, recvV]
  · simp [flatAll, Node.flat, armToks, classArm, patToks, exprToks, path_const hn, path_pair hu hn, recvV]
  · simp [flatAll, Node.flat, armToks, serializeArm, patToks, exprToks, path_const hn, path_pair hu hn, recvV, varToks, path_lits,
      fieldsToks, fieldToks, ident, codesLit, trailing, Rust.Var.text]

theorem parse_loop {c : Ctx} {r : Syn.RecvPackets} (hu : IsName r.unionEnumName) {ns : List String} (hn : ∀ n ∈ ns, IsName n) :
    ∀ {vs ms cs ss : List V} {tv tm tc ts : List (List Tk)}, Rounds vs tv → Rounds ms tm → Rounds cs tc → Rounds ss ts →
    ∃ vs' ms' cs' ss', loop (parseRound c) ((ns.map Src.codes).map .ident) (parseSt (recvV r) vs ms cs ss) =
        .ok (.val .unit, parseSt (recvV r) vs' ms' cs' ss') ∧
      Rounds vs' (tv ++ ns.map variantToks) ∧ Rounds ms' (tm ++ ns.map fun n => armToks (matchArm r.unionEnumName n)) ∧
      Rounds cs' (tc ++ ns.map fun n => armToks (classArm r.unionEnumName n)) ∧
      Rounds ss' (ts ++ ns.map fun n => armToks (serializeArm r.unionEnumName n)) := by
  induction ns with
  | nil =>
    intro vs ms cs ss tv tm tc ts h₁ h₂ h₃ h₄
    exact ⟨vs, ms, cs, ss, rfl, by simpa using h₁, by simpa using h₂, by simpa using h₃, by simpa using h₄⟩
  | cons n ns ih =>
    intro vs ms cs ss tv tm tc ts h₁ h₂ h₃ h₄
    obtain ⟨vs', ms', cs', ss', v, h, h₁, h₂, h₃, h₄⟩ := parse_round (c := c) hu (hn n (by simp)) h₁ h₂ h₃ h₄
    obtain ⟨vs', ms', cs', ss', h', h₁, h₂, h₃, h₄⟩ := ih (fun m hm => hn m (List.mem_cons_of_mem _ hm)) h₁ h₂ h₃ h₄
    refine ⟨vs', ms', cs', ss', ?_, by simpa using h₁, by simpa using h₂, by simpa using h₃, by simpa using h₄⟩
    rw [List.map_cons, List.map_cons, loop, h]
    exact h'

theorem armsToks_plain {as : List Rust.Arm} (h : ∀ a ∈ as, ∃ p e, a = .plain p e) (bs : List Rust.Arm) :
    armsToks (as ++ bs) = (as.map fun a => armToks a ++ t!",").flatten ++ armsToks bs := by
  induction as with
  | nil => simp
  | cons a as ih =>
    obtain ⟨p, e, rfl⟩ := h a (by simp)
    rw [List.cons_append, armsToks, ih fun b hb => h b (List.mem_cons_of_mem _ hb)]
    simp [armToks]

theorem armsToks_guarded {as : List Rust.Arm} (h : ∀ a ∈ as, ∃ p g e, a = .guarded p g e) (bs : List Rust.Arm) :
    armsToks (as ++ bs) = (as.map armToks).flatten ++ armsToks bs := by
  induction as with
  | nil => simp
  | cons a as ih =>
    obtain ⟨p, g, e, rfl⟩ := h a (by simp)
    rw [List.cons_append, armsToks, ih fun b hb => h b (List.mem_cons_of_mem _ hb)]
    simp [armToks]

theorem join_comma {l : List (List Tk)} (h : l ≠ []) (ts : List Tk) :
    joinToks t!"," l ++ .p 44 :: ts = (l.map (· ++ t!",")).flatten ++ ts := by
  induction l with
  | nil => exact absurd rfl h
  | cons a l ih =>
    cases l with
    | nil => simp [joinToks]
    | cons b l =>
      rw [joinToks, List.append_assoc, ih (by simp)]
      simp

/-- The fold over the names -/
theorem fold_toks {f : V → V → Res} {g : Rust.Expr → String → Rust.Expr} (ns : List String)
    (hf : ∀ nodes e n, n ∈ ns → flatAll nodes = exprToks e →
      ∃ nodes' env, f (.toks nodes) (.ident (Src.codes n)) = .ok (.val (.toks nodes'), env) ∧ flatAll nodes' = exprToks (g e n)) :
    ∀ {nodes : List Node} {e : Rust.Expr}, flatAll nodes = exprToks e →
      ∃ nodes', foldOf f ((ns.map Src.codes).map .ident) (.toks nodes) = .ok (.toks nodes') ∧
        flatAll nodes' = exprToks (ns.foldl g e) := by
  induction ns with
  | nil => exact fun h => ⟨_, rfl, h⟩
  | cons n ns ih =>
    intro nodes e h
    obtain ⟨nodes', env, h₁, h₂⟩ := hf nodes e n (by simp) h
    obtain ⟨nodes'', h₃, h₄⟩ := ih (fun nodes e m hm => hf nodes e m (List.mem_cons_of_mem _ hm)) h₂
    refine ⟨nodes'', ?_, h₄⟩
    rw [List.map_cons, List.map_cons, foldOf, h₁]
    exact h₃

theorem exists_fold {r : Res} {ns : List Node} {env : Env} {ts : List Tk} (h : r = .ok (.val (.toks ns), env))
    (ht : flatAll ns = ts) : ∃ ns env, r = .ok (.val (.toks ns), env) ∧ flatAll ns = ts := ⟨ns, env, h, ht⟩

theorem path_max {s : String} (h : IsName s) :
    path (s ++ "::MAX_PAYLOAD_LEN") = .id (Src.codes s) :: t!"::MAX_PAYLOAD_LEN" := by
  rw [path_name_append h]
  simp only [codesLit]
  rw [splitPath_sign h.1 rfl]
  rfl

theorem class_toks {r : Syn.RecvPackets} (hr : ListOk r) : bodyToks (Rust.classAndMsgIdCode r) =
    t!"{ match *self {" ++ (joinToks t!"," (r.allPackets.map fun n => armToks (classArm r.unionEnumName n)) ++ .p 44 ::
      .id (Src.codes r.unionEnumName) :: t!"::Unknown(ref pack) => (pack.class, pack.msg_id), } }") := by
  obtain ⟨hu, -, hne, hn⟩ := hr
  rw [join_comma (by simpa using hne)]
  have := armsToks_plain (as := r.allPackets.map (classArm r.unionEnumName)) (by simp [classArm])
    [.plain (.ctor (r.unionEnumName ++ "::Unknown") (some .pack)) (.pair (.field (.var .pack) "class") (.field (.var .pack) "msg_id"))]
  simp only [Rust.classAndMsgIdCode, bodyToks, stmtsToks, stmtToks, exprToks, varToks]
  rw [show (fun name => Rust.Arm.plain (.ctor (r.unionEnumName ++ "::" ++ name) none)
          (.pair (.const (name ++ "::CLASS")) (.const (name ++ "::ID")))) = classArm r.unionEnumName from rfl, this]
  simp [armsToks, patToks, path_unknown hu, exprToks, varToks, ident, codesLit, stmtEnd, Function.comp_def]

theorem match_toks {r : Syn.RecvPackets} (hr : ListOk r) : bodyToks (Rust.matchPacketCode r) =
    t!"{ match (class, msg_id) {" ++ ((r.allPackets.map fun n => armToks (matchArm r.unionEnumName n)).flatten ++
      (t!"_ => Ok(" ++ .id (Src.codes r.unionEnumName) :: (t!"::Unknown(" ++ .id (Src.codes r.unknownTy) ::
        t!"{ payload, class, msg_id })), } }"))) := by
  obtain ⟨hu, hk, hne, hn⟩ := hr
  have := armsToks_guarded (as := r.allPackets.map (matchArm r.unionEnumName)) (by simp [matchArm])
    [.plain .wild (.ok (.ctor (r.unionEnumName ++ "::Unknown") (.struct r.unknownTy
          [("payload", .var .payload), ("class", .var .class_), ("msg_id", .var .msgId)])))]
  simp only [Rust.matchPacketCode, bodyToks, stmtsToks, stmtToks, exprToks, varToks]
  rw [show (fun name => Rust.Arm.guarded (.consts (name ++ "::CLASS") (name ++ "::ID"))
          (.meth (.call (.user ("<" ++ name ++ "Ref>::validate")) [.var .payload]) .isOk [])
          (.block [.tail (.ok (.ctor (r.unionEnumName ++ "::" ++ name)
            (.ctor (name ++ "Ref") (.var .payload))))])) = matchArm r.unionEnumName from rfl, this]
  have ht : trailing r.unknownTy = [] := by
    unfold trailing
    split
    · rename_i h
      exact absurd hk (by rw [h]; decide)
    · rfl
  simp [armsToks, patToks, path_unknown hu, path_name hk, exprToks, varToks, ident, codesLit, stmtEnd, Function.comp_def, fieldsToks,
    fieldToks, Rust.Var.text, ht]

theorem union_toks {r : Syn.RecvPackets} (hr : ListOk r) : bodyToks (Rust.serializeUnionCode r) =
    t!"{ match *self {" ++ (joinToks t!"," (r.allPackets.map fun n => armToks (serializeArm r.unionEnumName n)) ++ .p 44 ::
      .id (Src.codes r.unionEnumName) :: t!"::Unknown(ref pack) => pack.serialize(serializer), } }") := by
  obtain ⟨hu, -, hne, hn⟩ := hr
  rw [join_comma (by simpa using hne)]
  have := armsToks_plain (as := r.allPackets.map (serializeArm r.unionEnumName)) (by simp [serializeArm])
    [.plain (.ctor (r.unionEnumName ++ "::Unknown") (some .pack)) (.callMut (.var .pack) "serialize" false .serializer)]
  simp only [Rust.serializeUnionCode, bodyToks, stmtsToks, stmtToks, exprToks, varToks]
  rw [show (fun name => Rust.Arm.plain (.ctor (r.unionEnumName ++ "::" ++ name) (some .msg))
            (.callMut (.struct "crate::ubx_packets::PacketSerializer"
              [("class", .const (name ++ "::CLASS")), ("msg_id", .const (name ++ "::ID")),
               ("msg", .var .msg)]) "serialize" false .serializer)) = serializeArm r.unionEnumName from rfl, this]
  simp [armsToks, patToks, path_unknown hu, exprToks, varToks, ident, codesLit, stmtEnd, Function.comp_def]

theorem packet_toks : bodyToks Rust.serializePacketCode =
    t!"{ let mut state = serializer.serialize_map(None)?; state.serialize_entry(\"class\", &self.class)?; state.serialize_entry(\"msg_id\", &self.msg_id)?; self.msg.serialize_fields(&mut state)?; state.end() }" := by
  simp [bodyToks, Rust.serializePacketCode, Rust.newMap, stmtsToks, stmtToks, exprToks, varToks, exprsToks, methToks, ident, codesLit,
    stmtEnd, minEnd]

theorem max_toks : bodyToks Rust.maxU16Code = t!"{ [a, b][(a < b) as usize] }" := by
  simp [bodyToks, Rust.maxU16Code, stmtsToks, stmtToks, exprToks, varToks, exprsToks, binOpToks, intTyToks, stmtEnd]

theorem emits_parse (k : Nat) (r : Syn.RecvPackets) (hr : ListOk r) :
    Emits Gen.outputRs_fns (k + 1) i!"generate_code_for_parse" [.recv (recvV r)] (parseToks (Rust.generateParseCode r)) := by
  obtain ⟨hu, hk, hne, hn⟩ := id hr
  obtain ⟨vs, ms, cs, ss, hloop, hv, hm, hc, hs⟩ := parse_loop (c := callsOf Gen.outputRs_fns k) hu hn .nil .nil .nil .nil
  have hfold := fold_toks (f := fun acc v => eval (callsOf Gen.outputRs_fns k) (.block
      (.last (.quote [.one (.toks t!"max_u16("),
        .one (.var i!"name"),
        .one (.toks t!":: MAX_PAYLOAD_LEN,"),
        .one (.var i!"prev"),
        .one (.toks t!")")]))) (bindParams [i!"prev", i!"name"] [acc, v] ++
          (i!"unknown_var", .ident (recvV r).unknownTy) :: parseSt (recvV r) vs ms cs ss))
    (g := fun prev name => .call (.user "max_u16") [.const (name ++ "::MAX_PAYLOAD_LEN"), prev]) r.allPackets
    (by
      intro nodes e n hmem h
      apply exists_fold
      · unfold parseSt
        knf
      · simp [flatAll, Node.flat, h, exprToks, funcToks, path_lits, exprsToks, path_max (hn n hmem)])
    (nodes := [.tks t!"0u16"]) (e := .lit 0 .u16) (by simp [flatAll, Node.flat, exprToks, intTyName])
  obtain ⟨nf, hf, hft⟩ := hfold
  simp only [List.nil_append] at hv hm hc hs
  have hv := hv.flat
  have hm := hm.flat
  have hc := hc.flat
  have hs := hs.flat
  refine Gives.emits (f := Gen.generate_code_for_parse) ?_ rfl
  show Gives (evalS _ Gen.generate_code_for_parse_body _) _
  unfold Gen.generate_code_for_parse_body
  apply gives
  · iterate 5
      apply step_name
      · knf
    apply step_for
    · exact rfl
    · exact hloop
    apply step_name
    · knf
    apply step_name
    · exact congrArg (fun o => andThen o fun w => .ok (.val w, _)) hf
    knf
  · simp only [flatAll, Node.flat, hv, hm, hc, hs, hft]
    delta parseToks
    simp only [Rust.generateParseCode, class_toks hr, match_toks hr, union_toks hr, packet_toks, max_toks, Rust.maxPayloadLenExpr]
    simp [joinToks_nil, ident, serializeHead, recvV]

end Ublox.Quote
