import Verif.Lemmas.CodegenParse

/-!
# The generated code for debug output and serialization
-/

namespace Ublox.Rust
open Spec

variable {W E : Type} (x : Externs W E)

/-- `self.name()` -/
theorem eval_selfCall {name : String} {self : V W E} {env : Env W E} {r : R (V W E)}
    (hs : getVar .self_ env = some self) (hm : x.method self name = r) :
    (selfCall name).eval x env = Ev.lift r env := by
  refine eval_meth x (eval_var x hs) ?_ ?_
  · simp only [methV]
    rw [hm]
    cases r <;> rfl
  · intro y hy; cases hy; exact hs

/-- A method with arguments, called on an expression that is not a variable. -/
theorem eval_methArgs {e : Expr} {m : Meth} {args : List Expr} {env : Env W E} {re : R (V W E)}
    {rs : List (R (V W E))} (h : e.eval x env = Ev.lift re env) (hv : ∀ y, e ≠ .var y)
    (ha : List.Forall₂ (fun e r => e.eval x env = Ev.lift r env) args rs) :
    (Expr.meth e m args).eval x env =
      Ev.lift (re >>= fun v => seqR rs >>= fun vs => Prod.fst <$> methV x m v vs) env := by
  simp only [Expr.eval]
  rw [bind_lift h]
  cases re with
  | error p => rfl
  | ok v =>
  show (evalExprs x args >>= _) env = _
  rw [bind_lift (evalExprs_lift x ha)]
  show _ = Ev.lift (seqR rs >>= _) env
  cases seqR rs with
  | error p => rfl
  | ok vs =>
    show (Ev.lift (methV x m v vs) >>= _) env = _
    rw [lift_bind]
    show _ = Ev.lift (Prod.fst <$> methV x m v vs) env
    cases methV x m v vs with
    | error p => rfl
    | ok q =>
      cases e
      case var y => exact absurd rfl (hv y)
      all_goals rfl

/-! ## Debug output -/

theorem debugFields_eval {d : Ublox.PackDesc} {payload : Bytes} {env : Env W E} {n : String}
    (hs : getVar .self_ env = some (refV d.name payload)) (hx : AccessorLinks x d) :
    ∀ (fs : List FieldDesc) (acc : Expr) (r : R (List (String × V W E))), (∀ f ∈ fs, f ∈ d.fields) →
      acc.eval x env = Ev.lift (V.entries n <$> r) env → (∀ y, acc ≠ .var y) →
      ((fs.map fieldCode).foldl (fun acc f => .meth acc .field
        [.stringify f.name, .ref (selfCall f.intermediateFieldName)]) acc).eval x env =
        Ev.lift (r >>= fun es => (fun kvs => V.entries n (es ++ kvs)) <$>
          fieldEntries d payload (fun _ v => valV v) fs) env ∧
      ∀ y, (fs.map fieldCode).foldl (fun acc f => .meth acc .field
        [.stringify f.name, .ref (selfCall f.intermediateFieldName)]) acc ≠ .var y
  | [], acc, r, _, h, hv => by
    refine ⟨h.trans ?_, hv⟩
    congr 1
    cases r with
    | error p => rfl
    | ok es =>
      show Except.ok _ = Except.ok (V.entries n (es ++ []))
      rw [List.append_nil]
  | f :: fs, acc, r, hm, h, hv => by
    have h1 : (selfCall (fieldCode f).intermediateFieldName).eval x env =
        Ev.lift (valV <$> d.get f.getName payload) env :=
      eval_selfCall x hs (hx.get f (hm f (.head _)) payload)
    have h2 := eval_methArgs x (m := .field) h hv
      (.cons (eval_stringify x (fieldCode f).name env) (.cons ((eval_ref x).trans h1) .nil))
    have h3 : ((Expr.meth acc .field [.stringify (fieldCode f).name,
        .ref (selfCall (fieldCode f).intermediateFieldName)]).eval x env) = Ev.lift (V.entries n <$>
        (r >>= fun es => (fun v => es ++ [(f.name, valV v)]) <$> d.get f.getName payload)) env := by
      refine h2.trans ?_
      congr 1
      cases r with
      | error p => rfl
      | ok es => cases d.get f.getName payload <;> rfl
    have h4 := debugFields_eval hs hx fs _ _ (fun g hg => hm g (.tail _ hg)) h3 (fun y hy => by cases hy)
    refine ⟨h4.1.trans ?_, h4.2⟩
    congr 1
    cases r with
    | error p => rfl
    | ok es =>
      simp only [fieldEntries, okBind']
      cases d.get f.getName payload with
      | error p => rfl
      | ok v =>
        show (fun kvs => V.entries n ((es ++ [(f.name, valV v)]) ++ kvs)) <$>
          fieldEntries d payload (fun _ v => valV (W := W) (E := E) v) fs =
            (fun kvs => V.entries n (es ++ kvs)) <$>
              (fieldEntries d payload (fun _ v => valV (W := W) (E := E) v) fs >>=
                fun kvs => Except.ok ((f.name, valV v) :: kvs))
        cases fieldEntries d payload (fun _ v => valV (W := W) (E := E) v) fs with
        | error p => rfl
        | ok kvs =>
          show Except.ok _ = Except.ok (V.entries n (es ++ (f.name, valV v) :: kvs))
          simp

/-- The generated `fmt` writes the name of the packet and, for every field, its name and the value of the
accessor. -/
theorem debugCode_call {d : Ublox.PackDesc} (hx : AccessorLinks x d) (payload : Bytes) (n : String)
    (es : List (String × V W E)) :
    (debugCode (packetCode d)).call x [refV d.name payload, .entries n es] =
      (fun kvs => .ok (.entries d.name kvs)) <$>
        fieldEntries d payload (fun _ v => valV v) d.fields := by
  rw [call_eq x rfl]
  show resultOf <$> evalStmts x [.tail _] [(.f_, .entries n es), (.self_, refV d.name payload)] = _
  rw [stmts_tail]
  have h0 : (Expr.meth (.var .f_) .debugStruct [.str d.name]).eval x
      [(.f_, .entries n es), (.self_, refV d.name payload)] =
      Ev.lift (V.entries d.name <$> .ok []) [(.f_, .entries n es), (.self_, refV d.name payload)] := by
    rw [eval_methMut x (v := .entries n es) rfl (eval_args1 x (eval_str x _ _))]
    rfl
  obtain ⟨h1, h2⟩ := debugFields_eval x rfl hx d.fields _ _ (fun f hf => hf) h0 (fun y hy => by cases hy)
    (payload := payload)
  have h3 := eval_methArgs x (m := .finish) h1 h2 .nil
  rw [show (packetCode d).fields = d.fields.map fieldCode from rfl,
    show (packetCode d).name = d.name from rfl, h3]
  cases fieldEntries d payload (fun _ v => valV (W := W) (E := E) v) d.fields <;> rfl

/-! ## Serialization -/

theorem isOptional_eq (f : FieldDesc) : (fieldCode f).isOptional = f.isOptional := by
  unfold Syn.PackField.isOptional FieldDesc.isOptional
  simp only [fieldCode]
  cases h : f.map with
  | none => rfl
  | some c =>
    cases c
    case iter k => cases k <;> rfl
    all_goals rfl

/-- The value that is given to the serializer. -/
theorem eval_entry {d : Ublox.PackDesc} {payload : Bytes} {env : Env W E} {f : FieldDesc}
    (hf : f ∈ d.fields) (hs : getVar .self_ env = some (refV d.name payload)) (hx : AccessorLinks x d) :
    (if (fieldCode f).sizeBytes.isSome || (fieldCode f).isOptional then
        Expr.ref (selfCall (fieldCode f).intermediateFieldName)
      else .ref (.call (.user "crate::ubx_packets::FieldIter")
        [selfCall (fieldCode f).intermediateFieldName])).eval x env =
      Ev.lift (entryV f <$> d.get f.getName payload) env := by
  have h1 : (selfCall (fieldCode f).intermediateFieldName).eval x env =
      Ev.lift (valV <$> d.get f.getName payload) env :=
    eval_selfCall x hs (hx.get f hf payload)
  rw [isOptional_eq, show (fieldCode f).sizeBytes = f.ty.size from rfl]
  unfold entryV
  split
  · exact (eval_ref x).trans h1
  · refine (eval_ref x).trans ((eval_call (rs := [_]) x _ (.cons h1 .nil)).trans ?_)
    congr 1
    cases d.get f.getName payload with
    | error p => rfl
    | ok v =>
      have : (seqR [valV <$> (Except.ok v : R Val)] >>= callV x (.user "crate::ubx_packets::FieldIter")) =
          x.call "crate::ubx_packets::FieldIter" [valV v] := by
        show (seqR [Except.ok (valV v)] >>= _) = _
        simp only [seqR, okBind', pure, Except.pure, callV]
      rw [this, hx.fieldIter]
      rfl

theorem serializeEntry_step {k : String} {ke e : Expr} {ss : List Stmt} {n : String}
    {es : List (String × V W E)} {env : Env W E} {r : R (V W E)}
    (hk : ke.eval x env = Ev.lift (.ok (.str k)) env)
    (hs : getVar .state env = some (.entries n es)) (he : e.eval x env = Ev.lift r env) :
    evalStmts x (.expr (.try_ (.meth (.var .state) .serializeEntry [ke, e])) :: ss) env =
      (r >>= fun v => evalStmts x ss (setVar .state (.entries n (es ++ [(k, v)])) env)) := by
  have ha := evalExprs_lift x (.cons hk (.cons he .nil))
  cases r with
  | error p =>
    refine stmts_try_panic x ?_
    simp only [Expr.eval]
    have hg : (Ev.get .state : Ev W E (V W E)) env = .ok (.ok (.entries n es), env) := by
      simp only [Ev.get, hs]
    refine (bind_ok hg).trans ?_
    exact bind_error (ha.trans rfl)
  | ok v =>
    refine stmts_try_ok x (v := .unit) ?_
    rw [eval_methMut x hs (vals := [.str k, v]) (ha.trans rfl)]
    rfl

theorem serializeFields_eval {d : Ublox.PackDesc} {payload : Bytes} {n : String} {ss : List Stmt}
    {env : Env W E} (hs : getVar .self_ env = some (refV d.name payload)) (hx : AccessorLinks x d) :
    ∀ (fs : List FieldDesc) (es : List (String × V W E)), (∀ f ∈ fs, f ∈ d.fields) →
      evalStmts x ((fs.map fieldCode).map serializeEntryCode ++ ss) ((.state, .entries n es) :: env) =
        (fieldEntries d payload entryV fs >>= fun kvs =>
          evalStmts x ss ((.state, .entries n (es ++ kvs)) :: env))
  | [], es, _ => by
    simp only [List.map_nil, List.nil_append, fieldEntries, okBind', List.append_nil]
  | f :: fs, es, hm => by
    have hs' : getVar .self_ ((.state, .entries n es) :: env) = some (refV d.name payload) := hs
    have he := eval_entry x (hm f (.head _)) hs' hx
    simp only [List.map_cons, List.cons_append]
    unfold serializeEntryCode
    dsimp only
    rw [serializeEntry_step x (eval_stringify x (fieldCode f).name _) (n := n) (es := es) rfl he]
    simp only [fieldEntries]
    cases d.get f.getName payload with
    | error p => rfl
    | ok v =>
      have := serializeFields_eval (n := n) (ss := ss) hs hx fs (es ++ [(f.name, entryV f v)]) fun g hg => hm g (.tail _ hg)
      refine this.trans ?_
      show _ = ((fieldEntries d payload entryV fs >>= fun kvs => Except.ok ((f.name, entryV f v) :: kvs)) >>= _)
      cases fieldEntries d payload (entryV (W := W) (E := E)) fs with
      | error p => rfl
      | ok kvs =>
        simp only [okBind', List.append_assoc, List.cons_append, List.nil_append]

/-- The generated `serialize_fields` gives the serializer one entry per field. -/
theorem serializeFieldsCode_run {d : Ublox.PackDesc} (hx : AccessorLinks x d) (payload : Bytes) (n : String)
    (es : List (String × V W E)) :
    runState x (serializeFieldsCode (packetCode d)) (refV d.name payload) (.entries n es) =
      fieldsResult d payload n es := by
  have h := serializeFields_eval x (d := d) (payload := payload) (n := n) (ss := [.tail (.ok .unit)])
    (env := [(.self_, refV d.name payload)]) rfl hx d.fields es fun f hf => hf
  simp only [runState, FnDecl.run]
  rw [if_neg (by simp [serializeFieldsCode])]
  rw [show bindParams (serializeFieldsCode (packetCode d)).params [refV d.name payload, .entries n es] =
    [(.state, .entries n es), (.self_, refV d.name payload)] from rfl,
    show (serializeFieldsCode (packetCode d)).body =
      (d.fields.map fieldCode).map serializeEntryCode ++ [.tail (.ok .unit)] from rfl, h]
  unfold fieldsResult
  cases fieldEntries d payload (entryV (W := W) (E := E)) d.fields with
  | error p => rfl
  | ok kvs =>
    simp only [okBind']
    rw [stmts_tail]
    simp only [Expr.eval]
    rfl

theorem eval_callMut {e : Expr} {m : String} {amp : Bool} {y : Var} {v w : V W E} {env : Env W E}
    (he : e.eval x env = Ev.lift (.ok v) env) (hy : getVar y env = some w) :
    (Expr.callMut e m amp y).eval x env =
      (fun p => (.ok p.1, setVar y p.2 env)) <$> x.methodMut v m w := by
  simp only [Expr.eval]
  have hg : (Ev.get y : Ev W E (V W E)) env = .ok (.ok w, env) := by simp only [Ev.get, hy]
  rw [bind_ok (he.trans rfl), bind_ok hg, lift_bind]
  cases x.methodMut v m w <;> rfl

theorem newMap_step {ss : List Stmt} {env : Env W E} {n : String} {es : List (String × V W E)}
    (h : getVar .serializer env = some (.entries n es)) :
    evalStmts x (newMap :: ss) env = evalStmts x ss ((.state, .entries n es) :: env) := by
  refine stmts_let_ok x ?_
  have h1 : (Expr.meth (.var .serializer) .serializeMap [.none]).eval x env =
      .ok (.ok (.ok (.entries n es)), env) := by
    rw [eval_methMut x h (eval_args1 x (e := .none) (v := .none) (by simp only [Expr.eval]; rfl))]
    show Except.ok (_, setVar _ _ _) = _
    rw [setVar_self h]
  simp only [Expr.eval] at h1 ⊢
  exact (bind_ok h1).trans rfl

theorem serializeTail {d : Ublox.PackDesc} {payload : Bytes} {n : String} {es : List (String × V W E)}
    {e : Expr} {env : Env W E}
    (hx : x.methodMut (refV d.name payload) "serialize_fields" (.entries n es) = fieldsResult d payload n es)
    (he : e.eval x ((.state, .entries n es) :: env) =
      Ev.lift (.ok (refV d.name payload)) ((.state, .entries n es) :: env)) :
    resultOf <$> evalStmts x [.expr (.try_ (.callMut e "serialize_fields" true .state)),
      .tail (.meth (.var .state) .end_ [])] ((.state, .entries n es) :: env) =
    (fun kvs => .ok (.entries n (es ++ kvs))) <$> fieldEntries d payload entryV d.fields := by
  have hc := eval_callMut x (m := "serialize_fields") (amp := true) (y := .state)
    (w := .entries n es) he rfl
  rw [hx] at hc
  unfold fieldsResult at hc
  cases hf : fieldEntries d payload (entryV (W := W) (E := E)) d.fields with
  | error p =>
    rw [hf] at hc
    rw [stmts_try_panic x (hc.trans rfl)]
    rfl
  | ok kvs =>
    rw [hf] at hc
    rw [stmts_try_ok x (hc.trans rfl), stmts_tail]
    show resultOf <$> (Expr.meth (.var .state) .end_ []).eval x
      ((.state, .entries n (es ++ kvs)) :: env) = _
    rw [eval_meth x (r := .ok (.ok (.entries n (es ++ kvs)))) (v := .entries n (es ++ kvs)) (eval_var x rfl) rfl
      (fun y hy => by cases hy; rfl)]
    rfl

/-- The generated `serialize` of a packet. -/
theorem serializeCode_call {d : Ublox.PackDesc} {payload : Bytes} {n : String} {es : List (String × V W E)}
    (hx : x.methodMut (refV d.name payload) "serialize_fields" (.entries n es) =
      fieldsResult d payload n es) :
    serializeCode.call x [refV d.name payload, .entries n es] =
      (fun kvs => .ok (.entries n (es ++ kvs))) <$> fieldEntries d payload entryV d.fields := by
  rw [call_eq x rfl]
  show resultOf <$> evalStmts x (newMap :: _) [(.serializer, .entries n es), (.self_, refV d.name payload)] = _
  rw [newMap_step x rfl]
  exact serializeTail x hx (eval_var x rfl)

/-- The generated `serialize` of `PacketSerializer`. -/
theorem serializePacketCode_call {d : Ublox.PackDesc} {payload : Bytes} {n : String}
    {es : List (String × V W E)}
    (hx : ∀ es, x.methodMut (refV d.name payload) "serialize_fields" (.entries n es) =
      fieldsResult d payload n es) :
    serializePacketCode.call x [packetSerializerV d payload, .entries n es] =
      (fun kvs => .ok (.entries n (es ++ kvs))) <$> packetEntries (.known d payload) := by
  rw [call_eq x rfl]
  show resultOf <$> evalStmts x (newMap :: _)
    [(.serializer, .entries n es), (.self_, packetSerializerV d payload)] = _
  rw [newMap_step x rfl,
    serializeEntry_step x (eval_str x "class" _) rfl ((eval_ref x).trans (eval_field x _ (eval_var x rfl)))]
  show resultOf <$> evalStmts x (_ :: _) ((.state, .entries n (es ++ [("class", .byte d.cls)])) :: _) = _
  rw [serializeEntry_step x (eval_str x "msg_id" _) rfl
    ((eval_ref x).trans (eval_field x _ (eval_var x rfl)))]
  show resultOf <$> evalStmts x (_ :: _)
    ((.state, .entries n (es ++ [("class", .byte d.cls)] ++ [("msg_id", .byte d.id)])) :: _) = _
  rw [serializeTail x (hx _) ((eval_field x _ (eval_var x rfl)).trans rfl)]
  simp only [packetEntries]
  cases fieldEntries d payload (entryV (W := W) (E := E)) d.fields with
  | error p => rfl
  | ok kvs =>
    show Except.ok _ = Except.ok (V.ok (.entries n (es ++ ([("class", .byte d.cls), ("msg_id", .byte d.id)] ++
      kvs))))
    simp

/-! ## The enumeration of packets -/

theorem ctorArms_bind {u n : String} {w : V W E} {y : Var} {body : String → Expr} {rest : List Arm}
    {env : Env W E} {r : R (V W E)} (hb : (body n).eval x ((y, w) :: env) = Ev.lift r ((y, w) :: env)) :
    ∀ {names : List String}, n ∈ names →
    evalArms x (.data (u ++ "::" ++ n) [("0", w)])
      (names.map (fun name => .plain (.ctor (u ++ "::" ++ name) (some y)) (body name)) ++ rest) env =
      Ev.lift r env
  | m :: names, hm => by
    simp only [List.map_cons, List.cons_append]
    by_cases h : m = n
    · subst h
      exact arms_bind x (y := y) (by simp only [matchPat, if_true]) hb
    · rw [arms_skip x (by simp only [matchPat, if_neg (prefix_ne (u := u) h)])]
      refine ctorArms_bind hb ?_
      cases hm with
      | head => exact absurd rfl h
      | tail _ hm => exact hm

theorem serializeUnionCode_call {r : Syn.RecvPackets} {ds : List Ublox.PackDesc}
    (hr : r.allPackets = ds.map (·.name)) (hx : UnionLinks x r ds) (hu : "Unknown" ∉ ds.map (·.name))
    {q : PacketRef} (hq : ∀ d p, q = .known d p → d ∈ ds) (n : String) (es : List (String × V W E)) :
    (serializeUnionCode r).call x [packetRefV r q, .entries n es] =
      (fun kvs => .ok (.entries n (es ++ kvs))) <$> packetEntries q := by
  rw [call_eq x rfl]
  show resultOf <$> evalStmts x [.tail _] [(.serializer, .entries n es), (.self_, packetRefV r q)] = _
  rw [stmts_tail, eval_match x (v := packetRefV r q) (by rw [eval_deref]; exact eval_var x rfl), hr]
  have hcall : ∀ (e : Expr) (v : V W E) (env : Env W E) (k : R (List (String × V W E))),
      e.eval x env = Ev.lift (.ok v) env → getVar .serializer env = some (.entries n es) →
      x.methodMut v "serialize" (.entries n es) =
        (fun kvs => (.ok (.entries n (es ++ kvs)), .entries n es)) <$> k →
      (Expr.callMut e "serialize" false .serializer).eval x env =
        Ev.lift ((fun kvs => .ok (.entries n (es ++ kvs))) <$> k) env := by
    intro e v env k he hs hm
    rw [eval_callMut x he hs, hm]
    cases k with
    | error p => rfl
    | ok kvs =>
      show Except.ok (_, setVar _ _ _) = _
      rw [setVar_self hs]
      rfl
  cases q with
  | known d p =>
    have hd := hq d p rfl
    show resultOf <$> evalArms x (.data (r.unionEnumName ++ "::" ++ d.name) [("0", refV d.name p)]) _ _ = _
    rw [ctorArms_bind x (r := (fun kvs => .ok (.entries n (es ++ kvs))) <$> packetEntries (.known d p)) ?_
      (List.mem_map_of_mem hd)]
    · cases packetEntries (W := W) (E := E) (.known d p) <;> rfl
    · refine hcall _ (packetSerializerV d p) _ _ ?_ rfl (hx.packet d hd p n es)
      rw [eval_struct (rs := [.ok (.byte d.cls), .ok (.byte d.id), .ok (refV d.name p)]) x _
        (.cons ((eval_const x _ _).trans (by rw [hx.cls d hd])) (.cons ((eval_const x _ _).trans
          (by rw [hx.id d hd])) (.cons (eval_var x rfl) .nil)))]
      rfl
  | unknown p c m =>
    have hun : r.unionEnumName ++ "::Unknown" = r.unionEnumName ++ "::" ++ "Unknown" := by
      rw [String.append_assoc]; rfl
    unfold packetRefV
    dsimp only
    rw [hun, ctorArms_skip x hu]
    rw [arms_bind x (y := .pack) (r := (fun kvs => .ok (.entries n (es ++ kvs))) <$>
      packetEntries (.unknown p c m)) (by simp only [matchPat, if_true])
      (hcall _ _ _ _ (eval_var x rfl) rfl (hx.unknown p c m n es))]
    rfl

/-! ## What serde makes of the entries -/

theorem serV_entry (M : Nat) (f : FieldDesc) (v : Val) :
    serV M (entryV (W := W) (E := E) f v) = f.serialize M v := by
  unfold entryV FieldDesc.serialize
  split
  · rfl
  · cases v <;> rfl

theorem serEntries_eq {M : Nat} {d : Ublox.PackDesc} {payload : Bytes} : ∀ {gs : List Getter}
    {kvs : List (String × V W E)},
    (∀ g ∈ gs, g.run d payload = d.get g.field.getName payload) →
    fieldEntries d payload entryV (gs.map (·.field)) = .ok kvs →
    serEntries M kvs = d.serializeEntries M payload gs
  | [], kvs, _, h => by cases h; rfl
  | g :: gs, kvs, hg, h => by
    simp only [List.map_cons, fieldEntries] at h
    have h1 := hg g (.head _)
    cases hv : d.get g.field.getName payload with
    | error p => rw [hv] at h; cases h
    | ok v =>
      rw [hv, okBind'] at h
      cases hr : fieldEntries d payload (entryV (W := W) (E := E)) (gs.map (·.field)) with
      | error p => rw [hr] at h; cases h
      | ok rest =>
        rw [hr] at h
        cases h
        have ih := serEntries_eq (M := M) (fun g h => hg g (.tail _ h)) hr
        simp only [serEntries, Ublox.PackDesc.serializeEntries, h1, hv, serV_entry, ih]
        rfl

theorem debugEntries_eq {d : Ublox.PackDesc} {payload : Bytes} : ∀ {gs : List Getter},
    (∀ g ∈ gs, g.run d payload = d.get g.field.getName payload) →
    fieldEntries (W := W) (E := E) d payload (fun _ v => valV v) (gs.map (·.field)) =
      List.map (fun kv => (kv.1, valV kv.2)) <$> d.serializeFields payload gs
  | [], _ => rfl
  | g :: gs, hg => by
    simp only [List.map_cons, fieldEntries, Ublox.PackDesc.serializeFields]
    rw [debugEntries_eq fun g h => hg g (.tail _ h), hg g (.head _)]
    cases d.get g.field.getName payload with
    | error p => rfl
    | ok v =>
      simp only [okBind']
      cases d.serializeFields payload gs <;> rfl

/-! ## In a program -/

theorem accX_links {base : Externs W E} {cs : List Conv} {d : Ublox.PackDesc}
    (h : ∀ f ∈ d.fields, ∀ payload,
      recvMethod base cs d f.getName [refV d.name payload] = valV <$> d.get f.getName payload) :
    AccessorLinks (accX base cs d) d :=
  ⟨h, fun _ => rfl⟩

theorem serializeFieldsX_call {base : Externs W E} {cs : List Conv} {ds : List Ublox.PackDesc}
    (hn : (ds.map (·.name)).Nodup) {d : Ublox.PackDesc} (hd : d ∈ ds) {code : RecvCode}
    (hc : generateRecvCode (packetCode d) = .ok code)
    (hs : code.serializeFields = serializeFieldsCode (packetCode d))
    (ha : AccessorLinks (accX base cs d) d) (payload : Bytes) (n : String) (es : List (String × V W E)) :
    (serializeFieldsX base cs ds).methodMut (refV d.name payload) "serialize_fields" (.entries n es) =
      fieldsResult d payload n es := by
  have hf : (ds.find? fun e => e.name ++ "Ref" = d.name ++ "Ref") = some d := by
    refine find_of_unique' hd (by simp) ?_
    intro b hb hbe
    simp only [decide_eq_true_eq] at hbe
    exact List.inj_on_of_nodup_map hn hb hd (append_cancel_right hbe)
  simp only [serializeFieldsX, refV, if_true, hf, hc, hs]
  exact serializeFieldsCode_run _ ha payload n es

theorem unionX_links {base : Externs W E} {cs : List Conv} {r : Syn.RecvPackets} {ds : List Ublox.PackDesc}
    (hn : (ds.map (·.name)).Nodup) (hu : r.unknownTy ≠ "crate::ubx_packets::PacketSerializer")
    (hs : ∀ d ∈ ds, ∀ payload n es, (serializeFieldsX base cs ds).methodMut (refV d.name payload)
      "serialize_fields" (.entries n es) = fieldsResult d payload n es) :
    UnionLinks (unionX base cs r ds) r ds := by
  refine ⟨?_, ?_, ?_, ?_⟩
  · intro d hd
    have h := packetConst_find base hn hd (c := ⟨"const CLASS: u8", "CLASS", .lit d.cls.toNat .u8⟩)
      List.mem_cons_self
    rw [String.append_assoc] at h
    refine h.trans ?_
    show Except.ok (V.byte (UInt8.ofNat d.cls.toNat)) = _
    rw [UInt8.ofNat_toNat]
  · intro d hd
    have h := packetConst_find base hn hd (c := ⟨"const ID: u8", "ID", .lit d.id.toNat .u8⟩)
      (List.mem_cons_of_mem _ List.mem_cons_self)
    rw [String.append_assoc] at h
    refine h.trans ?_
    show Except.ok (V.byte (UInt8.ofNat d.id.toNat)) = _
    rw [UInt8.ofNat_toNat]
  · intro d hd payload name es
    have h := serializePacketCode_call (serializeFieldsX base cs ds) (n := name) (es := es)
      (fun es => hs d hd payload name es)
    unfold packetSerializerV at h ⊢
    simp only [unionX, if_true]
    rw [show (generateParseCode r).serializePacket = serializePacketCode from rfl, h]
    cases packetEntries (W := W) (E := E) (.known d payload) <;> rfl
  · intro payload cls msgId name es
    simp only [unionX, if_true, if_neg hu]
    rfl

end Ublox.Rust
