import Verif.Lemmas.CodegenRecv
import Verif.Model.Derive

/-!
# The generated code for received packets: all methods, and `validate`
-/

namespace Ublox.Rust
open Spec

variable {W E : Type} (x : Externs W E)

/-! ## The accessors -/

/-- The name of the method that gives a size. -/
def sizeFnText (s : SizeFn) : String := pathText (sizeFnName s)

/-- The accessors of a field. -/
def getterDecls (g : Getter) : List FnDecl :=
  match g.field.ty.size with
  | some n => (if g.field.map.isSome then [rawGetter (fieldCode g.field) n g.off] else []) ++
      [sizedGetter (fieldCode g.field) n g.off]
  | none => [unsizedGetter (fieldCode g.field) g.off (g.sizeFns.map sizeFnText)]

theorem recvFields_eq (name : String) : ∀ (fs : List FieldDesc) (off : Nat) (ss : List SizeFn),
    (∀ f ∈ fs.dropLast, f.ty.size = none → f.sizeFn.isSome) →
    (∀ f ∈ fs, f.sizeFn.isSome → f.map.isSome) →
    recvFields name (fs.map fieldCode) off (ss.map sizeFnText) =
      .ok ((genGetters fs off ss).flatMap getterDecls,
        (genGetters fs off ss).flatMap fun g => fieldValidator name (fieldCode g.field) g.off)
  | [], _, _, _, _ => rfl
  | f :: fs, off, ss, hl, hm => by
    have hl' : ∀ g ∈ fs.dropLast, g.ty.size = none → g.sizeFn.isSome := by
      intro g hg
      refine hl g ?_
      cases fs with
      | nil => simp at hg
      | cons a as => simp [List.dropLast_cons_cons, hg]
    have hm' : ∀ g ∈ fs, g.sizeFn.isSome → g.map.isSome := fun g hg => hm g (.tail _ hg)
    simp only [List.map_cons, recvFields, genGetters]
    have hsz : (fieldCode f).sizeBytes = f.ty.size := rfl
    have hmt : (fieldCode f).map.mapType.isSome = f.map.isSome := by
      simp [fieldCode]
    rw [hsz, hmt]
    cases hn : f.ty.size with
    | some n =>
      simp only
      rw [recvFields_eq name fs (off + n) ss hl' hm']
      simp [bind, Except.bind, pure, Except.pure, getterDecls, hn]
    | none =>
      have hsf : (fieldCode f).sizeFn = f.sizeFn.map sizeFnName := fieldCode_sizeFn (hm f (.head _))
      have hc : ((fs.map fieldCode).isEmpty || (fieldCode f).sizeFn.isSome) = true := by
        cases hfs : fs with
        | nil => rfl
        | cons a as =>
          have := hl f (by simp [hfs, List.dropLast_cons_cons]) hn
          simp [hsf, this]
      have hss : ss.map sizeFnText ++ (fieldCode f).sizeFn.toList.map pathText =
          (ss ++ f.sizeFn.toList).map sizeFnText := by
        rw [hsf]
        cases f.sizeFn <;> simp [sizeFnText]
      simp only [hc, if_true]
      rw [hss, recvFields_eq name fs off _ hl' hm']
      simp [bind, Except.bind, pure, Except.pure, getterDecls, hn]

/-- What is known about the accessors that are generated. -/
theorem genGetters_bounds : ∀ {fs : List FieldDesc} {off : Nat} {ss : List SizeFn} {g : Getter},
    g ∈ genGetters fs off ss →
    g.field ∈ fs ∧ (∀ s ∈ g.sizeFns, s ∈ ss ∨ ∃ f ∈ fs, f.sizeFn = some s) ∧
    g.off + g.field.ty.size.getD 0 + 128 * (g.sizeFns.length + g.field.sizeFn.toList.length) ≤
      off + (fs.map fun f => f.ty.size.getD 0).sum +
        128 * (ss.length + (fs.filterMap (·.sizeFn)).length)
  | [], _, _, _, h => by simp [genGetters] at h
  | f :: fs, off, ss, g, h => by
    have hcnt : ((f :: fs).filterMap (·.sizeFn)).length =
        f.sizeFn.toList.length + (fs.filterMap (·.sizeFn)).length := by
      cases hf : f.sizeFn <;> simp [hf]
      omega
    have hsum : ((f :: fs).map fun f => f.ty.size.getD 0).sum =
      f.ty.size.getD 0 + (fs.map fun f => f.ty.size.getD 0).sum := by simp
    rw [hcnt, hsum]
    simp only [genGetters] at h
    cases hn : f.ty.size with
    | some n =>
      simp only [hn, List.mem_cons] at h
      obtain rfl | h := h
      · refine ⟨.head _, fun s hs => .inl hs, ?_⟩
        simp only [hn, Option.getD_some]
        omega
      · obtain ⟨h1, h2, h3⟩ := genGetters_bounds h
        refine ⟨.tail _ h1, fun s hs => ?_, ?_⟩
        · obtain h | ⟨f, hf, h⟩ := h2 s hs
          · exact .inl h
          · exact .inr ⟨f, .tail _ hf, h⟩
        · simp only [Option.getD_some]
          omega
    | none =>
      simp only [hn, List.mem_cons] at h
      obtain rfl | h := h
      · refine ⟨.head _, fun s hs => .inl hs, ?_⟩
        simp only [hn, Option.getD_none]
        omega
      · obtain ⟨h1, h2, h3⟩ := genGetters_bounds h
        refine ⟨.tail _ h1, fun s hs => ?_, ?_⟩
        · obtain h | ⟨g, hg, h⟩ := h2 s hs
          · rw [List.mem_append] at h
            obtain h | h := h
            · exact .inl h
            · refine .inr ⟨f, .head _, ?_⟩
              simpa using h
          · exact .inr ⟨g, .tail _ hg, h⟩
        · rw [List.length_append] at h3
          simp only [Option.getD_none]
          omega

/-! ## `validate` -/

theorem eval_ite {c : Expr} {t e : List Stmt} {env : Env W E} {b : Bool}
    (h : c.eval x env = Ev.lift (.ok (.bool b)) env) :
    (Expr.ite c t e).eval x env =
      if b then Ev.scoped (evalStmts x t) env else Ev.scoped (evalStmts x e) env := by
  simp only [Expr.eval]
  rw [bind_ok (h.trans rfl), lift_bind]
  cases b <;> rfl

theorem resultOf_scoped (m : Ev W E (V W E)) (env : Env W E) :
    resultOf <$> Ev.scoped m env = resultOf <$> m env := by
  simp only [Ev.scoped]
  cases m env with
  | error p => rfl
  | ok q => rfl

theorem eval_str (s : String) (env : Env W E) :
    (Expr.str s).eval x env = Ev.lift (.ok (.str s)) env := by
  simp only [Expr.eval]; rfl

theorem eval_stringify (s : String) (env : Env W E) :
    (Expr.stringify s).eval x env = Ev.lift (.ok (.str s)) env := by
  simp only [Expr.eval]; rfl

theorem eval_unit (env : Env W E) : Expr.unit.eval x env = Ev.lift (.ok .unit) env := by
  simp only [Expr.eval]; rfl

/-- `if !c { return e; }` followed by other statements. -/
theorem stmts_check {c e : Expr} {ss : List Stmt} {env : Env W E} {b : Bool} {v : V W E}
    (hc : c.eval x env = Ev.lift (.ok (.bool b)) env) (he : e.eval x env = Ev.lift (.ok v) env) :
    evalStmts x (.expr (.ite c [.return_ e] []) :: ss) env =
      if b then .ok (.error v, env) else evalStmts x ss env := by
  have hite := eval_ite x (t := [.return_ e]) (e := []) hc
  cases b with
  | true =>
    refine stmts_expr_return x (hite.trans ?_)
    have : evalStmts x [.return_ e] env = .ok (.error v, env) := by
      simp only [evalStmts, Stmt.eval]
      refine bind_return ?_
      rw [bind_ok (he.trans rfl)]
      rfl
    simp only [if_true, Ev.scoped, this]
    simp
  | false =>
    refine stmts_expr_ok x (v := .unit) (hite.trans ?_)
    simp only [Bool.false_eq_true, if_false, Ev.scoped, evalStmts]
    show Except.ok (Except.ok V.unit, env.drop _) = _
    simp

/-- The same if the condition may panic. -/
theorem stmts_check_panic {c e : Expr} {ss : List Stmt} {env : Env W E} {p : Panic}
    (hc : c.eval x env = Ev.lift (.error p) env) :
    evalStmts x (.expr (.ite c [.return_ e] []) :: ss) env = .error p := by
  refine stmts_expr_error x ?_
  simp only [Expr.eval]
  exact bind_error hc

theorem eval_isValid {f : FieldDesc} {c : Conv} (hm : f.map = some c) (hmf : f.mayFail = true)
    (hx : FieldLinks x f) {env : Env W E} {r : RawVal} (h : getVar .val env = some (rawV r)) :
    (Expr.not (.fn (convDesc f (rawTy true f.ty) c).isValidFn (.var .val))).eval x env =
      Ev.lift ((fun b => V.bool (!b)) <$> c.isValid r) env := by
  rw [eval_not x (eval_fn x _ (eval_var x h))]
  have : (Except.ok (rawV r) >>= x.fn (convDesc f (rawTy true f.ty) c).isValidFn) =
      V.bool <$> c.isValid r := hx.isValidFn c hm hmf r
  rw [this]
  cases c.isValid r <;> rfl

theorem validator_eval {d : Ublox.PackDesc} {g : Getter} (hx : FieldLinks x g.field)
    (hM : g.off + g.field.ty.size.getD 0 ≤ x.maxUsize) {env : Env W E} {payload : Bytes}
    (hp : getVar .payload env = some (.bytes payload)) (ss : List Stmt) {k : R (V W E)}
    (hk : ∀ env', getVar .payload env' = some (.bytes payload) → resultOf <$> evalStmts x ss env' = k) :
    resultOf <$> evalStmts x (fieldValidator d.name (fieldCode g.field) g.off ++ ss) env =
      (g.check payload >>= fun b => if b then k else
        .ok (resultV (.error (.invalidField d.name g.field.getName)))) := by
  have hmt : (fieldCode g.field).map.mapType =
      g.field.map.map (convDesc g.field (rawTy g.field.map.isSome g.field.ty)) := rfl
  have hmf : (fieldCode g.field).map.convertMayFail = g.field.mayFail := rfl
  have hsz : (fieldCode g.field).sizeBytes = g.field.ty.size := rfl
  have hnm : (fieldCode g.field).intermediateFieldName = g.field.getName := rfl
  simp only [fieldValidator, Getter.check, hmt, hmf, hsz]
  cases hm : g.field.map with
  | none =>
    simp only [Option.map_none, List.nil_append]
    exact hk env hp
  | some c =>
    simp only [Option.map_some, Option.isSome_some]
    cases hfail : g.field.mayFail with
    | false =>
      simp only [Bool.false_eq_true, if_false, List.nil_append]
      exact hk env hp
    | true =>
      simp only [if_true, validatorCode, List.cons_append, List.nil_append]
      have step : ∀ (e : Expr) (r : R RawVal), e.eval x env = Ev.lift (rawV <$> r) env →
          resultOf <$> evalStmts x (letE .val e ::
            .expr (.ite (.not (.fn (convDesc g.field (rawTy true g.field.ty) c).isValidFn (.var .val)))
              [.return_ (.err (.struct "ParserError::InvalidField"
                [("packet", .str d.name),
                 ("field", .stringify (fieldCode g.field).intermediateFieldName)]))] []) :: ss) env =
          ((r >>= c.isValid) >>= fun b => if b then k else
            .ok (resultV (.error (.invalidField d.name g.field.getName)))) := by
        intro e r he
        rw [letE, stmts_let_lift x he]
        cases r with
        | error p => rfl
        | ok r =>
          show resultOf <$> evalStmts x _ ((.val, rawV r) :: env) = (c.isValid r >>= _)
          have hc := eval_isValid x hm hfail hx (env := (.val, rawV r) :: env) (r := r) rfl
          have he : (Expr.err (.struct "ParserError::InvalidField"
                [("packet", .str d.name),
                 ("field", .stringify (fieldCode g.field).intermediateFieldName)])).eval x
                ((.val, rawV r) :: env) =
              Ev.lift (.ok (resultV (.error (.invalidField d.name g.field.getName))))
                ((.val, rawV r) :: env) :=
            (eval_err x (eval_struct x (rs := [.ok (.str d.name), .ok (.str g.field.getName)]) _
              (.cons (eval_str x _ _) (.cons (eval_stringify x _ _) .nil)))).trans rfl
          cases hv : c.isValid r with
          | error p =>
            rw [hv] at hc
            rw [stmts_check_panic x hc]
            rfl
          | ok b =>
            rw [hv] at hc
            rw [stmts_check x hc he]
            cases b with
            | true => exact hk _ hp
            | false => rfl
      cases hn : g.field.ty.size with
      | some n =>
        rw [hn, Option.getD_some] at hM
        exact step _ (getRawField g.field g.off payload)
          (eval_getRawFieldCode x hn (eval_var x hp) hM)
      | none =>
        have := eval_slice x (eval_var x hp) (eval_rangeFrom x (eval_usizeLit x g.off env))
        have h2 := step (.slice (.var .payload) (.rangeFrom (usizeLit g.off)))
          (RawVal.bytes <$> sliceFrom payload g.off) (by
            rw [this]
            show Ev.lift (do return V.bytes (← sliceFrom payload g.off)) env = _
            cases sliceFrom payload g.off <;> rfl)
        rw [h2]
        cases sliceFrom payload g.off <;> rfl

theorem validators_eval {d : Ublox.PackDesc} {payload : Bytes} : ∀ (gs : List Getter) (env : Env W E),
    (∀ g ∈ gs, FieldLinks x g.field ∧ g.off + g.field.ty.size.getD 0 ≤ x.maxUsize) →
    getVar .payload env = some (.bytes payload) →
    resultOf <$> evalStmts x ((gs.flatMap fun g => fieldValidator d.name (fieldCode g.field) g.off) ++
      [.tail (.ok .unit)]) env = resultV <$> runChecks d payload gs
  | [], env, _, _ => by
    simp only [List.flatMap_nil, List.nil_append, runChecks]
    rw [stmts_tail, eval_ok x (eval_unit x env)]
    rfl
  | g :: gs, env, hg, hp => by
    simp only [List.flatMap_cons, List.append_assoc, runChecks]
    rw [validator_eval x (hg g (.head _)).1 (hg g (.head _)).2 hp _ (k := resultV <$> runChecks d payload gs)
      (fun env' h => validators_eval gs env' (fun g h => hg g (.tail _ h)) h)]
    cases g.check payload with
    | error p => rfl
    | ok b => cases b <;> rfl

/-- The structure in which a wrong length is reported. -/
theorem eval_invalidLen {name : String} {e : Expr} {n got : Nat} {env : Env W E}
    (he : e.eval x env = Ev.lift (.ok (.usize n)) env) (hg : getVar .got env = some (.usize got)) :
    (invalidLen name e).eval x env =
      Ev.lift (.ok (resultV (.error (.invalidPacketLen name n got)))) env := by
  rw [invalidLen, eval_err x (eval_struct x (rs := [.ok (.str name), .ok (.usize n), .ok (.usize got)]) _
    (.cons (eval_str x _ _) (.cons he (.cons (eval_var x hg) .nil))))]
  rfl

theorem eval_len {y : Var} {env : Env W E} {bs : Bytes} (h : getVar y env = some (.bytes bs)) :
    (Expr.meth (.var y) .len []).eval x env = Ev.lift (.ok (.usize bs.length)) env :=
  eval_meth x (eval_var x h) rfl (fun z hz => by cases hz; exact h)

theorem code_fieldsSize (fs : List FieldDesc) :
    Syn.fieldsSize (fs.map fieldCode) = Ublox.fieldsSize fs := by
  induction fs with
  | nil => rfl
  | cons f fs ih => simp only [List.map_cons, Syn.fieldsSize, Ublox.fieldsSize, ih, fieldCode]

theorem fieldsSize_append (fs gs : List FieldDesc) : Ublox.fieldsSize (fs ++ gs) =
    (do return (← Ublox.fieldsSize fs) + (← Ublox.fieldsSize gs)) := by
  induction fs with
  | nil => cases h : Ublox.fieldsSize gs <;> simp [Ublox.fieldsSize, h]
  | cons f fs ih =>
    simp only [List.cons_append, Ublox.fieldsSize, ih]
    cases f.ty.size <;> cases Ublox.fieldsSize fs <;> cases Ublox.fieldsSize gs <;> simp
    omega

theorem fieldsSize_reverse (fs : List FieldDesc) :
    Ublox.fieldsSize fs.reverse = Ublox.fieldsSize fs := by
  induction fs with
  | nil => rfl
  | cons f fs ih =>
    rw [List.reverse_cons, fieldsSize_append, ih]
    simp only [Ublox.fieldsSize]
    cases f.ty.size <;> cases Ublox.fieldsSize fs <;> simp
    omega

theorem fieldsSize_le {fs : List FieldDesc} {n : Nat} (h : Ublox.fieldsSize fs = some n) :
    n = (fs.map fun f => f.ty.size.getD 0).sum := by
  induction fs generalizing n with
  | nil => simp [Ublox.fieldsSize] at h; simp [h]
  | cons f fs ih =>
    simp only [Ublox.fieldsSize] at h
    cases hf : f.ty.size with
    | none => simp [hf] at h
    | some a =>
      cases hg : Ublox.fieldsSize fs with
      | none => simp [hf, hg] at h
      | some b =>
        simp [hf, hg] at h
        simp [hf, ← ih hg, h]

theorem fieldsSize_isSome {fs : List FieldDesc} (h : ∀ f ∈ fs, f.ty.size ≠ none) :
    ∃ n, Ublox.fieldsSize fs = some n := by
  induction fs with
  | nil => exact ⟨0, rfl⟩
  | cons f fs ih =>
    obtain ⟨n, hn⟩ := ih fun g hg => h g (.tail _ hg)
    obtain ⟨m, hm⟩ := Option.ne_none_iff_exists'.mp (h f (.head _))
    exact ⟨m + n, by simp [Ublox.fieldsSize, hn, hm]⟩

theorem sum_filter_le (p : FieldDesc → Bool) (fs : List FieldDesc) :
    ((fs.filter p).map fun f => f.ty.size.getD 0).sum ≤ (fs.map fun f => f.ty.size.getD 0).sum := by
  induction fs with
  | nil => simp
  | cons f fs ih =>
    rw [List.filter_cons]
    split <;> simp <;> omega

/-- Only the last field may be of unknown size without a function for it. -/
theorem parse_sized {d : Ublox.PackDesc} (h : d.parse = .ok d) :
    ∀ f ∈ d.fields.dropLast, f.ty.size = none → f.sizeFn.isSome := by
  unfold PackDesc.parse at h
  split at h
  · cases h
  split at h
  · cases h
  split at h
  · cases h
  rename_i hfind
  intro f hf hn
  rw [List.drop_one, List.tail_reverse] at hfind
  have := List.find?_eq_none.mp hfind f (by simpa using hf)
  simp only [hn, Option.isNone_none, Bool.true_and, Option.isNone_iff_eq_none] at this
  exact Option.isSome_iff_ne_none.mpr this

theorem code_sizeFns {fs : List FieldDesc} (h : ∀ f ∈ fs, f.sizeFn.isSome → f.map.isSome) :
    ((fs.map fieldCode).filterMap (·.sizeFn)).map pathText =
      (fs.filterMap (·.sizeFn)).map sizeFnText := by
  induction fs with
  | nil => rfl
  | cons f fs ih =>
    have ih := ih fun g hg => h g (.tail _ hg)
    have hf := fieldCode_sizeFn (h f (.head _))
    simp only [List.map_cons, List.filterMap_cons, hf]
    cases f.sizeFn with
    | none => exact ih
    | some s => simp only [Option.map_some, List.map_cons, ih]; rfl

theorem code_filter {fs : List FieldDesc} (h : ∀ f ∈ fs, f.sizeFn.isSome → f.map.isSome) :
    (fs.map fieldCode).filter (fun f => f.sizeFn.isNone) =
      (fs.filter fun f => f.sizeFn.isNone).map fieldCode := by
  induction fs with
  | nil => rfl
  | cons f fs ih =>
    have ih := ih fun g hg => h g (.tail _ hg)
    have hf := fieldCode_sizeFn (h f (.head _))
    simp only [List.map_cons, List.filter_cons, hf, Option.isNone_map]
    split <;> simp_all

/-- The end of `validate`: the length is compared. -/
theorem compare_eval {d : Ublox.PackDesc} {payload : Bytes} {env : Env W E} {n : Nat} {y : Var}
    {op : BinOp} {b : Bool}
    (hb : binV (W := W) (E := E) x.maxUsize op (.usize payload.length) (.usize n) = .ok (.bool b))
    (hg : ∀ g ∈ d.getters, FieldLinks x g.field ∧ g.off + g.field.ty.size.getD 0 ≤ x.maxUsize)
    (hp : getVar .payload env = some (.bytes payload))
    (hgot : getVar .got env = some (.usize payload.length)) (hy : getVar y env = some (.usize n)) :
    resultOf <$> evalStmts x [.tail (.ite (.bin op (.var .got) (.var y))
      ((d.getters.flatMap fun g => fieldValidator d.name (fieldCode g.field) g.off) ++
        [.tail (.ok .unit)])
      [.tail (invalidLen d.name (.var y))])] env =
    resultV <$> (if b then runChecks d payload d.getters
      else .ok (.error (.invalidPacketLen d.name n payload.length))) := by
  have hc : (Expr.bin op (.var .got) (.var y)).eval x env = Ev.lift (.ok (.bool b)) env := by
    rw [eval_bin x op (eval_var x hgot) (eval_var x hy)]
    exact congrArg (Ev.lift · env) hb
  rw [stmts_tail, eval_ite x hc]
  cases b with
  | true =>
    simp only [if_true]
    rw [resultOf_scoped]
    exact validators_eval x d.getters env hg hp
  | false =>
    simp only [Bool.false_eq_true, if_false]
    rw [resultOf_scoped, stmts_tail, eval_invalidLen x (eval_var x hy) hgot]
    rfl

theorem validateCode_call {d : Ublox.PackDesc} (hacc : d.parse = .ok d)
    (hmap : ∀ f ∈ d.fields, f.sizeFn.isSome → f.map.isSome) (hx : RecvLinks x d)
    (hM : SizesFit x.maxUsize d) :
    ∃ f, validateCode (packetCode d)
        (d.getters.flatMap fun g => fieldValidator d.name (fieldCode g.field) g.off) = .ok f ∧
      f.name = "validate" ∧
      ∀ payload, f.call x [.bytes payload] = resultV <$> d.validate payload := by
  have hg : ∀ g ∈ d.getters, FieldLinks x g.field ∧ g.off + g.field.ty.size.getD 0 ≤ x.maxUsize := by
    intro g hg
    obtain ⟨h1, _, h3⟩ := genGetters_bounds hg
    refine ⟨hx.field h1, ?_⟩
    unfold SizesFit at hM
    simp only [List.length_nil] at h3
    omega
  have hps : (packetCode d).packetPayloadSize = d.packetPayloadSize := code_fieldsSize d.fields
  have hnm : (packetCode d).name = d.name := rfl
  have hsf : ((packetCode d).fields.filterMap (·.sizeFn)).map pathText =
    (d.fields.filterMap (·.sizeFn)).map sizeFnText := code_sizeFns hmap
  have hel : (packetCode d).packetPayloadSizeExceptLastField = d.sizeExceptLast := by
    show Syn.fieldsSize ((d.fields.map fieldCode).reverse.drop 1) = _
    rw [← List.map_reverse, ← List.map_drop, code_fieldsSize, List.drop_one, List.tail_reverse,
      fieldsSize_reverse]
    rfl
  have hes : (packetCode d).packetPayloadSizeExceptSizeFn = d.sizeExceptSizeFn := by
    show Syn.fieldsSize ((d.fields.map fieldCode).filter _) = _
    rw [code_filter hmap, code_fieldsSize]
    rfl
  simp only [validateCode, hps, hnm, hsf, hel, hes]
  cases hsz : d.packetPayloadSize with
  | some n =>
    refine ⟨_, rfl, rfl, fun payload => ?_⟩
    rw [call_eq x rfl]
    show resultOf <$> evalStmts x [letE .expect (usizeLit n), letE .got (.meth (.var .payload) .len []), _]
      [(.payload, .bytes payload)] = _
    rw [letE, letE, stmts_let_lift x (eval_usizeLit x n _)]
    show resultOf <$> evalStmts x _ [(.expect, .usize n), (.payload, .bytes payload)] = _
    rw [stmts_let_lift x (eval_len x (y := .payload) (bs := payload) rfl)]
    show resultOf <$> evalStmts x _ [(.got, .usize payload.length), (.expect, .usize n),
      (.payload, .bytes payload)] = _
    rw [compare_eval x (n := n) (op := .eq) (b := payload.length == n) rfl hg rfl rfl rfl]
    unfold PackDesc.validate
    simp only [hsz, beq_iff_eq]
  | none =>
    simp only [List.isEmpty_map]
    cases hse : (d.fields.filterMap (·.sizeFn)).isEmpty with
    | true =>
      simp only [if_true]
      obtain ⟨n, hn⟩ : ∃ n, d.sizeExceptLast = some n := by
        refine fieldsSize_isSome fun f hf h => ?_
        obtain ⟨s, hs⟩ := Option.isSome_iff_exists.mp (parse_sized hacc f hf h)
        rw [List.isEmpty_iff, List.filterMap_eq_nil_iff] at hse
        exact absurd (hse f (List.dropLast_subset _ hf)) (by simp [hs])
      simp only [hn]
      refine ⟨_, rfl, rfl, fun payload => ?_⟩
      rw [call_eq x rfl]
      show resultOf <$> evalStmts x [letE .got (.meth (.var .payload) .len []), letE .min (usizeLit n), _]
        [(.payload, .bytes payload)] = _
      rw [letE, letE, stmts_let_lift x (eval_len x (y := .payload) (bs := payload) rfl)]
      show resultOf <$> evalStmts x _ [(.got, .usize payload.length), (.payload, .bytes payload)] = _
      rw [stmts_let_lift x (eval_usizeLit x n _)]
      show resultOf <$> evalStmts x _ [(.min, .usize n), (.got, .usize payload.length),
        (.payload, .bytes payload)] = _
      rw [compare_eval x (n := n) (op := .ge) (b := decide (n ≤ payload.length)) rfl hg rfl rfl rfl]
      unfold PackDesc.validate
      simp only [hsz, hse, hn, if_true, decide_eq_true_eq]
    | false =>
      simp only [Bool.false_eq_true, if_false]
      refine ⟨_, rfl, rfl, fun payload => ?_⟩
      generalize hsize : d.sizeExceptSizeFn.getD 0 = size
      have hle : size ≤ (d.fields.map fun f => f.ty.size.getD 0).sum := by
        rw [← hsize]
        cases h : d.sizeExceptSizeFn with
        | none => simp
        | some n =>
          have := fieldsSize_le h
          have h2 := sum_filter_le (fun f => f.sizeFn.isNone) d.fields
          simp only [Option.getD_some]
          omega
      rw [call_eq x rfl]
      show resultOf <$> evalStmts x [letE .got (.meth (.var .payload) .len []), letE .min (.block _), _]
        [(.payload, .bytes payload)] = _
      rw [letE, letE, stmts_let_lift x (eval_len x (y := .payload) (bs := payload) rfl)]
      show resultOf <$> evalStmts x (.let_ false .min "" (.block [.expr (.ite
          (.bin .lt (.var .got) (usizeLit size)) [.return_ (invalidLen d.name (usizeLit size))] []),
          .tail (offsetSum size (.ctor (d.name ++ "Ref") (.var .payload))
            ((d.fields.filterMap (·.sizeFn)).map sizeFnText))]) :: _)
        [(.got, .usize payload.length), (.payload, .bytes payload)] = _
      generalize henv : [(Var.got, V.usize payload.length), (Var.payload, V.bytes (W := W) (E := E) payload)] = env
      have hgot : getVar .got env = some (.usize payload.length) := by rw [← henv]; rfl
      have hp : getVar .payload env = some (.bytes payload) := by rw [← henv]; rfl
      have hlt : (Expr.bin .lt (.var .got) (usizeLit size)).eval x env =
          Ev.lift (.ok (.bool (decide (payload.length < size)))) env := by
        rw [eval_bin x .lt (eval_var x hgot) (eval_usizeLit x size env)]
        rfl
      have hinv : (invalidLen d.name (usizeLit size)).eval x env =
          Ev.lift (.ok (resultV (.error (.invalidPacketLen d.name size payload.length)))) env :=
        eval_invalidLen x (eval_usizeLit x size env) hgot
      have href : (Expr.ctor (d.name ++ "Ref") (.var .payload)).eval x env =
          Ev.lift (.ok (refV d.name payload)) env := by
        rw [eval_ctor x _ (eval_var x hp)]
        rfl
      unfold SizesFit at hM
      have hsum : (offsetSum size (.ctor (d.name ++ "Ref") (.var .payload))
            ((d.fields.filterMap (·.sizeFn)).map sizeFnText)).eval x env =
          Ev.lift (V.usize <$> sumSizeFns d payload size (d.fields.filterMap (·.sizeFn))) env :=
        eval_offsetSum x href (fun y h => by cases h) (d.fields.filterMap FieldDesc.sizeFn) (usizeLit size) size
          (fun s hs => by
            obtain ⟨f, hf, hfs⟩ := List.mem_filterMap.mp hs
            exact hx.sizeFn f hf s hfs)
          (Nat.le_trans (Nat.add_le_add_right hle _) hM) (eval_usizeLit x size env)
      rw [stmts_let]
      unfold PackDesc.validate
      simp only [hsz, hse, hsize, Bool.false_eq_true, if_false]
      by_cases hlen : payload.length < size
      · have hblock : (Expr.block [.expr (.ite
          (.bin .lt (.var .got) (usizeLit size)) [.return_ (invalidLen d.name (usizeLit size))] []),
          .tail (offsetSum size (.ctor (d.name ++ "Ref") (.var .payload))
            ((d.fields.filterMap (·.sizeFn)).map sizeFnText))]).eval x env =
            .ok (.error (resultV (.error (.invalidPacketLen d.name size payload.length))), env) := by
          simp only [Expr.eval, Ev.scoped]
          rw [stmts_check x hlt hinv]
          simp [hlen]
        rw [bind_return hblock, if_pos hlen]
        rfl
      · have hblock : (Expr.block [.expr (.ite
          (.bin .lt (.var .got) (usizeLit size)) [.return_ (invalidLen d.name (usizeLit size))] []),
          .tail (offsetSum size (.ctor (d.name ++ "Ref") (.var .payload))
            ((d.fields.filterMap (·.sizeFn)).map sizeFnText))]).eval x env =
            Ev.lift (V.usize <$> sumSizeFns d payload size (d.fields.filterMap (·.sizeFn))) env := by
          simp only [Expr.eval, Ev.scoped]
          rw [stmts_check x hlt hinv]
          simp only [hlen, decide_false, Bool.false_eq_true, if_false]
          rw [stmts_tail, hsum]
          cases sumSizeFns d payload size (d.fields.filterMap (·.sizeFn)) with
          | error p => rfl
          | ok n => simp [Ev.lift, Functor.map, Except.map]
        rw [bind_lift hblock, if_neg hlen]
        cases sumSizeFns d payload size (d.fields.filterMap (·.sizeFn)) with
        | error p => rfl
        | ok n =>
          show resultOf <$> evalStmts x _ ((.min, .usize n) :: env) = resultV <$> (if _ then _ else _)
          rw [compare_eval x (n := n) (op := .ge) (b := decide (n ≤ payload.length)) rfl hg
            (show getVar .payload ((.min, .usize n) :: env) = _ from hp)
            (show getVar .got ((.min, .usize n) :: env) = _ from hgot) rfl]
          simp only [decide_eq_true_eq]
          rfl

end Ublox.Rust
