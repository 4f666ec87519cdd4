import Verif.Lemmas.CodegenCreate

/-!
# The generated `extend_to` and `into_packet_vec`
-/

namespace Ublox.Rust
open Spec

variable {W E : Type} {α : Type} (x : Externs W E)

/-- `y += e;` -/
theorem stmts_addAssign {y : Var} {e : Expr} {ss : List Stmt} {env env' : Env W E} {u v : V W E}
    {a b : Nat} (he : e.eval x env = .ok (.ok v, env')) (hy : getVar y env' = some u)
    (hu : u.asUsize = .ok a) (hv : v.asUsize = .ok b) :
    evalStmts x (.addAssign y e :: ss) env =
      (uadd x.maxUsize a b >>= fun n => evalStmts x ss (setVar y (.usize n) env')) := by
  have hget : Ev.get y env' = .ok (.ok u, env') := by simp only [Ev.get, hy]
  have hadd : binV x.maxUsize .add u v = (uadd x.maxUsize a b >>= fun n => .ok (.usize n)) := by
    show (u.asUsize >>= fun a => v.asUsize >>= fun b => uadd x.maxUsize a b >>= _) = _
    rw [hu, hv]
    rfl
  rw [stmts_cons x (by intro e h; cases h)]
  cases hn : uadd x.maxUsize a b with
  | error p =>
    rw [hn] at hadd
    refine bind_error ?_
    simp only [Stmt.eval]
    rw [bind_ok he, bind_ok hget, hadd]
    rfl
  | ok n =>
    rw [hn] at hadd
    rw [bind_ok (a := ()) (env' := setVar y (.usize n) env')]
    · rfl
    · simp only [Stmt.eval]
      rw [bind_ok he, bind_ok hget, hadd]
      rfl

/-- `out.extend(core::iter::once(e));` -/
theorem eval_extend {e : Expr} {env : Env W E} {b : UInt8} {o : Bytes} {v : V W E}
    (he : e.eval x env = Ev.lift (.ok v) env) (hb : v.asU8 = .ok b)
    (ho : getVar .out env = some (.bytes o)) :
    (Expr.meth (.var .out) .extend [.call .once [e]]).eval x env =
      .ok (.ok .unit, setVar .out (.bytes (o ++ [b])) env) := by
  have h1 : (Expr.call .once [e]).eval x env = Ev.lift (.ok (.byte b)) env := by
    simp only [Expr.eval]
    rw [bind_ok (eval_args1 x he)]
    show Ev.lift (v.asU8 >>= _) env = _
    rw [hb]
    rfl
  rw [eval_methMut x ho (eval_args1 x h1)]
  rfl

theorem scoped_error {α : Type} {m : Ev W E α} {env : Env W E} {p : Panic} (h : m env = .error p) :
    Ev.scoped m env = .error p := by
  simp only [Ev.scoped, h]

theorem scoped_one {α : Type} {m : Ev W E α} {env env' : Env W E} {b : Var × V W E}
    {r : Except (V W E) α} (h : m env = .ok (r, b :: env')) (hl : env'.length = env.length) :
    Ev.scoped m env = .ok (r, env') := by
  simp only [Ev.scoped, h, List.length_cons, hl]
  rw [Nat.add_sub_cancel_left, List.drop_succ_cons, List.drop_zero]

/-- One round of a loop. -/
def loopBody (x : Externs W E) (y : Var) (body : List Stmt) (v : V W E) : Ev W E Unit :=
  Ev.scoped do
    Ev.push y v
    let _ ← evalStmts x body

theorem loopBody_ok {y : Var} {body : List Stmt} {v u : V W E} {env env' : Env W E}
    (h : evalStmts x body ((y, v) :: env) = .ok (.ok u, (y, v) :: env')) (hl : env'.length = env.length) :
    loopBody x y body v env = .ok (.ok (), env') := by
  refine scoped_one (b := (y, v)) ?_ hl
  rw [bind_ok (a := ()) (env' := (y, v) :: env) rfl]
  exact bind_ok h

theorem loopBody_error {y : Var} {body : List Stmt} {v : V W E} {env : Env W E} {p : Panic}
    (h : evalStmts x body ((y, v) :: env) = .error p) : loopBody x y body v env = .error p := by
  refine scoped_error ?_
  rw [bind_ok (a := ()) (env' := (y, v) :: env) rfl]
  exact bind_error h

theorem stmts_forIn {y : Var} {e : Expr} {body ss : List Stmt} {env : Env W E} {v : V W E}
    {vs : List (V W E)} (he : e.eval x env = .ok (.ok v, env)) (hv : elemsV v = .ok vs) :
    evalStmts x (.forIn y e body :: ss) env =
      (forEach (loopBody x y body) vs >>= fun _ => evalStmts x ss) env := by
  rw [stmts_cons x (by intro e h; cases h)]
  have : (Stmt.forIn y e body).eval x env = forEach (loopBody x y body) vs env := by
    simp only [Stmt.eval]
    rw [bind_ok he, hv]
    rfl
  show Ev.bind _ _ env = Ev.bind _ _ env
  simp only [Ev.bind, this]

theorem extendAll_each {env : Env W E} (bs : Bytes) : ∀ (o : Bytes),
    getVar .out env = some (.bytes o) →
    forEach (loopBody x .b_ [.expr (.meth (.var .out) .extend [.call .once [.deref (.var .b_)]])])
      (bs.map V.byte) env = .ok (.ok (), setVar .out (.bytes (o ++ bs)) env) := by
  induction bs generalizing env with
  | nil =>
    intro o ho
    simp only [List.map_nil, forEach, List.append_nil]
    rw [setVar_self ho]
    rfl
  | cons b bs ih =>
    intro o ho
    simp only [List.map_cons, forEach]
    have ho' : getVar .out ((.b_, .byte b) :: env) = some (.bytes o) := ho
    have hb : (Expr.deref (.var .b_)).eval x ((.b_, .byte b) :: env) =
        Ev.lift (.ok (.byte b)) ((.b_, .byte b) :: env) := by
      simp only [Expr.eval]
      rfl
    have h2 : loopBody x .b_ [.expr (.meth (.var .out) .extend [.call .once [.deref (.var .b_)]])]
        (.byte b) env = .ok (.ok (), setVar .out (.bytes (o ++ [b])) env) := by
      refine loopBody_ok x (u := .unit) ?_ (setVar_length _)
      exact (stmts_expr_ok x (eval_extend x hb rfl ho')).trans rfl
    rw [bind_ok h2, ih (o ++ [b]) (getVar_set ho), setVar_setVar]
    simp

/-- `for b in y.iter() { out.extend(core::iter::once(*b)); }` -/
theorem stmts_extendAll {y : Var} {ss : List Stmt} {env : Env W E} {bs o : Bytes}
    (hy : getVar y env = some (.bytes bs)) (ho : getVar .out env = some (.bytes o)) :
    evalStmts x (extendAll y :: ss) env = evalStmts x ss (setVar .out (.bytes (o ++ bs)) env) := by
  have hi : (Expr.meth (.var y) .iter []).eval x env = .ok (.ok (.bytes bs), env) := by
    rw [eval_methMut x (m := .iter) hy rfl]
    show Except.ok (_, setVar y (.bytes bs) env) = _
    rw [setVar_self hy]
  rw [extendAll, stmts_forIn x hi (vs := bs.map V.byte) rfl, bind_ok (extendAll_each x bs o ho)]

/-- The output and the length after the fields. -/
def ExtendState (o : Bytes) (len : Nat) (env : Env W E) : Prop :=
  getVar .out env = some (.bytes o) ∧ ∃ l, getVar .lenBytes env = some l ∧ l.asUsize = .ok len

theorem extendIter_each (hx : ∀ (c : CfgVal) (o : Bytes), x.methodMut (.cfgVal c) "extend_to" (.bytes o) =
      (fun p => (.usize p.2, .bytes p.1)) <$> c.extendTo o) :
    ∀ (cs : List CfgVal) (o : Bytes) (len : Nat) (env : Env W E), ExtendState o len env →
    match extendCfgVals x.maxUsize cs o len with
    | .error p => forEach (loopBody x .f_
        [.addAssign .lenBytes (.callMut (.var .f_) "extend_to" false .out)]) (cs.map V.cfgVal) env = .error p
    | .ok (o, len) => ∃ env', ExtendState o len env' ∧ forEach (loopBody x .f_
        [.addAssign .lenBytes (.callMut (.var .f_) "extend_to" false .out)]) (cs.map V.cfgVal) env =
          .ok (.ok (), env')
  | [], o, len, env, h => by
    simp only [extendCfgVals]
    exact ⟨env, h, rfl⟩
  | c :: cs, o, len, env, h => by
    obtain ⟨ho, l, hl, hlen⟩ := h
    simp only [List.map_cons, forEach, extendCfgVals]
    have hcall : (Expr.callMut (.var .f_) "extend_to" false .out).eval x ((.f_, .cfgVal c) :: env) =
        (c.extendTo o >>= fun p =>
          .ok (.ok (.usize p.2), setVar .out (.bytes p.1) ((.f_, .cfgVal c) :: env))) := by
      simp only [Expr.eval]
      have hget : Ev.get .f_ ((.f_, .cfgVal c) :: env) =
        .ok (.ok (V.cfgVal (W := W) (E := E) c), ((.f_, .cfgVal c) :: env)) := rfl
      have hgeto : Ev.get .out ((.f_, .cfgVal c) :: env) =
          .ok (.ok (V.bytes (W := W) (E := E) o), ((.f_, .cfgVal c) :: env)) := by
        have : getVar .out ((.f_, .cfgVal c) :: env) = some (.bytes o) := ho
        simp only [Ev.get, this]
      rw [bind_ok hget, bind_ok hgeto, hx]
      cases c.extendTo o with
      | error p => rfl
      | ok p => rfl
    cases hc : c.extendTo o with
    | error p =>
      rw [hc] at hcall
      show (_ >>= _ : Ev W E Unit) env = _
      refine bind_error (loopBody_error x ?_)
      rw [stmts_cons x (by intro e h; cases h)]
      refine bind_error ?_
      simp only [Stmt.eval]
      exact bind_error (hcall.trans rfl)
    | ok q =>
      obtain ⟨o', n⟩ := q
      rw [hc] at hcall
      simp only [okBind]
      have hl' : getVar .lenBytes (setVar .out (.bytes o') ((.f_, .cfgVal c) :: env)) = some l := by
        rw [getVar_set_ne (by decide)]
        exact hl
      have hstm := stmts_addAssign x (ss := []) (hcall.trans (okBind _ _)) hl' hlen (b := n) rfl
      cases hu : uadd x.maxUsize len n with
      | error p =>
        rw [hu] at hstm
        show (_ >>= _ : Ev W E Unit) env = _
        exact bind_error (loopBody_error x (hstm.trans rfl))
      | ok len' =>
        rw [hu] at hstm
        simp only [okBind]
        have h2 : loopBody x .f_ [.addAssign .lenBytes (.callMut (.var .f_) "extend_to" false .out)]
            (.cfgVal c) env =
            .ok (.ok (), setVar .lenBytes (.usize len') (setVar .out (.bytes o') env)) :=
          loopBody_ok x (u := .unit) (hstm.trans rfl) ((setVar_length _).trans (setVar_length _))
        have hst : ExtendState o' len' (setVar .lenBytes (.usize len') (setVar .out (.bytes o') env)) := by
          refine ⟨(getVar_set_ne (by decide)).trans (getVar_set ho), .usize len', ?_, rfl⟩
          exact getVar_set ((getVar_set_ne (by decide)).trans hl)
        have := extendIter_each hx cs o' len' _ hst
        rw [bind_ok h2]
        exact this

theorem extendFields_eval {B : V W E} {ss : List Stmt} (obs : Except (V W E) (V W E) × Env W E → α)
    {k : Bytes → Nat → R α}
    (hc : ∀ (c : CfgVal) (o : Bytes), x.methodMut (.cfgVal c) "extend_to" (.bytes o) =
      (fun p => (.usize p.2, .bytes p.1)) <$> c.extendTo o)
    (hk : ∀ env o len, ExtendState o len env → obs <$> evalStmts x ss env = k o len) :
    ∀ (fs : List FieldDesc) (vs : Builder) (o : Bytes) (len : Nat) (env : Env W E),
      BuilderTyped fs vs → (∀ p ∈ fs.zip vs, HasField B p.1 p.2) → (∀ f ∈ fs, IntoLinks x f) →
      (∀ f ∈ fs.dropLast, f.ty.size ≠ none) →
      getVar .self_ env = some B → ExtendState o len env →
      obs <$> evalStmts x ((fs.flatMap fun f =>
        if f.ty.size.isSome then extendFieldCode (fieldCode f) else extendIterCode (fieldCode f)) ++ ss) env =
        (extendFields x.maxUsize fs vs o len >>= fun p => k p.1 p.2)
  | [], _, o, len, env, .nil, _, _, _, _, h => hk env o len h
  | f :: fs, v :: vs, o, len, env, .cons ht hts, hf, hx, hs, hself, h => by
    cases hn : f.ty.size with
    | none =>
      cases fs with
      | cons g fs => exact absurd hn (hs f (by simp))
      | nil =>
        cases hts
        simp only [FieldTyped, hn] at ht
        obtain ⟨cs, rfl⟩ := ht
        simp only [List.flatMap_cons, List.flatMap_nil, List.append_nil, hn, Option.isSome_none,
          Bool.false_eq_true, if_false, extendIterCode, List.cons_append, List.nil_append]
        simp only [extendFields, hn]
        have hfield : (Expr.field (.var .self_) (fieldCode f).intermediateFieldName).eval x env =
            .ok (.ok (.val (.cfgVals cs)), env) := by
          rw [eval_field x _ (eval_var x hself)]
          exact congrArg (Ev.lift · env) (hf (f, .cfgVals cs) (by simp))
        rw [stmts_forIn x hfield (vs := cs.map V.cfgVal) rfl]
        have hit := extendIter_each x hc cs o len env h
        cases he : extendCfgVals x.maxUsize cs o len with
        | error p =>
          rw [he] at hit
          rw [bind_error hit]
          rfl
        | ok q =>
          rw [he] at hit
          obtain ⟨env', hst, hev⟩ := hit
          rw [bind_ok hev]
          exact hk env' q.1 q.2 hst
    | some n =>
      obtain ⟨ho, l, hl, hlen⟩ := h
      simp only [List.flatMap_cons, hn, Option.isSome_some, if_true, extendFieldCode, List.cons_append,
        List.nil_append]
      rw [stmts_bytesCode x hn hself (hf (f, v) (by simp)) ht (hx f (.head _))]
      simp only [extendFields, hn]
      cases f.bytes v with
      | error p => rfl
      | ok bytes =>
        rw [okBind, okBind]
        have hlb : (Expr.meth (.var .bytes) .len []).eval x ((.bytes, .bytes bytes) :: env) =
          .ok (.ok (.usize bytes.length), (.bytes, .bytes bytes) :: env) :=
          (eval_methMut x (m := .len) (y := .bytes) (v := .bytes bytes) rfl rfl).trans rfl
        have hl' : getVar .lenBytes ((.bytes, .bytes bytes) :: env) = some l := hl
        rw [stmts_addAssign x hlb hl' hlen rfl]
        cases uadd x.maxUsize len bytes.length with
        | error p => rfl
        | ok len' =>
          rw [okBind, okBind]
          have hb : getVar .bytes (setVar .lenBytes (.usize len') ((.bytes, .bytes bytes) :: env)) =
            some (V.bytes (W := W) (E := E) bytes) := rfl
          have ho' : getVar .out (setVar .lenBytes (.usize len') ((.bytes, .bytes bytes) :: env)) =
              some (.bytes o) := by
            rw [getVar_set_ne (by decide)]
            exact ho
          have hs' : getVar .self_ (setVar .lenBytes (.usize len') ((.bytes, .bytes bytes) :: env)) =
              some B := by
            rw [getVar_set_ne (by decide)]
            exact hself
          rw [stmts_extendAll x hb ho']
          have hd : ∀ g ∈ fs.dropLast, g.ty.size ≠ none := by
            intro g hg
            cases fs with
            | nil => cases hg
            | cons a fs => exact hs g (by rw [List.dropLast_cons_of_ne_nil (by simp)]; exact .tail _ hg)
          refine extendFields_eval obs hc hk fs vs (o ++ bytes) len' _ hts
            (fun p hp => hf p (by simp [hp])) (fun f h => hx f (.tail _ h)) hd
            ((getVar_set_ne (by decide)).trans hs') ⟨getVar_set ho', .usize len', ?_, rfl⟩
          exact (getVar_set_ne (by decide)).trans (getVar_set hl')

theorem meth_lenToLe {l : V W E} {n : Nat} (h : l.asUsize = .ok n) :
    methV x .toLeBytes l [] = .ok (.bytes (natToLe n (2 + x.usizeRest)), l) := by
  cases l <;> simp only [V.asUsize, reduceCtorEq, Except.ok.injEq] at h
  all_goals subst h; rfl

theorem natToLe_two (n k : Nat) :
    ∃ rest, natToLe n (2 + k) = UInt8.ofNat n :: UInt8.ofNat (n / 256) :: rest := by
  rw [Nat.add_comm]
  exact ⟨_, rfl⟩

theorem extendToCode_run {d : Ublox.PackDesc} {b : Builder} {B : V W E} (out : Bytes)
    (hsz : d.packetPayloadSize = none) (hb : d.hasBuilder = true) (hx : SendLinks x d)
    (hc : ∀ (c : CfgVal) (o : Bytes), x.methodMut (.cfgVal c) "extend_to" (.bytes o) =
      (fun p => (.usize p.2, .bytes p.1)) <$> c.extendTo o)
    (ht : BuilderTyped d.fields b) (hf : ∀ p ∈ d.fields.zip b, HasField B p.1 p.2)
    (hs : ∀ f ∈ d.fields.dropLast, f.ty.size ≠ none) :
    outObs <$> evalStmts x (extendToCode d.name (d.fields.flatMap fun f =>
        if f.ty.size.isSome then extendFieldCode (fieldCode f) else extendIterCode (fieldCode f))).body
        [(.out, .bytes out), (.self_, B)] =
      (fun o => (.unit, some (.bytes o))) <$> d.extendTo x.maxUsize b out := by
  unfold PackDesc.extendTo
  simp only [hsz, hb, not_true_eq_false, if_false]
  simp only [extendToCode, List.cons_append, List.nil_append]
  rw [show SYNC_CHAR_1 = 0xb5 from rfl, show SYNC_CHAR_2 = 0x62 from rfl]
  have hend : ∀ (env : Env W E) (o : Bytes) (len : Nat), ExtendState o len env →
      outObs <$> evalStmts x
        [letE .lenBytes (.meth (.var .lenBytes) .toLeBytes []),
         .setIndex .out (.int 4) (.index (.var .lenBytes) (.int 0)),
         .setIndex .out (.int 5) (.index (.var .lenBytes) (.int 1)),
         .letPair .ckA .ckB (.call .ubxChecksum [.slice (.var .out) (.rangeFrom (.int 2))]),
         .expr (.meth (.var .out) .extend [.call .once [.var .ckA]]),
         .expr (.meth (.var .out) .extend [.call .once [.var .ckB]])] env =
      (do
        let o ← setByte o 4 (UInt8.ofNat len)
        let o ← setByte o 5 (UInt8.ofNat (len / 256))
        let s ← sliceFrom o 2
        .ok (.unit, some (.bytes (o ++ [(Ublox.ubxChecksum s).1] ++ [(Ublox.ubxChecksum s).2])))) := by
    rintro env o len ⟨ho, l, hl, hlen⟩
    obtain ⟨rest, hrest⟩ := natToLe_two len x.usizeRest
    have hle : (Expr.meth (.var .lenBytes) .toLeBytes []).eval x env =
        Ev.lift (.ok (.bytes (UInt8.ofNat len :: UInt8.ofNat (len / 256) :: rest))) env := by
      rw [eval_methMut x (m := .toLeBytes) hl rfl, meth_lenToLe x hlen, hrest]
      show Except.ok (_, setVar .lenBytes l env) = _
      rw [setVar_self hl]
      rfl
    rw [letE, stmts_let_ok x hle]
    have ho1 : getVar .out ((.lenBytes, .bytes (UInt8.ofNat len :: UInt8.ofNat (len / 256) :: rest)) :: env) =
      some (.bytes o) := ho
    rw [setIndex_step x (n := 4) (eval_indexInt x (y := .lenBytes)
      (bs := UInt8.ofNat len :: UInt8.ofNat (len / 256) :: rest) (b := UInt8.ofNat len) rfl rfl)
      (eval_int x 4 _) rfl ho1]
    cases setByte o 4 (UInt8.ofNat len) with
    | error p => rfl
    | ok o1 =>
      rw [okBind, okBind]
      have ho2 : getVar .out (setVar .out (.bytes o1)
          ((.lenBytes, .bytes (UInt8.ofNat len :: UInt8.ofNat (len / 256) :: rest)) :: env)) =
        some (.bytes o1) := getVar_set ho1
      rw [setIndex_step x (n := 5) (eval_indexInt x (y := .lenBytes)
        (bs := UInt8.ofNat len :: UInt8.ofNat (len / 256) :: rest) (b := UInt8.ofNat (len / 256)) rfl rfl)
        (eval_int x 5 _) rfl ho2]
      cases setByte o1 5 (UInt8.ofNat (len / 256)) with
      | error p => rfl
      | ok o2 =>
        rw [okBind, okBind, setVar_setVar]
        have ho3 : getVar .out (setVar .out (.bytes o2)
          ((.lenBytes, .bytes (UInt8.ofNat len :: UInt8.ofNat (len / 256) :: rest)) :: env)) =
          some (.bytes o2) := getVar_set ho1
        generalize hE : setVar .out (.bytes o2)
          ((.lenBytes, .bytes (UInt8.ofNat len :: UInt8.ofNat (len / 256) :: rest)) :: env) = env3 at ho3 ⊢
        have hsl : (Expr.slice (.var .out) (.rangeFrom (.int 2))).eval x env3 =
            Ev.lift (sliceFrom o2 2 >>= fun s => .ok (.bytes s)) env3 := by
          rw [eval_slice x (eval_var x ho3) (eval_rangeFrom x (eval_int x 2 _))]
          rfl
        cases hs2 : sliceFrom o2 2 with
        | error p =>
          rw [hs2] at hsl
          rw [stmts_cons x (by intro e h; cases h), bind_error (p := p)]
          · rfl
          · simp only [Stmt.eval]
            refine bind_error ?_
            simp only [Expr.eval, evalExprs]
            refine bind_error (bind_error (hsl.trans rfl))
        | ok s =>
          rw [hs2] at hsl
          have hck : (Expr.call .ubxChecksum [.slice (.var .out) (.rangeFrom (.int 2))]).eval x env3 =
              .ok (.ok (.pair (.byte (Ublox.ubxChecksum s).1) (.byte (Ublox.ubxChecksum s).2)), env3) := by
            simp only [Expr.eval]
            rw [bind_ok (eval_args1 x (hsl.trans rfl))]
            rfl
          rw [stmts_letPair x hck, okBind]
          have ho4 : getVar .out ((.ckB, .byte (Ublox.ubxChecksum s).2) ::
            (.ckA, .byte (Ublox.ubxChecksum s).1) :: env3) = some (.bytes o2) := ho3
          rw [stmts_expr_ok x (eval_extend x (b := (Ublox.ubxChecksum s).1)
            (eval_var x (y := .ckA) rfl) rfl ho4)]
          rw [stmts_expr_ok x (eval_extend x (b := (Ublox.ubxChecksum s).2)
            (eval_var x (y := .ckB) (v := .byte (Ublox.ubxChecksum s).2) rfl) rfl (getVar_set ho4))]
          show Except.ok (outObs (.ok .unit, setVar _ _ _)) = _
          simp only [outObs, resultOf, getVar_set (getVar_set ho4)]
  have hmod : ∀ r : R (Bytes × Nat), (fun o => ((V.unit : V W E), some (V.bytes o : V W E))) <$> (r >>= fun q => (do
        let o ← setByte q.1 4 (UInt8.ofNat q.2)
        let o ← setByte o 5 (UInt8.ofNat (q.2 / 256))
        let s ← sliceFrom o 2
        pure (o ++ [(Ublox.ubxChecksum s).1] ++ [(Ublox.ubxChecksum s).2]))) =
      (r >>= fun q => do
        let o ← setByte q.1 4 (UInt8.ofNat q.2)
        let o ← setByte o 5 (UInt8.ofNat (q.2 / 256))
        let s ← sliceFrom o 2
        .ok ((V.unit : V W E), some (V.bytes (o ++ [(Ublox.ubxChecksum s).1] ++
          [(Ublox.ubxChecksum s).2]) : V W E))) := by
    intro r
    cases r with
    | error p => rfl
    | ok q =>
      simp only [okBind]
      cases setByte q.1 4 (UInt8.ofNat q.2) with
      | error p => rfl
      | ok o =>
        simp only [okBind]
        cases setByte o 5 (UInt8.ofNat (q.2 / 256)) with
        | error p => rfl
        | ok o =>
          simp only [okBind]
          cases sliceFrom o 2 <;> rfl
  refine Eq.trans ?_ (hmod _).symm
  rw [stmts_let_ok x (eval_int x 0 _), letE]
  rw [stmts_let_ok x (eval_header x hx.sync1 hx.sync2 hx.cls hx.id (eval_int x 0 _) (eval_int x 0 _)
    (a := 0) (b := 0) rfl rfl)]
  rw [stmts_extendAll x (y := .header) (bs := [0xb5, 0x62, d.cls, d.id, 0, 0]) (o := out) rfl rfl]
  exact extendFields_eval x outObs hc hend d.fields b _ 0 _ ht hf
    (fun f hf c hc v hv => hx.intoFn f hf c hc v hv) hs rfl ⟨rfl, .int 0, rfl, rfl⟩

theorem intoPacketVecCode_call {B : V W E} {r : R Bytes}
    (h : x.methodMut B "extend_to" (.bytes []) = (fun o => (.unit, .bytes o)) <$> r) :
    intoPacketVecCode.call x [B] = V.bytes <$> r := by
  have hcall : (Expr.callMut (.var .self_) "extend_to" true .vec).eval x
      [(.vec, .bytes []), (.self_, B)] = (r >>= fun o =>
        .ok (.ok .unit, [(.vec, .bytes o), (.self_, B)])) := by
    simp only [Expr.eval]
    have h1 : Ev.get .self_ [(.vec, .bytes []), (.self_, B)] =
      .ok (.ok B, [(.vec, .bytes []), (.self_, B)]) := rfl
    have h2 : Ev.get .vec [(.vec, .bytes []), (.self_, B)] =
      .ok (.ok (V.bytes (W := W) (E := E) []), [(.vec, .bytes []), (.self_, B)]) := rfl
    rw [bind_ok h1, bind_ok h2, h]
    cases r <;> rfl
  rw [call_eq x rfl]
  show resultOf <$> evalStmts x intoPacketVecCode.body [(.self_, B)] = _
  simp only [intoPacketVecCode]
  rw [stmts_let_ok x (v := .bytes []) (by simp only [Expr.eval, evalExprs]; rfl)]
  cases r with
  | error p =>
    rw [stmts_expr_error x (hcall.trans rfl)]
    rfl
  | ok o =>
    rw [stmts_expr_ok x (hcall.trans rfl), stmts_tail]
    rfl

theorem fromBuilderCode_call {name : String} {B : V W E} {r : R (V W E)}
    (h : x.method B "into_packet_bytes" = r) : (fromBuilderCode name).call x [B] = r := by
  rw [call_eq x rfl]
  show resultOf <$> evalStmts x (fromBuilderCode name).body [(.x_, B)] = _
  simp only [fromBuilderCode]
  rw [stmts_tail, eval_methMut x (m := .user "into_packet_bytes") (v := B) rfl rfl]
  show resultOf <$> (_ <$> (x.method B "into_packet_bytes" >>= _)) = _
  rw [h]
  cases r <;> rfl

end Ublox.Rust
