import Verif.Lemmas.CodegenSend

/-!
# The generated `create_packet`
-/

namespace Ublox.Rust
open Spec

variable {W E : Type} {α : Type} (x : Externs W E)

/-- A method that may change the variable that it is called on. -/
theorem eval_methMut {y : Var} {m : Meth} {args : List Expr} {vals : List (V W E)} {v : V W E}
    {env : Env W E} (hy : getVar y env = some v)
    (ha : evalExprs x args env = Ev.lift (.ok vals) env) :
    (Expr.meth (.var y) m args).eval x env =
      (fun p => (.ok p.1, setVar y p.2 env)) <$> methV x m v vals := by
  simp only [Expr.eval]
  have hget : Ev.get y env = .ok (.ok v, env) := by simp only [Ev.get, hy]
  rw [bind_ok hget, bind_ok ha, lift_bind]
  cases methV x m v vals with
  | error p => rfl
  | ok p => rfl

theorem eval_args1 {e : Expr} {v : V W E} {env : Env W E} (h : e.eval x env = Ev.lift (.ok v) env) :
    evalExprs x [e] env = Ev.lift (.ok [v]) env :=
  (evalExprs_lift x (.cons h .nil)).trans rfl

theorem stmts_try_ok {e : Expr} {ss : List Stmt} {env env' : Env W E} {v : V W E}
    (h : e.eval x env = .ok (.ok (.ok v), env')) :
    evalStmts x (.expr (.try_ e) :: ss) env = evalStmts x ss env' := by
  refine stmts_expr_ok x (v := v) ?_
  simp only [Expr.eval]
  rw [bind_ok h]
  rfl

theorem stmts_try_err {e : Expr} {ss : List Stmt} {env env' : Env W E} {v : V W E}
    (h : e.eval x env = .ok (.ok (.err v), env')) :
    evalStmts x (.expr (.try_ e) :: ss) env = .ok (.error (.err v), env') := by
  refine stmts_expr_return x ?_
  simp only [Expr.eval]
  rw [bind_ok h]
  rfl

theorem stmts_try_panic {e : Expr} {ss : List Stmt} {env : Env W E} {p : Panic}
    (h : e.eval x env = .error p) : evalStmts x (.expr (.try_ e) :: ss) env = .error p := by
  refine stmts_expr_error x ?_
  simp only [Expr.eval]
  exact bind_error h

/-- What is seen of a call: the result and the writer. -/
def outObs (q : Except (V W E) (V W E) × Env W E) : V W E × Option (V W E) :=
  (resultOf q, getVar .out q.2)

/-- What follows an operation of the writer. -/
def afterWrite (k : W → R (V W E × Option (V W E))) :
    Except E Unit × W → R (V W E × Option (V W E))
  | (.ok (), w) => k w
  | (.error e, w) => .ok (.err (.writerError e), some (.writer w))

theorem stmts_writer {e : Expr} {ss : List Stmt} {env : Env W E} {m : Meth} {v : V W E} {w : W}
    {r : R (Except E Unit × W)} {k : W → R (V W E × Option (V W E))}
    (hm : methV x m (.writer w) [v] = (r >>= fun
      | (.ok (), w) => .ok (.ok .unit, .writer w)
      | (.error e, w) => .ok (.err (.writerError e), .writer w)))
    (he : e.eval x env = Ev.lift (.ok v) env) (hw : getVar .out env = some (.writer w))
    (hk : ∀ w', outObs <$> evalStmts x ss (setVar .out (.writer w') env) = k w') :
    outObs <$> evalStmts x (.expr (.try_ (.meth (.var .out) m [e])) :: ss) env =
      (r >>= afterWrite k) := by
  have h := eval_methMut x (m := m) hw (eval_args1 x he)
  rw [hm] at h
  cases r with
  | error p =>
    rw [stmts_try_panic x (h.trans rfl)]
    rfl
  | ok q =>
    obtain ⟨r, w'⟩ := q
    cases r with
    | ok u =>
      rw [stmts_try_ok x (h.trans rfl)]
      exact hk w'
    | error e =>
      rw [stmts_try_err x (h.trans rfl)]
      show Except.ok (outObs _) = Except.ok _
      simp only [outObs, resultOf, getVar_set hw]

theorem methV_write (w : W) (bs : Bytes) :
    methV x .write (.writer w) [.bytes bs] = (x.writer.write w bs >>= fun
      | (.ok (), w) => .ok (.ok .unit, .writer w)
      | (.error e, w) => .ok (.err (.writerError e), .writer w)) := by
  show (x.writer.write w bs >>= _) = _
  cases x.writer.write w bs with
  | error p => rfl
  | ok q =>
    obtain ⟨r, w'⟩ := q
    cases r <;> rfl

theorem methV_reserve (w : W) (n : Nat) :
    methV x .reserveAllocate (.writer w) [.usize n] = (x.writer.reserveAllocate w n >>= fun
      | (.ok (), w) => .ok (.ok .unit, .writer w)
      | (.error e, w) => .ok (.err (.writerError e), .writer w)) := by
  show (x.writer.reserveAllocate w n >>= _) = _
  cases x.writer.reserveAllocate w n with
  | error p => rfl
  | ok q =>
    obtain ⟨r, w'⟩ := q
    cases r <;> rfl

/-- `checksum_calc.update(e);` -/
theorem stmts_update {e : Expr} {ss : List Stmt} {env : Env W E} {ck : ChecksumCalc} {bs : Bytes}
    (he : e.eval x env = Ev.lift (.ok (.bytes bs)) env)
    (hc : getVar .checksumCalc env = some (.calc ck)) :
    evalStmts x (.expr (.meth (.var .checksumCalc) .update [e]) :: ss) env =
      evalStmts x ss (setVar .checksumCalc (.calc (ck.update bs)) env) :=
  stmts_expr_ok x ((eval_methMut x (m := .update) hc (eval_args1 x he)).trans rfl)

/-- What follows the fields. -/
def afterFields (k : ChecksumCalc → W → R (V W E × Option (V W E))) :
    Except E ChecksumCalc × W → R (V W E × Option (V W E))
  | (.ok ck, w) => k ck w
  | (.error e, w) => .ok (.err (.writerError e), some (.writer w))

theorem writeFields_eval {B : V W E} {ss : List Stmt}
    {k : ChecksumCalc → W → R (V W E × Option (V W E))}
    (hk : ∀ env w ck, getVar .out env = some (.writer w) →
      getVar .checksumCalc env = some (.calc ck) → outObs <$> evalStmts x ss env = k ck w) :
    ∀ (fs : List FieldDesc) (vs : Builder) (w : W) (ck : ChecksumCalc) (env : Env W E),
      BuilderTyped fs vs → (∀ p ∈ fs.zip vs, HasField B p.1 p.2) → (∀ f ∈ fs, IntoLinks x f) →
      (∀ f ∈ fs, f.ty.size ≠ none) →
      getVar .self_ env = some B → getVar .out env = some (.writer w) →
      getVar .checksumCalc env = some (.calc ck) →
      outObs <$> evalStmts x ((fs.flatMap fun f => writeFieldCode (fieldCode f)) ++ ss) env =
        (x.writer.writeFields fs vs w ck >>= afterFields k)
  | [], _, w, ck, env, .nil, _, _, _, _, hw, hc => hk env w ck hw hc
  | f :: fs, v :: vs, w, ck, env, .cons ht hts, hf, hx, hs, hself, hw, hc => by
    obtain ⟨n, hn⟩ := Option.ne_none_iff_exists'.mp (hs f (.head _))
    simp only [List.flatMap_cons, List.append_assoc]
    simp only [writeFieldCode, List.cons_append, List.nil_append]
    rw [stmts_bytesCode x hn hself (hf (f, v) (by simp)) ht (hx f (.head _))]
    simp only [MemWriter.writeFields]
    cases f.bytes v with
    | error p => rfl
    | ok bytes =>
      rw [okBind, okBind]
      have hw' : getVar .out ((.bytes, .bytes bytes) :: env) = some (.writer w) := hw
      rw [stmts_writer x (methV_write x w bytes)
        ((eval_ref x).trans (eval_var x (y := .bytes) (v := .bytes bytes) rfl)) hw'
        (k := fun w => x.writer.writeFields fs vs w (ck.update bytes) >>= afterFields k)]
      · cases x.writer.write w bytes with
        | error p => rfl
        | ok q =>
          obtain ⟨r, w'⟩ := q
          cases r <;> rfl
      · intro w'
        have hb : getVar .bytes (setVar .out (.writer w') ((.bytes, .bytes bytes) :: env)) =
            some (V.bytes (W := W) (E := E) bytes) := rfl
        have hc' : getVar .checksumCalc (setVar .out (.writer w') ((.bytes, .bytes bytes) :: env)) =
            some (.calc ck) := by
          rw [getVar_set_ne (by decide)]
          exact hc
        have hs' : getVar .self_ (setVar .out (.writer w') ((.bytes, .bytes bytes) :: env)) = some B := by
          rw [getVar_set_ne (by decide)]
          exact hself
        have ho' : getVar .out (setVar .out (.writer w') ((.bytes, .bytes bytes) :: env)) =
          some (.writer w') := getVar_set hw'
        rw [stmts_update x ((eval_ref x).trans (eval_var x hb)) hc']
        exact writeFields_eval hk fs vs w' (ck.update bytes) _ hts (fun p hp => hf p (by simp [hp]))
          (fun f h => hx f (.tail _ h)) (fun f h => hs f (.tail _ h))
          ((getVar_set_ne (by decide)).trans hs') ((getVar_set_ne (by decide)).trans ho')
          (getVar_set hc')

/-- The first bytes of a packet. -/
theorem eval_header {name : String} {c1 c2 c3 c4 a b : UInt8} {ea eb : Expr} {env : Env W E}
    {va vb : V W E}
    (h1 : x.const "SYNC_CHAR_1" = .ok (.byte c1)) (h2 : x.const "SYNC_CHAR_2" = .ok (.byte c2))
    (h3 : x.const (name ++ "::CLASS") = .ok (.byte c3)) (h4 : x.const (name ++ "::ID") = .ok (.byte c4))
    (ha : ea.eval x env = Ev.lift (.ok va) env) (hb : eb.eval x env = Ev.lift (.ok vb) env)
    (ha' : va.asU8 = .ok a) (hb' : vb.asU8 = .ok b) :
    (Expr.array [.const "SYNC_CHAR_1", .const "SYNC_CHAR_2", .const (name ++ "::CLASS"),
      .const (name ++ "::ID"), ea, eb]).eval x env =
      Ev.lift (.ok (.bytes [c1, c2, c3, c4, a, b])) env := by
  rw [eval_array x (.cons (eval_constOk x h1 env) (.cons (eval_constOk x h2 env)
    (.cons (eval_constOk x h3 env) (.cons (eval_constOk x h4 env) (.cons ha (.cons hb .nil))))))]
  show Ev.lift (.ok (arrayV _)) env = _
  have hbyte : ∀ c : UInt8, (V.byte c : V W E).asU8 = .ok c := fun _ => rfl
  simp only [arrayV, bytesOf, ha', hb', hbyte]
  rfl

theorem createPacketCode_run {d : Ublox.PackDesc} {b : Builder} {size : Nat} {B : V W E} (w : W)
    (hsz : d.packetPayloadSize = some size) (hlt : size < 65536) (hb : d.hasBuilder = true)
    (hx : SendLinks x d)
    (ht : BuilderTyped d.fields b) (hf : ∀ p ∈ d.fields.zip b, HasField B p.1 p.2)
    (hs : ∀ f ∈ d.fields, f.ty.size ≠ none) :
    outObs <$> evalStmts x (createPacketCode d.name size
        (d.fields.flatMap fun f => writeFieldCode (fieldCode f))).body [(.out, .writer w), (.self_, B)] =
      (fun p => (writeResultV p.1, some (.writer p.2))) <$> d.createPacket x.writer b w := by
  unfold PackDesc.createPacket
  simp only [hsz, hb, not_true_eq_false, false_or, Nat.not_le.mpr hlt, if_false]
  simp only [createPacketCode, List.cons_append, List.nil_append]
  rw [show SYNC_CHAR_1 = 0xb5 from rfl, show SYNC_CHAR_2 = 0x62 from rfl]
  -- the fields and the checksum
  have hend : ∀ (env : Env W E) (w : W) (ck : ChecksumCalc), getVar .out env = some (.writer w) →
      getVar .checksumCalc env = some (.calc ck) →
      outObs <$> evalStmts x [.letPair .ckA .ckB (.meth (.var .checksumCalc) .result []),
        .expr (.try_ (.meth (.var .out) .write [.ref (.array [.var .ckA, .var .ckB])])),
        .tail (.ok .unit)] env =
      (x.writer.write w [ck.result.1, ck.result.2] >>=
        afterWrite fun w => .ok (.ok .unit, some (.writer w))) := by
    intro env w ck hw hc
    have hres : (Expr.meth (.var .checksumCalc) .result []).eval x env =
        .ok (.ok (.pair (.byte ck.result.1) (.byte ck.result.2)), setVar .checksumCalc (.calc ck) env) :=
      (eval_methMut x (m := .result) hc rfl).trans rfl
    rw [setVar_self hc] at hres
    rw [stmts_letPair x hres]
    have hw' : getVar .out ((.ckB, .byte ck.result.2) :: (.ckA, .byte ck.result.1) :: env) =
      some (.writer w) := hw
    have harr : (Expr.ref (.array [.var .ckA, .var .ckB])).eval x
        ((.ckB, .byte ck.result.2) :: (.ckA, .byte ck.result.1) :: env) =
        Ev.lift (.ok (.bytes [ck.result.1, ck.result.2]))
          ((.ckB, .byte ck.result.2) :: (.ckA, .byte ck.result.1) :: env) := by
      rw [eval_ref, eval_array x (.cons (eval_var x (y := .ckA) (v := .byte ck.result.1) rfl)
        (.cons (eval_var x (y := .ckB) (v := .byte ck.result.2) rfl) .nil))]
      rfl
    rw [stmts_writer x (methV_write x w [ck.result.1, ck.result.2]) harr hw'
      (k := fun w => .ok (.ok .unit, some (.writer w)))]
    intro w'
    rw [stmts_tail, eval_ok x (eval_unit x _)]
    show Except.ok (outObs (.ok (.ok .unit), setVar .out (.writer w') _)) = _
    simp only [outObs, resultOf, getVar_set hw']
  -- from the beginning
  rw [stmts_writer x (methV_reserve x w (size + 8)) (eval_usizeLit x (size + 8) _) rfl (k := fun w =>
    x.writer.write w [0xb5, 0x62, d.cls, d.id, UInt8.ofNat size, UInt8.ofNat (size / 256)] >>=
      afterWrite fun w => x.writer.writeFields d.fields b w (ChecksumCalc.default.update
        [d.cls, d.id, UInt8.ofNat size, UInt8.ofNat (size / 256)]) >>= afterFields fun ck w =>
          x.writer.write w [ck.result.1, ck.result.2] >>=
            afterWrite fun w => .ok (.ok .unit, some (.writer w)))]
  · cases x.writer.reserveAllocate w (size + 8) with
    | error p => rfl
    | ok q =>
      obtain ⟨r, w⟩ := q
      cases r with
      | error e => rfl
      | ok u =>
        rw [okBind, okBind]
        simp only [afterWrite]
        cases x.writer.write w _ with
        | error p => rfl
        | ok q =>
          obtain ⟨r, w⟩ := q
          cases r with
          | error e => rfl
          | ok u =>
            rw [okBind, okBind]
            simp only [List.drop_succ_cons, List.drop_zero, afterWrite]
            cases x.writer.writeFields d.fields b w _ with
            | error p => rfl
            | ok q =>
              obtain ⟨r, w⟩ := q
              cases r with
              | error e => rfl
              | ok ck =>
                rw [okBind, okBind]
                simp only [afterFields]
                cases x.writer.write w _ with
                | error p => rfl
                | ok q =>
                  obtain ⟨r, w⟩ := q
                  cases r <;> rfl
  · intro w
    show outObs <$> evalStmts x _ [(.out, .writer w), (.self_, B)] = _
    rw [letE, stmts_let_ok x (eval_u16Bytes x hlt _), letE]
    rw [stmts_let_ok x (eval_header x hx.sync1 hx.sync2 hx.cls hx.id
      (eval_indexInt x (y := .lenBytes) (bs := [UInt8.ofNat size, UInt8.ofNat (size / 256)])
        (b := UInt8.ofNat size) rfl rfl)
      (eval_indexInt x (y := .lenBytes) (bs := [UInt8.ofNat size, UInt8.ofNat (size / 256)])
        (b := UInt8.ofNat (size / 256)) rfl rfl) rfl rfl)]
    rw [stmts_writer x (methV_write x w _) ((eval_ref x).trans (eval_var x (y := .header) rfl)) rfl]
    intro w
    show outObs <$> evalStmts x _ [(.header, .bytes [0xb5, 0x62, d.cls, d.id, UInt8.ofNat size,
      UInt8.ofNat (size / 256)]), (.lenBytes, .bytes [UInt8.ofNat size, UInt8.ofNat (size / 256)]),
      (.out, .writer w), (.self_, B)] = _
    rw [stmts_let_ok x (v := .calc ChecksumCalc.default) (by
      simp only [Expr.eval, evalExprs]
      rfl)]
    rw [stmts_update x (ck := ChecksumCalc.default)
      (bs := [d.cls, d.id, UInt8.ofNat size, UInt8.ofNat (size / 256)]) (by
        rw [eval_slice x (eval_var x (y := .header) rfl) (eval_rangeFrom x (eval_int x 2 _))]
        rfl) rfl]
    exact writeFields_eval x hend d.fields b w _ _ ht hf (fun f hf c hc v hv => hx.intoFn f hf c hc v hv) hs rfl
      rfl rfl

end Ublox.Rust
