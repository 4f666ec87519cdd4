import Verif.Model.Codegen
import Mathlib.Data.List.Forall2

/-!
# Evaluating the generated code

An expression that is evaluated without changing the variables: `e.eval x env = Ev.lift r env`.
-/

namespace Ublox.Rust
variable {W E : Type} {α β : Type}

theorem lift_ok (a : α) (env : Env W E) : Ev.lift (.ok a) env = .ok (.ok a, env) := rfl

theorem lift_error (p : Panic) (env : Env W E) :
    Ev.lift (α := α) (.error p) env = .error p := rfl

theorem pure_run (a : α) (env : Env W E) : (pure a : Ev W E α) env = .ok (.ok a, env) := rfl

theorem bind_ok {m : Ev W E α} {g : α → Ev W E β} {env env' : Env W E} {a : α}
    (h : m env = .ok (.ok a, env')) : (m >>= g) env = g a env' := by
  show Ev.bind m g env = _
  simp only [Ev.bind, h]

theorem bind_error {m : Ev W E α} {g : α → Ev W E β} {env : Env W E} {p : Panic}
    (h : m env = .error p) : (m >>= g) env = .error p := by
  show Ev.bind m g env = _
  simp only [Ev.bind, h]

theorem bind_return {m : Ev W E α} {g : α → Ev W E β} {env env' : Env W E} {v : V W E}
    (h : m env = .ok (.error v, env')) : (m >>= g) env = .ok (.error v, env') := by
  show Ev.bind m g env = _
  simp only [Ev.bind, h]

theorem bind_lift {m : Ev W E α} {g : α → Ev W E β} {env : Env W E} {r : R α}
    (h : m env = Ev.lift r env) :
    (m >>= g) env = (r >>= fun a => g a env) := by
  cases r with
  | ok a => exact bind_ok h
  | error p => exact bind_error h

/-- A function of the value. -/
theorem map_lift {m : Ev W E α} {env : Env W E} {r : R α} (f : α → R β)
    (h : m env = Ev.lift r env) :
    (m >>= fun a => Ev.lift (f a)) env = Ev.lift (r >>= f) env := by
  rw [bind_lift h]
  cases r <;> rfl

/-- A function of the value. -/
theorem map_pure {m : Ev W E α} {env : Env W E} {r : R α} (f : α → β)
    (h : m env = Ev.lift r env) :
    (m >>= fun a => pure (f a)) env = Ev.lift (f <$> r) env := by
  rw [bind_lift h]
  cases r <;> rfl

theorem setVar_self {y : Var} {v : V W E} {env : Env W E} (h : getVar y env = some v) :
    setVar y v env = env := by
  induction env with
  | nil => rfl
  | cons b env ih =>
    obtain ⟨z, u⟩ := b
    simp only [getVar, setVar] at h ⊢
    split at h
    · cases h; simp_all
    · rename_i hz; rw [if_neg hz, ih h]

/-! ## Expressions -/

variable (x : Externs W E)

theorem eval_var {y : Var} {env : Env W E} {v : V W E} (h : getVar y env = some v) :
    (Expr.var y).eval x env = Ev.lift (.ok v) env := by
  simp only [Expr.eval, Ev.get, h, lift_ok]

theorem eval_usizeLit (n : Nat) (env : Env W E) :
    (usizeLit n).eval x env = Ev.lift (.ok (.usize n)) env := by
  simp only [usizeLit, Expr.eval, litV]; rfl

theorem eval_const (p : String) (env : Env W E) :
    (Expr.const p).eval x env = Ev.lift (x.const p) env := by
  simp only [Expr.eval]

theorem eval_int (n : Nat) (env : Env W E) :
    (Expr.int n).eval x env = Ev.lift (.ok (.int n)) env := by
  simp only [Expr.eval]; rfl

theorem eval_paren {e : Expr} {env : Env W E} : (Expr.paren e).eval x env = e.eval x env := by
  simp only [Expr.eval]

theorem eval_ref {e : Expr} {env : Env W E} : (Expr.ref e).eval x env = e.eval x env := by
  simp only [Expr.eval]

theorem eval_deref {e : Expr} {env : Env W E} : (Expr.deref e).eval x env = e.eval x env := by
  simp only [Expr.eval]

theorem eval_field {e : Expr} {env : Env W E} {r : R (V W E)} (n : String)
    (h : e.eval x env = Ev.lift r env) :
    (Expr.field e n).eval x env = Ev.lift (r >>= (fieldV · n)) env := by
  simp only [Expr.eval]
  exact map_lift _ h

theorem eval_ok {e : Expr} {env : Env W E} {r : R (V W E)} (h : e.eval x env = Ev.lift r env) :
    (Expr.ok e).eval x env = Ev.lift (V.ok <$> r) env := by
  simp only [Expr.eval]
  exact map_pure _ h

theorem eval_err {e : Expr} {env : Env W E} {r : R (V W E)} (h : e.eval x env = Ev.lift r env) :
    (Expr.err e).eval x env = Ev.lift (V.err <$> r) env := by
  simp only [Expr.eval]
  exact map_pure _ h

theorem eval_ctor {e : Expr} {env : Env W E} {r : R (V W E)} (p : String)
    (h : e.eval x env = Ev.lift r env) :
    (Expr.ctor p e).eval x env = Ev.lift ((fun v => V.data p [("0", v)]) <$> r) env := by
  simp only [Expr.eval]
  exact map_pure _ h

theorem eval_fn {e : Expr} {env : Env W E} {r : R (V W E)} (f : Syn.Fn)
    (h : e.eval x env = Ev.lift r env) :
    (Expr.fn f e).eval x env = Ev.lift (r >>= x.fn f) env := by
  simp only [Expr.eval]
  exact map_lift _ h

theorem eval_fromLeBytes {e : Expr} {env : Env W E} {r : R (V W E)} (ty : Syn.Ty)
    (h : e.eval x env = Ev.lift r env) :
    (Expr.fromLeBytes ty e).eval x env = Ev.lift (r >>= fromLeBytesV ty) env := by
  simp only [Expr.eval]
  exact map_lift _ h

theorem eval_cast {e : Expr} {env : Env W E} {r : R (V W E)} (ty : IntTy)
    (h : e.eval x env = Ev.lift r env) :
    (Expr.cast e ty).eval x env = Ev.lift (r >>= (castV · ty)) env := by
  simp only [Expr.eval]
  exact map_lift _ h

theorem eval_not {e : Expr} {env : Env W E} {r : R (V W E)} (h : e.eval x env = Ev.lift r env) :
    (Expr.not e).eval x env =
      Ev.lift (r >>= fun v => v.asBool >>= fun b => .ok (.bool (!b))) env := by
  simp only [Expr.eval]
  rw [bind_lift h]
  cases r with
  | error p => rfl
  | ok v => cases v <;> rfl

/-- Two values in order. -/
theorem bind2_lift {a b : Expr} {env : Env W E} {r s : R (V W E)} (f : V W E → V W E → R β)
    (ha : a.eval x env = Ev.lift r env) (hb : b.eval x env = Ev.lift s env) :
    (do let v ← a.eval x; Ev.lift (f v (← b.eval x)) : Ev W E β) env =
      Ev.lift (do let v ← r; f v (← s)) env := by
  rw [bind_lift ha]
  cases r with
  | error p => rfl
  | ok v => exact map_lift _ hb

theorem eval_index {e i : Expr} {env : Env W E} {r s : R (V W E)}
    (he : e.eval x env = Ev.lift r env) (hi : i.eval x env = Ev.lift s env) :
    (Expr.index e i).eval x env = Ev.lift (do let v ← r; indexV v (← s)) env := by
  simp only [Expr.eval]
  exact bind2_lift x _ he hi

theorem eval_slice {e i : Expr} {env : Env W E} {r s : R (V W E)}
    (he : e.eval x env = Ev.lift r env) (hi : i.eval x env = Ev.lift s env) :
    (Expr.slice e i).eval x env = Ev.lift (do let v ← r; sliceV v (← s)) env := by
  simp only [Expr.eval]
  exact bind2_lift x _ he hi

theorem eval_bin {a b : Expr} {env : Env W E} {r s : R (V W E)} (op : BinOp)
    (ha : a.eval x env = Ev.lift r env) (hb : b.eval x env = Ev.lift s env) :
    (Expr.bin op a b).eval x env = Ev.lift (do let v ← r; binV x.maxUsize op v (← s)) env := by
  simp only [Expr.eval]
  exact bind2_lift x _ ha hb

theorem eval_pair {a b : Expr} {env : Env W E} {r s : R (V W E)}
    (ha : a.eval x env = Ev.lift r env) (hb : b.eval x env = Ev.lift s env) :
    (Expr.pair a b).eval x env = Ev.lift (do let v ← r; return .pair v (← s)) env := by
  simp only [Expr.eval]
  rw [bind_lift ha]
  cases r with
  | error p => rfl
  | ok v => exact map_pure _ hb

theorem lift_bind (r : R α) (g : α → Ev W E β) (env : Env W E) :
    (Ev.lift r >>= g) env = (r >>= fun a => g a env) := bind_lift rfl

theorem eval_rangeFrom {lo : Expr} {env : Env W E} {r : R (V W E)}
    (h : lo.eval x env = Ev.lift r env) :
    (Expr.rangeFrom lo).eval x env =
      Ev.lift (r >>= fun v => v.asUsize >>= fun n => .ok (.range n none)) env := by
  simp only [Expr.eval]
  rw [bind_lift h]
  cases r with
  | error p => rfl
  | ok v =>
    show (Ev.lift v.asUsize >>= _ : Ev W E (V W E)) env =
      Ev.lift (v.asUsize >>= fun n => .ok (V.range n none)) env
    rw [lift_bind]
    cases v.asUsize <;> rfl

theorem eval_range {lo hi : Expr} {env : Env W E} {r s : R (V W E)}
    (h : lo.eval x env = Ev.lift r env) (h' : hi.eval x env = Ev.lift s env) :
    (Expr.range lo hi).eval x env =
      Ev.lift (do
        let v ← r
        let m ← v.asUsize
        let w ← s
        let n ← w.asUsize
        .ok (.range m (some n))) env := by
  simp only [Expr.eval]
  rw [bind_lift h]
  cases r with
  | error p => rfl
  | ok v =>
    show (Ev.lift v.asUsize >>= _ : Ev W E (V W E)) env = Ev.lift (v.asUsize >>= _) env
    rw [lift_bind]
    cases v.asUsize with
    | error p => rfl
    | ok m =>
      show (hi.eval x >>= _ : Ev W E (V W E)) env = Ev.lift (s >>= _) env
      rw [bind_lift h']
      cases s with
      | error p => rfl
      | ok w =>
        show (Ev.lift w.asUsize >>= _ : Ev W E (V W E)) env = Ev.lift (w.asUsize >>= _) env
        rw [lift_bind]
        cases w.asUsize <;> rfl

/-- Expressions in order. -/
def seqR : List (R α) → R (List α)
  | [] => .ok []
  | r :: rs => do
    let a ← r
    return a :: (← seqR rs)

theorem evalExprs_lift {env : Env W E} : ∀ {es : List Expr} {rs : List (R (V W E))},
    List.Forall₂ (fun e r => e.eval x env = Ev.lift r env) es rs →
    evalExprs x es env = Ev.lift (seqR rs) env
  | _, _, .nil => by simp only [evalExprs, seqR]; rfl
  | _, _, .cons (a := e) (b := r) (l₁ := es) (l₂ := rs) h hs => by
    simp only [evalExprs, seqR]
    rw [bind_lift h]
    cases r with
    | error p => rfl
    | ok v =>
      show (evalExprs x es >>= fun vs => pure (v :: vs)) env = Ev.lift (seqR rs >>= _) env
      rw [map_pure _ (evalExprs_lift hs)]
      cases seqR rs <;> rfl

theorem eval_array {env : Env W E} {es : List Expr} {rs : List (R (V W E))}
    (h : List.Forall₂ (fun e r => e.eval x env = Ev.lift r env) es rs) :
    (Expr.array es).eval x env = Ev.lift (arrayV <$> seqR rs) env := by
  simp only [Expr.eval]
  exact map_pure _ (evalExprs_lift x h)

theorem eval_call {env : Env W E} {es : List Expr} {rs : List (R (V W E))} (f : Func)
    (h : List.Forall₂ (fun e r => e.eval x env = Ev.lift r env) es rs) :
    (Expr.call f es).eval x env = Ev.lift (seqR rs >>= callV x f) env := by
  simp only [Expr.eval]
  exact map_lift _ (evalExprs_lift x h)

/-- Fields in order. -/
theorem evalFields_lift {env : Env W E} : ∀ {fs : List (String × Expr)} {rs : List (R (V W E))},
    List.Forall₂ (fun f r => f.2.eval x env = Ev.lift r env) fs rs →
    evalFields x fs env = Ev.lift ((fun vs => (fs.map (·.1)).zip vs) <$> seqR rs) env
  | _, _, .nil => by simp only [evalFields, seqR]; rfl
  | _, _, .cons (a := f) (b := r) (l₁ := fs) (l₂ := rs) h hs => by
    obtain ⟨n, e⟩ := f
    simp only [evalFields, seqR]
    rw [bind_lift h]
    cases r with
    | error p => rfl
    | ok v =>
      show (evalFields x fs >>= fun vs => pure ((n, v) :: vs)) env =
        Ev.lift (_ <$> (seqR rs >>= _)) env
      rw [map_pure _ (evalFields_lift hs)]
      cases seqR rs <;> rfl

theorem eval_struct {env : Env W E} {fs : List (String × Expr)} {rs : List (R (V W E))} (p : String)
    (h : List.Forall₂ (fun f r => f.2.eval x env = Ev.lift r env) fs rs) :
    (Expr.struct p fs).eval x env =
      Ev.lift ((fun vs => V.data p ((fs.map (·.1)).zip vs)) <$> seqR rs) env := by
  simp only [Expr.eval]
  rw [map_pure _ (evalFields_lift x h)]
  cases seqR rs <;> rfl

/-- A method that does not change the object. -/
theorem eval_meth {e : Expr} {env : Env W E} {v : V W E} {r : R (V W E)} {m : Meth}
    (h : e.eval x env = Ev.lift (.ok v) env)
    (hm : methV x m v [] = (fun w => (w, v)) <$> r)
    (hv : ∀ y, e = .var y → getVar y env = some v) :
    (Expr.meth e m []).eval x env = Ev.lift r env := by
  simp only [Expr.eval, evalExprs]
  rw [bind_ok h, bind_ok (pure_run _ _), hm, lift_bind]
  cases r with
  | error p => rfl
  | ok w =>
    cases e
    case var y =>
      have hset : Ev.set y v env = .ok (.ok (), env) := by
        simp only [Ev.set, setVar_self (hv y rfl)]
      exact (bind_ok hset : (Ev.set y v >>= fun _ => pure w) env = _)
    all_goals rfl

/-! ## Statements -/

theorem stmts_let (mt : Bool) (y : Var) (ty : String) (e : Expr) (ss : List Stmt) (env : Env W E) :
    evalStmts x (.let_ mt y ty e :: ss) env =
      (e.eval x >>= fun v => Ev.push y v >>= fun _ => evalStmts x ss) env := by
  have : evalStmts x (.let_ mt y ty e :: ss) =
      ((e.eval x >>= fun v => Ev.push y v) >>= fun _ => evalStmts x ss) := by
    cases ss <;> simp only [evalStmts, Stmt.eval]
  rw [this]
  show Ev.bind (Ev.bind _ _) _ env = Ev.bind _ _ env
  simp only [Ev.bind]
  cases e.eval x env with
  | error p => rfl
  | ok q =>
    obtain ⟨r, env'⟩ := q
    cases r <;> rfl

theorem stmts_let_lift {mt : Bool} {y : Var} {ty : String} {e : Expr} {ss : List Stmt} {env : Env W E}
    {r : R (V W E)} (h : e.eval x env = Ev.lift r env) :
    evalStmts x (.let_ mt y ty e :: ss) env = (r >>= fun v => evalStmts x ss ((y, v) :: env)) := by
  rw [stmts_let, bind_lift h]
  cases r <;> rfl

theorem stmts_tail (e : Expr) (env : Env W E) : evalStmts x [.tail e] env = e.eval x env := by
  simp only [evalStmts]

theorem stmts_expr_ok {e : Expr} {ss : List Stmt} {env env' : Env W E} {v : V W E}
    (h : e.eval x env = .ok (.ok v, env')) :
    evalStmts x (.expr e :: ss) env = evalStmts x ss env' := by
  have : evalStmts x (.expr e :: ss) =
      ((e.eval x >>= fun _ => pure ()) >>= fun _ => evalStmts x ss) := by
    cases ss <;> simp only [evalStmts, Stmt.eval]
  rw [this, bind_ok (env' := env') (a := ())]
  exact bind_ok h

theorem stmts_expr_error {e : Expr} {ss : List Stmt} {env : Env W E} {p : Panic}
    (h : e.eval x env = .error p) : evalStmts x (.expr e :: ss) env = .error p := by
  have : evalStmts x (.expr e :: ss) =
      ((e.eval x >>= fun _ => pure ()) >>= fun _ => evalStmts x ss) := by
    cases ss <;> simp only [evalStmts, Stmt.eval]
  rw [this]
  exact bind_error (bind_error h)

theorem stmts_expr_return {e : Expr} {ss : List Stmt} {env env' : Env W E} {v : V W E}
    (h : e.eval x env = .ok (.error v, env')) :
    evalStmts x (.expr e :: ss) env = .ok (.error v, env') := by
  have : evalStmts x (.expr e :: ss) =
      ((e.eval x >>= fun _ => pure ()) >>= fun _ => evalStmts x ss) := by
    cases ss <;> simp only [evalStmts, Stmt.eval]
  rw [this]
  exact bind_return (bind_return h)

end Ublox.Rust
