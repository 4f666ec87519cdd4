import Verif.Lemmas.Eval
import Verif.Lemmas.GenExec

/-!
# Evaluation of the functions of the packets step by step
-/

namespace Ublox.Exec

open Code

section

variable {α β γ : Type}

@[exec] theorem bindV_val (v : W) (env : Env) (k : W → Env → Res) : bindV (.ok (.val v, env)) k = k v env := rfl
@[exec] theorem bindV_ret (v : W) (env : Env) (k : W → Env → Res) :
    bindV (.ok (.ret v, env)) k = .ok (.ret v, env) := rfl
@[exec] theorem bindV_error (e : Stop) (k : W → Env → Res) : bindV (.error e) k = .error e := rfl
@[exec] theorem bindV_lift (x : R α) (f : α → Res) (k : W → Env → Res) :
    bindV (lift x f) k = lift x fun a => bindV (f a) k := by cases x <;> rfl
@[exec] theorem bindV_andThen (x : O α) (f : α → Res) (k : W → Env → Res) :
    bindV (andThen x f) k = andThen x fun a => bindV (f a) k := by cases x <;> rfl
@[exec] theorem bindV_ite {c : Prop} [Decidable c] (a b : Res) (k : W → Env → Res) :
    bindV (if c then a else b) k = if c then bindV a k else bindV b k := by split <;> rfl

@[exec] theorem scope_ok (n : Nat) (o : Out) (env : Env) :
    scope n (.ok (o, env)) = .ok (o, env.drop (env.length - n)) := rfl
@[exec] theorem scope_error (n : Nat) (e : Stop) : scope n (.error e : Res) = .error e := rfl
@[exec] theorem scope_lift (n : Nat) (x : R α) (f : α → Res) :
    scope n (lift x f) = lift x fun a => scope n (f a) := by cases x <;> rfl
@[exec] theorem scope_andThen (n : Nat) (x : O α) (f : α → Res) :
    scope n (andThen x f) = andThen x fun a => scope n (f a) := by cases x <;> rfl
@[exec] theorem scope_ite (n : Nat) {c : Prop} [Decidable c] (a b : Res) :
    scope n (if c then a else b) = if c then scope n a else scope n b := by split <;> rfl

@[exec] theorem fits_some (bs : Env) (k : Env → α) (e : α) : fits (some bs) k e = k bs := rfl
@[exec] theorem fits_none (k : Env → α) (e : α) : fits none k e = e := rfl
@[exec] theorem fits_ite {c : Prop} [Decidable c] (a b : Option Env) (k : Env → α) (e : α) :
    fits (if c then a else b) k e = if c then fits a k e else fits b k e := by split <;> rfl
@[exec] theorem need_some (a : α) (k : α → O β) : need (some a) k = k a := rfl
@[exec] theorem need_none (k : α → O β) : need none k = stuck := rfl
@[exec] theorem need_ite {c : Prop} [Decidable c] (a b : Option α) (k : α → O β) :
    need (if c then a else b) k = if c then need a k else need b k := by split <;> rfl

end

@[congr] theorem bindV_congr {r r' : Res} (k : W → Env → Res) (h : r = r') :
    bindV r k = bindV r' k := by rw [h]
@[congr] theorem fits_congr {α : Type} {o o' : Option Env} (k : Env → α) (e : α) (h : o = o') :
    fits o k e = fits o' k e := by rw [h]
@[congr] theorem need_congr {α β : Type} {o o' : Option α} (k : α → O β) (h : o = o') :
    need o k = need o' k := by rw [h]
@[congr] theorem eval_congr (c : Ctx) (e : Expr) {env env' : Env} (h : env = env') :
    eval c e env = eval c e env' := by rw [h]
@[congr] theorem evals_congr (c : Ctx) (es : Exprs) {env env' : Env} (k) (h : env = env') :
    evals c es env k = evals c es env' k := by rw [h]
@[congr] theorem evalF_congr (c : Ctx) (ty : Name) (es : Fields) {env env' : Env} (k) (h : env = env') :
    evalF c ty es env k = evalF c ty es env' k := by rw [h]
@[congr] theorem evalS_congr (c : Ctx) (e : Stmts) {env env' : Env} (h : env = env') :
    evalS c e env = evalS c e env' := by rw [h]
@[congr] theorem evalA_congr (c : Ctx) (e : Arms) {v v' : W} {env env' : Env} (h : v = v')
    (h' : env = env') : evalA c e v env = evalA c e v' env' := by rw [h, h']
@[congr] theorem store_congr (c : Ctx) (e : Expr) {v v' : W} {env env' : Env} (h : v = v')
    (h' : env = env') : store c e v env = store c e v' env' := by rw [h, h']

attribute [exec] eval evals evalF evalS evalA store runFn structName tryV builtin0 ownFn bindName ioWrite
  floatMethod timeMethod sumMethod bytesMethod compare usizeOp u32Op u16Op u8Op litOp flOp amount shl shr
attribute [exec] reduceIte Nat.reduceEqDiff List.cons.injEq reduceCtorEq and_true true_and and_false false_and
  List.length_cons List.length_nil List.zip_cons_cons List.zip_nil_right Option.map_some Option.getD_some
  Nat.reduceAdd List.cons_append List.nil_append List.drop_succ_cons List.drop_zero Nat.add_sub_cancel Nat.reduceSub
  Bool.not_true Bool.not_false decide_eq_true_eq Bool.false_eq_true or_false or_true false_or true_or
  Nat.reduceLT Nat.reduceMul Nat.reducePow Option.map_none Option.getD_none or_self and_self
  UInt8.reduceOfNat UInt16.reduceOfNat UInt32.reduceOfNat Nat.reduceOr Nat.reduceLeDiff not_false_eq_true
  not_true_eq_false ne_eq eq_self UInt8.reduceToNat UInt16.reduceToNat UInt32.reduceToNat Nat.max_def

/-! ## Declarations -/

open Lean Meta in
/-- Values of functions of the declarations, which are computed. -/
def ground (e : Lean.Expr) : SimpM Simp.Step := do
  let e ← instantiateMVars e
  if e.hasFVar || e.hasExprMVar then return .continue
  let .ok v := Kernel.whnf (← getEnv) {} e | return .continue
  let v ← match v with
    | .lit (.natVal n) => pure (mkNatLit n)
    | .const ``Bool.true _ => pure v
    | .const ``Bool.false _ => pure v
    | .const ``Nat.zero _ => pure (mkNatLit 0)
    | _ => return .continue
  let ty ← inferType e
  return .done { expr := v, proof? := mkApp2 (.const ``Eq.refl [1]) ty v }

open Lean Meta in
/-- Texts of identifiers, which are computed. -/
def groundName (e : Lean.Expr) : SimpM Simp.Step := do
  let some n ← (Nat.fromExpr? e.appArg! : SimpM _) | return .continue
  let s := mkStrLit (nameStr n)
  return .done { expr := s, proof? := mkApp2 (.const ``Eq.refl [1]) (.const ``String []) s }

open Lean Meta in
/-- The bits of constants of sets of flags, which are computed. -/
def groundOption (e : Lean.Expr) : SimpM Simp.Step := do
  let e ← instantiateMVars e
  if e.hasFVar || e.hasExprMVar then return .continue
  let .ok v := Kernel.whnf (← getEnv) {} e | return .continue
  let v ← match v with
    | .app (.app (.const ``Option.some ls) ty) n =>
      match Kernel.whnf (← getEnv) {} n with
      | .ok (.lit (.natVal n)) => pure (mkApp2 (.const ``Option.some ls) ty (mkNatLit n))
      | _ => return .continue
    | .app (.const ``Option.none _) _ => pure v
    | _ => return .continue
  let ty ← inferType e
  return .done { expr := v, proof? := mkApp2 (.const ``Eq.refl [1]) ty v }

open Lean Meta in
/-- A list of numbers, as it is computed. -/
partial def numbers (e : Lean.Expr) : MetaM (Option (List Nat)) := do
  let .ok v := Kernel.whnf (← getEnv) {} e | return none
  match v with
  | .app (.app (.app (.const ``List.cons _) _) n) l =>
    match Kernel.whnf (← getEnv) {} n with
    | .ok (.lit (.natVal n)) => return (← numbers l).map (n :: ·)
    | _ => return none
  | .app (.const ``List.nil _) _ => return some []
  | _ => return none

open Lean Meta in
/-- Names of fields, which are computed. -/
def groundList (e : Lean.Expr) : SimpM Simp.Step := do
  let e ← instantiateMVars e
  if e.hasFVar || e.hasExprMVar then return .continue
  let some l ← numbers e | return .continue
  let v ← mkListLit (.const ``Nat []) (l.map mkNatLit)
  let ty ← inferType e
  return .done { expr := v, proof? := mkApp2 (.const ``Eq.refl [1]) ty v }

simproc_decl reduceFieldTy (fieldTy _ _ _) := ground
simproc_decl reduceIsVariant (isVariant _ _ _) := ground
simproc_decl reduceDiscriminant (discriminant _ _ _) := ground
simproc_decl reduceMacroDiscriminant (macroDiscriminant _ _ _) := ground
simproc_decl reduceFlagBits (flagBits _ _) := ground
simproc_decl reduceIsCtor (isCtor _) := ground
simproc_decl reduceNameStr (nameStr _) := groundName
simproc_decl reduceFlagConst (flagConst _ _ _) := groundOption
simproc_decl reduceFieldNames (fieldNames _ _) := groundList
attribute [exec] reduceFlagConst reduceFieldNames reduceFieldTy reduceFlagBits reduceIsVariant reduceDiscriminant reduceMacroDiscriminant reduceIsCtor reduceNameStr

/-! ## The program -/

/-- What a function of the program is evaluated in -/
def ctx (m : Mach) (k : Nat) (ty : Name) : Ctx := ⟨program, m, ty, run program m k, change program m k⟩

@[exec] theorem ctx_prog (m k ty) : (ctx m k ty).prog = program := rfl
@[exec] theorem ctx_mach (m k ty) : (ctx m k ty).mach = m := rfl
@[exec] theorem ctx_me (m k ty) : (ctx m k ty).me = ty := rfl
@[exec] theorem ctx_user (m k ty) (tags : List Name) (t f : Name) (args : List W) :
    (ctx m k ty).user tags t f args = run program m k tags t f args := rfl

theorem run_fn {tags : List Name} {ty name : Name} {f : Fn} (h : lookup program.impls tags ty name = some f)
    (m : Mach) (k : Nat) (args : List W) :
    run program m (k + 1) tags ty name args = runFn (ctx m k ty) f args := by
  simp only [run, runWith, h, ctx]
  rfl

/-! ## Values -/

variable (c : Ctx)

@[exec] theorem get_cons (x y : Name) (v : W) (env) :
    get x ((y, v) :: env) = if y = x then some v else get x env := rfl
@[exec] theorem get_nil (x : Name) : get x [] = none := rfl
@[exec] theorem set_cons (x y : Name) (v w : W) (env) :
    set x v ((y, w) :: env) = if y = x then some ((y, v) :: env) else (set x v env).map ((y, w) :: ·) := rfl
@[exec] theorem pathV_one (x : Name) (env : Env) :
    pathV c [x] env =
      match get x env with
      | some v => .ok v
      | none =>
        if x = i!"None" then .ok noneV
        else if x = i!"true" then .ok (.bool true)
        else if x = i!"false" then .ok (.bool false)
        else if x = i!"Utc" then .ok (.adt [i!"Utc"] [])
        else andThen (c.user [modName] 0 x []) fun r => .ok r.1 := rfl
@[exec] theorem pathV_two (x y : Name) (env : Env) : pathV c [x, y] env = constV c x y := rfl
attribute [exec] constV

attribute [exec] arrange pick
@[exec] theorem getField_struct (n fs f) : getField (.struct n fs) f = need (get f fs) .ok := rfl
@[exec] theorem getField_adt (t a f) : getField (.adt [t] [a]) f = if f = i!"0" then .ok a else stuck := rfl
@[exec] theorem getField_pair (a b f) : getField (.pair a b) f =
    if f = i!"0" then .ok a else if f = i!"1" then .ok b else stuck := rfl
@[exec] theorem setField_struct (n fs f) (w : W) : setField (.struct n fs) f w =
    need (set f w fs) fun fs => .ok (.struct n fs) := rfl
@[exec] theorem setField_adt (t a f) (w : W) : setField (.adt [t] [a]) f w =
    if f = i!"0" then .ok (.adt [t] [w]) else stuck := rfl
@[exec] theorem indexV_range (bs lo hi) : indexV (.bytes bs) (.range lo hi) =
    lift (sliceRange bs lo hi) fun b => .ok (.bytes b) := rfl
@[exec] theorem indexV_rangeFrom (bs lo) : indexV (.bytes bs) (.rangeFrom lo) =
    lift (sliceFrom bs lo) fun b => .ok (.bytes b) := rfl
@[exec] theorem indexV_rangeTo (bs hi) : indexV (.bytes bs) (.rangeTo hi) =
    lift (sliceRange bs 0 hi) fun b => .ok (.bytes b) := rfl
@[exec] theorem indexV_lit (bs n hi) : indexV (.bytes bs) (.lit n hi) =
    need (asUsize (.lit n hi)) fun i => lift (getByte bs i) fun b => .ok (.u8 b) := rfl
@[exec] theorem indexV_usize (bs n) : indexV (.bytes bs) (.usize n) =
    lift (getByte bs n) fun b => .ok (.u8 b) := rfl
@[exec] theorem setIndex_u8 (bs i b) : setIndex (.bytes bs) i (.u8 b) =
    need (asUsize i) fun i => lift (setByte bs i b) fun bs => .ok (.bytes bs) := rfl
@[exec] theorem setIndex_to (bs hi new) : setIndex (.bytes bs) (.rangeTo hi) (.bytes new) =
    .ok (.bytes (new ++ bs.drop hi)) := rfl
@[exec] theorem setIndex_from (bs lo new) : setIndex (.bytes bs) (.rangeFrom lo) (.bytes new) =
    .ok (.bytes (bs.take lo ++ new)) := rfl
@[exec] theorem asUsize_usize (n) : asUsize (.usize n) = some n := rfl
@[exec] theorem asUsize_lit (n hi) : asUsize (.lit n hi) = if hi < 65536 then some n else none := rfl

@[exec] theorem typed_lit (ty n hi) : typed ty (.lit n hi) =
    if ty = i!"u8" then if hi < 256 then some (.u8 (UInt8.ofNat n)) else none
    else if ty = i!"u16" then if hi < 65536 then some (.u16 (UInt16.ofNat n)) else none
    else if ty = i!"u32" then if hi < 4294967296 then some (.u32 (UInt32.ofNat n)) else none
    else if ty = i!"usize" then if hi < 65536 then some (.usize n) else none
    else if ty = i!"i8" then if hi < 128 then some (.i8 (Int8.ofNat n)) else none
    else if ty = i!"i16" then if hi < 32768 then some (.i16 (Int16.ofNat n)) else none
    else if ty = i!"i32" then if hi < 2147483648 then some (.i32 (Int32.ofNat n)) else none
    else none := rfl
@[exec] theorem typed_bool (ty b) : typed ty (.bool b) = if ty = i!"bool" then some (.bool b) else none := rfl
@[exec] theorem typed_u8 (ty b) : typed ty (.u8 b) = if ty = i!"u8" then some (.u8 b) else none := rfl
@[exec] theorem typed_u16 (ty b) : typed ty (.u16 b) = if ty = i!"u16" then some (.u16 b) else none := rfl
@[exec] theorem typed_u32 (ty b) : typed ty (.u32 b) = if ty = i!"u32" then some (.u32 b) else none := rfl
@[exec] theorem typed_u64 (ty b) : typed ty (.u64 b) = if ty = i!"u64" then some (.u64 b) else none := rfl
@[exec] theorem typed_usize (ty b) : typed ty (.usize b) = if ty = i!"usize" then some (.usize b) else none := rfl
@[exec] theorem typed_i8 (ty b) : typed ty (.i8 b) = if ty = i!"i8" then some (.i8 b) else none := rfl
@[exec] theorem typed_i16 (ty b) : typed ty (.i16 b) = if ty = i!"i16" then some (.i16 b) else none := rfl
@[exec] theorem typed_i32 (ty b) : typed ty (.i32 b) = if ty = i!"i32" then some (.i32 b) else none := rfl
@[exec] theorem typed_fl64 (ty x) : typed ty (.fl fmt64 x) = if ty = i!"f64" then some (.fl fmt64 x) else none := by
  simp [typed]
@[exec] theorem typed_adt (ty p as) : typed ty (.adt p as) = some (.adt p as) := rfl
@[exec] theorem typed_struct (ty p as) : typed ty (.struct p as) = some (.struct p as) := rfl
@[exec] theorem typed_bytes (ty bs) : typed ty (.bytes bs) = some (.bytes bs) := rfl
@[exec] theorem typed_str (ty bs) : typed ty (.str bs) = some (.str bs) := rfl
@[exec] theorem typed_string (ty bs) : typed ty (.string bs) = some (.string bs) := rfl
@[exec] theorem typed_pair (ty a b) : typed ty (.pair a b) = some (.pair a b) := rfl
@[exec] theorem typed_flags (ty a b) : typed ty (.flags a b) = some (.flags a b) := rfl
@[exec] theorem typed_chunks (ty a b) : typed ty (.chunks a b) = some (.chunks a b) := rfl
@[exec] theorem typed_unit (ty) : typed ty .unit = some .unit := rfl

@[exec] theorem coerce_pend (ty how : Name) (x : UInt32) :
    coerce c ty (.pend how (.u32 x)) =
      if ty = 0 ∨ ty = i!"Self" then .ok (.pend how (.u32 x))
      else if how = i!"unwrap" then
        if ty = i!"u8" then lift (u8TryFrom x) fun b => .ok (.u8 b) else stuck
      else if how = i!"into" then andThen (c.user [i!"From", i!"u32"] ty i!"from" [.u32 x]) fun r => .ok r.1
      else stuck := rfl
@[exec] theorem coerce_lit (ty n hi) : coerce c ty (.lit n hi) =
    if ty = 0 ∨ ty = i!"Self" then .ok (.lit n hi) else need (typed ty (.lit n hi)) .ok := rfl
@[exec] theorem coerce_bool (ty x) : coerce c ty (.bool x) =
    if ty = 0 ∨ ty = i!"Self" then .ok (.bool x) else need (typed ty (.bool x)) .ok := rfl
@[exec] theorem coerce_u8 (ty x) : coerce c ty (.u8 x) =
    if ty = 0 ∨ ty = i!"Self" then .ok (.u8 x) else need (typed ty (.u8 x)) .ok := rfl
@[exec] theorem coerce_u16 (ty x) : coerce c ty (.u16 x) =
    if ty = 0 ∨ ty = i!"Self" then .ok (.u16 x) else need (typed ty (.u16 x)) .ok := rfl
@[exec] theorem coerce_u32 (ty x) : coerce c ty (.u32 x) =
    if ty = 0 ∨ ty = i!"Self" then .ok (.u32 x) else need (typed ty (.u32 x)) .ok := rfl
@[exec] theorem coerce_u64 (ty x) : coerce c ty (.u64 x) =
    if ty = 0 ∨ ty = i!"Self" then .ok (.u64 x) else need (typed ty (.u64 x)) .ok := rfl
@[exec] theorem coerce_usize (ty x) : coerce c ty (.usize x) =
    if ty = 0 ∨ ty = i!"Self" then .ok (.usize x) else need (typed ty (.usize x)) .ok := rfl
@[exec] theorem coerce_i8 (ty x) : coerce c ty (.i8 x) =
    if ty = 0 ∨ ty = i!"Self" then .ok (.i8 x) else need (typed ty (.i8 x)) .ok := rfl
@[exec] theorem coerce_i16 (ty x) : coerce c ty (.i16 x) =
    if ty = 0 ∨ ty = i!"Self" then .ok (.i16 x) else need (typed ty (.i16 x)) .ok := rfl
@[exec] theorem coerce_i32 (ty x) : coerce c ty (.i32 x) =
    if ty = 0 ∨ ty = i!"Self" then .ok (.i32 x) else need (typed ty (.i32 x)) .ok := rfl
@[exec] theorem coerce_fl (ty f x) : coerce c ty (.fl f x) =
    if ty = 0 ∨ ty = i!"Self" then .ok (.fl f x) else need (typed ty (.fl f x)) .ok := rfl
@[exec] theorem coerce_adt (ty p as) : coerce c ty (.adt p as) =
    if ty = 0 ∨ ty = i!"Self" then .ok (.adt p as) else need (typed ty (.adt p as)) .ok := rfl
@[exec] theorem coerce_struct (ty p as) : coerce c ty (.struct p as) =
    if ty = 0 ∨ ty = i!"Self" then .ok (.struct p as) else need (typed ty (.struct p as)) .ok := rfl
@[exec] theorem coerce_bytes (ty p) : coerce c ty (.bytes p) =
    if ty = 0 ∨ ty = i!"Self" then .ok (.bytes p) else need (typed ty (.bytes p)) .ok := rfl
@[exec] theorem coerce_str (ty p) : coerce c ty (.str p) =
    if ty = 0 ∨ ty = i!"Self" then .ok (.str p) else need (typed ty (.str p)) .ok := rfl
@[exec] theorem coerce_string (ty p) : coerce c ty (.string p) =
    if ty = 0 ∨ ty = i!"Self" then .ok (.string p) else need (typed ty (.string p)) .ok := rfl
@[exec] theorem coerce_pair (ty a b) : coerce c ty (.pair a b) =
    if ty = 0 ∨ ty = i!"Self" then .ok (.pair a b) else need (typed ty (.pair a b)) .ok := rfl
@[exec] theorem coerce_flags (ty a b) : coerce c ty (.flags a b) =
    if ty = 0 ∨ ty = i!"Self" then .ok (.flags a b) else need (typed ty (.flags a b)) .ok := rfl
@[exec] theorem coerce_chunks (ty a b) : coerce c ty (.chunks a b) =
    if ty = 0 ∨ ty = i!"Self" then .ok (.chunks a b) else need (typed ty (.chunks a b)) .ok := rfl
@[exec] theorem coerce_unit (ty ) : coerce c ty .unit =
    if ty = 0 ∨ ty = i!"Self" then .ok .unit else need (typed ty .unit) .ok := rfl

@[exec] theorem sameOp_lit_u8 (M op n hi b) : sameOp M op (unify (.lit n hi) (.u8 b)).1 (unify (.lit n hi) (.u8 b)).2 =
    if hi < 256 then u8Op op (UInt8.ofNat n) b else stuck := by
  simp only [unify]; split <;> rfl
@[exec] theorem sameOp_lit_u16 (M op n hi b) :
    sameOp M op (unify (.lit n hi) (.u16 b)).1 (unify (.lit n hi) (.u16 b)).2 =
    if hi < 65536 then u16Op op (UInt16.ofNat n) b else stuck := by
  simp only [unify]; split <;> rfl
@[exec] theorem sameOp_lit_u32 (M op n hi b) :
    sameOp M op (unify (.lit n hi) (.u32 b)).1 (unify (.lit n hi) (.u32 b)).2 =
    if hi < 4294967296 then u32Op op (UInt32.ofNat n) b else stuck := by
  simp only [unify]; split <;> rfl
@[exec] theorem sameOp_lit_usize (M op n hi b) :
    sameOp M op (unify (.lit n hi) (.usize b)).1 (unify (.lit n hi) (.usize b)).2 =
    if hi < 65536 then usizeOp M op n b else stuck := by
  simp only [unify]; split <;> rfl
@[exec] theorem sameOp_u8_lit (M op n hi b) : sameOp M op (unify (.u8 b) (.lit n hi)).1 (unify (.u8 b) (.lit n hi)).2 =
    if hi < 256 then u8Op op b (UInt8.ofNat n) else stuck := by
  simp only [unify]; split <;> rfl
@[exec] theorem sameOp_u16_lit (M op n hi b) :
    sameOp M op (unify (.u16 b) (.lit n hi)).1 (unify (.u16 b) (.lit n hi)).2 =
    if hi < 65536 then u16Op op b (UInt16.ofNat n) else stuck := by
  simp only [unify]; split <;> rfl
@[exec] theorem sameOp_u32_lit (M op n hi b) :
    sameOp M op (unify (.u32 b) (.lit n hi)).1 (unify (.u32 b) (.lit n hi)).2 =
    if hi < 4294967296 then u32Op op b (UInt32.ofNat n) else stuck := by
  simp only [unify]; split <;> rfl
@[exec] theorem sameOp_usize_lit (M op n hi b) :
    sameOp M op (unify (.usize b) (.lit n hi)).1 (unify (.usize b) (.lit n hi)).2 =
    if hi < 65536 then usizeOp M op b n else stuck := by
  simp only [unify]; split <;> rfl
@[exec] theorem sameOp_u8 (M op a b) : sameOp M op (unify (.u8 a) (.u8 b)).1 (unify (.u8 a) (.u8 b)).2 =
    u8Op op a b := rfl
@[exec] theorem sameOp_u16 (M op a b) : sameOp M op (unify (.u16 a) (.u16 b)).1 (unify (.u16 a) (.u16 b)).2 =
    u16Op op a b := rfl
@[exec] theorem sameOp_u32 (M op a b) : sameOp M op (unify (.u32 a) (.u32 b)).1 (unify (.u32 a) (.u32 b)).2 =
    u32Op op a b := rfl
@[exec] theorem sameOp_usize (M op a b) : sameOp M op (unify (.usize a) (.usize b)).1 (unify (.usize a) (.usize b)).2 =
    usizeOp M op a b := rfl
@[exec] theorem sameOp_lit (M op a ha b hb) :
    sameOp M op (unify (.lit a ha) (.lit b hb)).1 (unify (.lit a ha) (.lit b hb)).2 = litOp op a ha b hb := rfl
@[exec] theorem sameOp_fl (M op f a b) : sameOp M op (unify (.fl f a) (.fl f b)).1 (unify (.fl f a) (.fl f b)).2 =
    flOp f op a b := by simp only [unify, sameOp, if_true]
@[exec] theorem sameOp_flit_fl (M op f a b) : sameOp M op (unify (.flit a) (.fl f b)).1 (unify (.flit a) (.fl f b)).2 =
    flOp f op (Fl.lit f a) b := by simp only [unify, sameOp, if_true]
@[exec] theorem sameOp_fl_flit (M op f a b) : sameOp M op (unify (.fl f b) (.flit a)).1 (unify (.fl f b) (.flit a)).2 =
    flOp f op b (Fl.lit f a) := by simp only [unify, sameOp, if_true]
@[exec] theorem sameOp_flags (M t a b) :
    sameOp M .bitOr (unify (.flags t a) (.flags t b)).1 (unify (.flags t a) (.flags t b)).2 =
      .ok (.flags t (a ||| b)) := by simp only [unify, sameOp, if_true]
@[exec] theorem sameOp_time (M t n) :
    sameOp M .add (unify (.dateTime t) (.duration n)).1 (unify (.dateTime t) (.duration n)).2 =
      lift (t.addNanoseconds n) fun t => .ok (.dateTime t) := rfl
@[exec] theorem binary_shl (M a b) : binary M .shl a b = need (amount b) fun k => shl a k := rfl
@[exec] theorem binary_shr (M a b) : binary M .shr a b = need (amount b) fun k => shr a k := rfl
@[exec] theorem binary_add (M a b) : binary M .add a b = sameOp M .add (unify a b).1 (unify a b).2 := rfl
@[exec] theorem binary_sub (M a b) : binary M .sub a b = sameOp M .sub (unify a b).1 (unify a b).2 := rfl
@[exec] theorem binary_mul (M a b) : binary M .mul a b = sameOp M .mul (unify a b).1 (unify a b).2 := rfl
@[exec] theorem binary_rem (M a b) : binary M .rem a b = sameOp M .rem (unify a b).1 (unify a b).2 := rfl
@[exec] theorem binary_bitAnd (M a b) : binary M .bitAnd a b = sameOp M .bitAnd (unify a b).1 (unify a b).2 := rfl
@[exec] theorem binary_bitOr (M a b) : binary M .bitOr a b = sameOp M .bitOr (unify a b).1 (unify a b).2 := rfl
@[exec] theorem binary_eq (M a b) : binary M .eq a b = sameOp M .eq (unify a b).1 (unify a b).2 := rfl
@[exec] theorem binary_ne (M a b) : binary M .ne a b = sameOp M .ne (unify a b).1 (unify a b).2 := rfl
@[exec] theorem binary_lt (M a b) : binary M .lt a b = sameOp M .lt (unify a b).1 (unify a b).2 := rfl
@[exec] theorem binary_gt (M a b) : binary M .gt a b = sameOp M .gt (unify a b).1 (unify a b).2 := rfl
@[exec] theorem binary_le (M a b) : binary M .le a b = sameOp M .le (unify a b).1 (unify a b).2 := rfl
@[exec] theorem binary_ge (M a b) : binary M .ge a b = sameOp M .ge (unify a b).1 (unify a b).2 := rfl

@[exec] theorem castTo_lit (ds n hi ty) : castTo ds (.lit n hi) ty = need (typed ty (.lit n hi)) .ok := rfl
@[exec] theorem castTo_bool (ds b ty) : castTo ds (.bool b) ty =
    if ty = i!"u32" then .ok (.u32 (boolU32 b)) else if ty = i!"u8" then .ok (.u8 (if b then 1 else 0)) else stuck := rfl
@[exec] theorem castTo_u8 (ds x ty) : castTo ds (.u8 x) ty =
    if ty = i!"u32" then .ok (.u32 x.toUInt32) else if ty = i!"usize" then .ok (.usize x.toNat) else stuck := rfl
@[exec] theorem castTo_u16 (ds x ty) : castTo ds (.u16 x) ty =
    if ty = i!"usize" then .ok (.usize x.toNat) else stuck := rfl
@[exec] theorem castTo_u32 (ds x ty) : castTo ds (.u32 x) ty =
    if ty = i!"u8" then .ok (.u8 x.toUInt8) else if ty = i!"u16" then .ok (.u16 x.toUInt16)
    else if ty = i!"i32" then .ok (.i32 x.toInt32) else stuck := rfl
@[exec] theorem castTo_i32 (ds x ty) : castTo ds (.i32 x) ty =
    if ty = i!"u32" then .ok (.u32 x.toUInt32) else stuck := rfl
@[exec] theorem castTo_fl (ds f x ty) : castTo ds (.fl f x) ty =
    if ty = i!"i32" then .ok (.i32 (AidIniBuilder.asI32 x)) else stuck := rfl
@[exec] theorem castTo_adt (ds t x ty) : castTo ds (.adt [t, x] []) ty =
    need (typed ty (.lit (discriminant ds t x) (discriminant ds t x))) .ok := rfl

@[exec] theorem byteList_nil : byteList [] = some [] := rfl
@[exec] theorem byteList_u8 (b vs) : byteList (.u8 b :: vs) = (byteList vs).map (b :: ·) := rfl
@[exec] theorem byteList_lit (n hi vs) : byteList (.lit n hi :: vs) =
    if hi < 256 then (byteList vs).map (UInt8.ofNat n :: ·) else none := by
  by_cases h : hi < 256 <;> simp [byteList, typed, h]

attribute [exec] someV noneV okV errV optV

/-! ## Functions and patterns -/

@[exec] theorem method_adt1 (t as name args) : method c (.adt [t] as) name args =
    if t = i!"Some" ∨ t = i!"None" ∨ t = i!"Ok" ∨ t = i!"Err" then
      andThen (sumMethod t as name args) fun r => .ok (r, none)
    else andThen (c.user [] t name (.adt [t] as :: args)) fun r => .ok (r.1, some r.2) := rfl
@[exec] theorem method_adt2 (t x as name args) : method c (.adt [t, x] as) name args =
    if name = i!"into_raw" ∧ macroDiscriminant c.prog.enums t x < 256 then
      .ok (.u8 (UInt8.ofNat (macroDiscriminant c.prog.enums t x)), none)
    else andThen (c.user [] t name (.adt [t, x] as :: args)) fun r => .ok (r.1, some r.2) := rfl
@[exec] theorem method_struct (t fs name args) : method c (.struct t fs) name args =
    andThen (c.user [] t name (.struct t fs :: args)) fun r => .ok (r.1, some r.2) := rfl
@[exec] theorem method_bytes (bs name) : method c (.bytes bs) name [] =
    andThen (bytesMethod bs name []) fun r => .ok (r, none) := rfl
@[exec] theorem method_bytes_usize (bs name n) : method c (.bytes bs) name [.usize n] =
    andThen (bytesMethod bs name [.usize n]) fun r => .ok (r, none) := rfl
@[exec] theorem method_bytes_lit (bs name n hi) : method c (.bytes bs) name [.lit n hi] =
    andThen (bytesMethod bs name [.lit n hi]) fun r => .ok (r, none) := rfl
@[exec] theorem method_bytes_bytes (bs name new) : method c (.bytes bs) name [.bytes new] =
    andThen (bytesMutMethod bs name new) fun r => .ok (.unit, some r) := rfl
@[exec] theorem method_u16 (x name) : method c (.u16 x) name [] =
    if name = i!"to_le_bytes" then .ok (.bytes (u16ToLe x), none) else stuck := rfl
@[exec] theorem method_i16 (x name) : method c (.i16 x) name [] =
    if name = i!"to_le_bytes" then .ok (.bytes (u16ToLe x.toUInt16), none) else stuck := rfl
@[exec] theorem method_u64 (x name) : method c (.u64 x) name [] =
    if name = i!"to_le_bytes" then .ok (.bytes (u64ToLe x), none) else stuck := rfl
@[exec] theorem method_flags (t n name) : method c (.flags t n) name [] =
    if name = i!"bits" ∧ flagBits c.prog.flags t = 8 then .ok (.u8 (UInt8.ofNat n), none) else stuck := rfl
@[exec] theorem method_fl (f x name) : method c (.fl f x) name [] =
    andThen (floatMethod f x name) fun r => .ok (r, none) := rfl
@[exec] theorem method_dateTime (t name) : method c (.dateTime t) name [] =
    andThen (timeMethod t name) fun r => .ok (r, none) := rfl
@[exec] theorem method_packet (d p name) : method c (.packet d p) name [] =
    andThen (accessor d p name) fun r => .ok (r, none) := rfl
@[exec] theorem method_u8 (x k name) : method c (.u8 x) name [.u8 k] =
    if name = i!"overflowing_add" then
      .ok (.pair (.u8 (x + k)) (.bool (decide (256 ≤ x.toNat + k.toNat))), none)
    else stuck := rfl
@[exec] theorem method_u32 (x name) : method c (.u32 x) name [] =
    if name = i!"into" ∨ name = i!"try_into" then .ok (.pend name (.u32 x), none)
    else if name = i!"to_le_bytes" then .ok (.bytes (u32ToLe x), none)
    else stuck := rfl
@[exec] theorem method_i32 (x name) : method c (.i32 x) name [] =
    if name = i!"wrapping_abs" then .ok (.i32 (wrappingAbs x), none) else stuck := rfl
@[exec] theorem method_pend (how v name) : method c (.pend how v) name [] =
    if how = i!"try_into" ∧ (name = i!"ok" ∨ name = i!"unwrap") then .ok (.pend name v, none) else stuck := rfl
@[exec] theorem method_chunks (n rest name) : method c (.chunks n rest) name [] =
    if name = i!"next" then
      .ok (optV ((chunksNext n rest).1.map .bytes), some (.chunks n (chunksNext n rest).2))
    else stuck := rfl
@[exec] theorem method_cfg (v name) : method c (.cfg v) name [] =
    if name = i!"len" then .ok (.usize v.len, none) else stuck := rfl
@[exec] theorem method_formatter (n name) : method c .formatter name [.text n] =
    if name = i!"debug_struct" then .ok (.debug n [], none) else stuck := rfl
@[exec] theorem method_finish (n fs name) : method c (.debug n fs) name [] =
    if name = i!"finish" then
      need (debugFields fs) fun l => .ok (.string (debugStruct (nameStr n) l), none)
    else stuck := rfl
@[exec] theorem method_field (n fs name k v) : method c (.debug n fs) name [.text k, v] =
    if name = i!"field" then .ok (.debug n (fs ++ [(k, v)]), none) else stuck := rfl

@[exec] theorem callFn_nil (p) : callFn c p [] =
    match builtin0 p with | some v => .ok v | none => ownFn c p [] := rfl
@[exec] theorem callFn_one (p v) : callFn c p [v] =
    match builtin1 c p v with | some r => r | none => ownFn c p [v] := rfl
@[exec] theorem callFn_many (p u v vs) : callFn c p (u :: v :: vs) =
    match builtinN p (u :: v :: vs) with | some v => .ok v | none => ownFn c p (u :: v :: vs) := rfl
attribute [exec] builtin1 builtinN leInt truncate temporary bytesMutMethod
@[exec] theorem cfgItems_isEmpty : Gen.cfgItems.isEmpty = false := rfl

@[exec] theorem bindPat_name (me x v) : bindPat me (.name x) v = bindName x v := by rw [bindPat]
@[exec] theorem bindPat_pair (me x y a b) : bindPat me (.pair x y) (.pair a b) =
    fits (bindName x a) (fun bs => fits (bindName y b) (fun cs => some (cs ++ bs)) none) none := by rw [bindPat]
@[exec] theorem bindPat_ctor (me t x p v) : bindPat me (.ctor t [x]) (.adt p [v]) =
    if p = [t] then bindName x v else none := by rw [bindPat]
@[exec] theorem bindPat_ctor0 (me t p) : bindPat me (.ctor t []) (.adt p []) =
    if p = [t] then some [] else none := by rw [bindPat]
@[exec] theorem bindPat_ctor_no (me t x p) : bindPat me (.ctor t [x]) (.adt p []) = none := by simp [bindPat]
@[exec] theorem bindPat_ctor0_no (me t p x) : bindPat me (.ctor t []) (.adt p [x]) = none := by simp [bindPat]
@[exec] theorem bindPat_int8 (me n x) : bindPat me (.int n) (.u8 x) =
    if x = UInt8.ofNat n then some [] else none := by rw [bindPat]
@[exec] theorem bindPat_int16 (me n x) : bindPat me (.int n) (.u16 x) =
    if x = UInt16.ofNat n then some [] else none := by rw [bindPat]
@[exec] theorem bindPat_int32 (me n x) : bindPat me (.int n) (.u32 x) =
    if x = UInt32.ofNat n then some [] else none := by rw [bindPat]
@[exec] theorem bindPat_range8 (me lo hi x) : bindPat me (.range lo hi) (.u8 x) =
    if UInt8.ofNat lo ≤ x ∧ x ≤ UInt8.ofNat hi then some [] else none := by rw [bindPat]
@[exec] theorem bindPat_range32 (me lo hi x) : bindPat me (.range lo hi) (.u32 x) =
    if UInt32.ofNat lo ≤ x ∧ x ≤ UInt32.ofNat hi then some [] else none := by rw [bindPat]
@[exec] theorem bindPat_variant (me t x y p v) : bindPat me (.variant t x y) (.adt p [v]) =
    if p = [if t = i!"Self" then me else t, x] then bindName y v else none := by rw [bindPat]
@[exec] theorem bindPat_path (me t x p) : bindPat me (.path [t, x]) (.adt p []) =
    if p = [if t = i!"Self" then me else t, x] then some [] else none := by rw [bindPat]
@[exec] theorem bindPat_or (me a b v) : bindPat me (.or a b) v = fits (bindPat me a v) some (bindPat me b v) := by
  rw [bindPat]

@[exec] theorem methodFn_bytes (bs name f) : methodFn (.bytes bs) name f =
    if name = i!"position" then andThen (position f 0 bs) fun r => .ok (optV (r.map .usize)) else stuck := rfl
@[exec] theorem methodFn_pieces (l name f) : methodFn (.pieces l) name f =
    if name = i!"all" then allV f l else stuck := rfl
@[exec] theorem methodFn_adt (t a name f) : methodFn (.adt [t] [a]) name f =
    if name = i!"map" then
      if t = i!"Some" ∨ t = i!"Ok" then andThen (f a) fun r => .ok (.adt [t] [r])
      else if t = i!"Err" then .ok (.adt [t] [a]) else stuck
    else if name = i!"map_err" then
      if t = i!"Ok" then .ok (.adt [t] [a])
      else if t = i!"Err" then andThen (f a) fun r => .ok (.adt [t] [r]) else stuck
    else stuck := rfl
@[exec] theorem methodFn_adt0 (t name f) : methodFn (.adt [t] []) name f =
    if name = i!"map" ∧ t = i!"None" then .ok noneV else stuck := rfl
@[exec] theorem methodPath_pend (how bs name p) : methodPath c (.pend how (.bytes bs)) name p =
    if name = i!"map" ∧ p = [i!"u32", i!"from_le_bytes"] then
      match u32FromSlice bs with
      | .ok x =>
        if how = i!"try_into" then .ok (okV (.u32 x)) else if how = i!"ok" then .ok (someV (.u32 x)) else stuck
      | .error _ =>
        if how = i!"try_into" then .ok (errV .unit) else if how = i!"ok" then .ok noneV else stuck
    else stuck := rfl
@[exec] theorem methodPath_adt (a b name p) : methodPath c (.adt a b) name p =
    methodFn (.adt a b) name fun w => callFn c p [w] := rfl
@[exec] theorem methodPath_pieces (l name p) : methodPath c (.pieces l) name p =
    methodFn (.pieces l) name fun w => callFn c p [w] := rfl

/-- One round of a `for` loop -/
def forBody (c : Ctx) (x : Name) (body : Stmts) (v : W) (env : Env) : Res :=
  scope env.length (evalS c body ((x, v) :: env))

@[exec high] theorem eval_for (x : Name) (e : Expr) (body : Stmts) (env : Env) :
    eval c (.for_ x e body) env = bindV (eval c e env) fun v env =>
      need (elems v) fun vs => forLoop (forBody c x body) vs env := by
  rw [eval]
  rfl

/-- A function that is given to a method -/
def closure (c : Ctx) (x : Name) (body : Expr) (env : Env) (w : W) : O W :=
  andThen (eval c body ((x, w) :: env)) fun r =>
    match r.1 with
    | .val u => .ok u
    | _ => stuck

@[exec high] theorem eval_methFn (e : Expr) (f x : Name) (body : Expr) (env : Env) :
    eval c (.methFn e f x body) env = bindV (eval c e env) fun v env =>
      andThen (methodFn v f (closure c x body env)) fun w => .ok (.val w, env) := by
  rw [eval]
  rfl

end Ublox.Exec
