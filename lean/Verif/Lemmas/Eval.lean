import Verif.Lemmas.RustAttr
import Verif.Model.Eval
import Verif.Spec.Values
import Verif.Model.GenCode

/-!
# Evaluation step by step
-/

set_option linter.unusedSectionVars false

namespace Ublox.Code

open UnderlyingBuffer

section

variable {α β γ : Type}

@[rust] theorem lift_ok (a : α) (k : α → O β) : lift (.ok a) k = k a := rfl
@[rust] theorem lift_pure (a : α) (k : α → O β) : lift (pure a) k = k a := rfl
@[rust] theorem lift_error (p : Panic) (k : α → O β) : lift (.error p) k = .error (.panic p) := rfl
@[rust] theorem lift_throw (p : Panic) (k : α → O β) : lift (throw p) k = .error (.panic p) := rfl
@[rust] theorem lift_bind (x : R α) (f : α → R γ) (k : γ → O β) :
    lift (x >>= f) k = lift x fun a => lift (f a) k := by cases x <;> rfl
@[rust] theorem lift_map (x : R α) (f : α → γ) (k : γ → O β) :
    lift (f <$> x) k = lift x fun a => k (f a) := by cases x <;> rfl
@[rust] theorem lift_ite {c : Prop} [Decidable c] (a b : R α) (k : α → O β) :
    lift (if c then a else b) k = if c then lift a k else lift b k := by split <;> rfl

@[rust] theorem andThen_ok (a : α) (k : α → O β) : andThen (.ok a) k = k a := rfl
@[rust] theorem andThen_error (e : Stop) (k : α → O β) : andThen (.error e) k = .error e := rfl
@[rust] theorem andThen_lift (x : R α) (f : α → O γ) (k : γ → O β) :
    andThen (lift x f) k = lift x fun a => andThen (f a) k := by cases x <;> rfl
@[rust] theorem andThen_andThen (x : O α) (f : α → O γ) (k : γ → O β) :
    andThen (andThen x f) k = andThen x fun a => andThen (f a) k := by cases x <;> rfl
@[rust] theorem andThen_ite {c : Prop} [Decidable c] (a b : O α) (k : α → O β) :
    andThen (if c then a else b) k = if c then andThen a k else andThen b k := by split <;> rfl

variable {T P : Type}

@[rust] theorem bindV_val (v : V T P) (env : Env T P) (k : V T P → Env T P → Res T P) :
    bindV (.ok (.val v, env)) k = k v env := rfl
@[rust] theorem bindV_ret (v : V T P) (env : Env T P) (k : V T P → Env T P → Res T P) :
    bindV (.ok (.ret v, env)) k = .ok (.ret v, env) := rfl
@[rust] theorem bindV_brk (env : Env T P) (k : V T P → Env T P → Res T P) :
    bindV (.ok (.brk, env)) k = .ok (.brk, env) := rfl
@[rust] theorem bindV_cont (env : Env T P) (k : V T P → Env T P → Res T P) :
    bindV (.ok (.cont, env)) k = .ok (.cont, env) := rfl
@[rust] theorem bindV_error (e : Stop) (k : V T P → Env T P → Res T P) :
    bindV (.error e) k = .error e := rfl
@[rust] theorem bindV_lift (x : R α) (f : α → Res T P) (k : V T P → Env T P → Res T P) :
    bindV (lift x f) k = lift x fun a => bindV (f a) k := by cases x <;> rfl
@[rust] theorem bindV_andThen (x : O α) (f : α → Res T P) (k : V T P → Env T P → Res T P) :
    bindV (andThen x f) k = andThen x fun a => bindV (f a) k := by cases x <;> rfl
@[rust] theorem bindV_ite {c : Prop} [Decidable c] (a b : Res T P) (k : V T P → Env T P → Res T P) :
    bindV (if c then a else b) k = if c then bindV a k else bindV b k := by split <;> rfl

@[rust] theorem scope_ok (n : Nat) (o : Out T P) (env : Env T P) :
    scope n (.ok (o, env)) = .ok (o, env.drop (env.length - n)) := rfl
@[rust] theorem scope_error (n : Nat) (e : Stop) : scope n (.error e : Res T P) = .error e := rfl
@[rust] theorem scope_lift (n : Nat) (x : R α) (f : α → Res T P) :
    scope n (lift x f) = lift x fun a => scope n (f a) := by cases x <;> rfl
@[rust] theorem scope_andThen (n : Nat) (x : O α) (f : α → Res T P) :
    scope n (andThen x f) = andThen x fun a => scope n (f a) := by cases x <;> rfl
@[rust] theorem scope_ite (n : Nat) {c : Prop} [Decidable c] (a b : Res T P) :
    scope n (if c then a else b) = if c then scope n a else scope n b := by split <;> rfl

end

section

variable {T P : Type} [UnderlyingBuffer T]

@[congr] theorem bindV_congr {r r' : Res T P} (k : V T P → Env T P → Res T P) (h : r = r') :
    bindV r k = bindV r' k := by rw [h]
@[congr] theorem andThen_congr {α β : Type} {x x' : O α} (k : α → O β) (h : x = x') :
    andThen x k = andThen x' k := by rw [h]
@[congr] theorem eval_congr (c : Ctx T P) (e : Expr) {env env' : Env T P} (h : env = env') :
    eval c e env = eval c e env' := by rw [h]
@[congr] theorem evals_congr (c : Ctx T P) (es : Exprs) {env env' : Env T P} (k) (h : env = env') :
    evals c es env k = evals c es env' k := by rw [h]
@[congr] theorem evalF_congr (c : Ctx T P) (es : Fields) {env env' : Env T P} (k) (h : env = env') :
    evalF c es env k = evalF c es env' k := by rw [h]
@[congr] theorem evalS_congr (c : Ctx T P) (e : Stmts) {env env' : Env T P} (h : env = env') :
    evalS c e env = evalS c e env' := by rw [h]
@[congr] theorem evalA_congr (c : Ctx T P) (e : Arms) {v v' : V T P} {env env' : Env T P} (h : v = v')
    (h' : env = env') : evalA c e v env = evalA c e v' env' := by rw [h, h']
@[congr] theorem store_congr (c : Ctx T P) (e : Expr) {v v' : V T P} {env env' : Env T P} (h : v = v')
    (h' : env = env') : store c e v env = store c e v' env' := by rw [h, h']

attribute [rust] eval evals evalF evalS evalA store runFn constV call builtin structName bytesMethod bufMethod
  intMethod
attribute [rust] reduceIte Nat.reduceEqDiff List.cons.injEq reduceCtorEq and_true true_and and_false false_and
  List.length_cons List.length_nil List.zip_cons_cons List.zip_nil_right Option.map_some Option.getD_some
  Nat.reduceAdd List.cons_append List.nil_append List.drop_succ_cons List.drop_zero Nat.add_sub_cancel Nat.reduceSub
  Bool.not_true Bool.not_false decide_eq_true_eq Bool.false_eq_true or_false or_true

variable (c : Ctx T P)

@[rust] theorem get_cons (x y : Name) (v : V T P) (env) : get x ((y, v) :: env) = if y = x then some v else get x env := rfl
@[rust] theorem get_nil (x : Name) : get x ([] : Env T P) = .none := rfl
@[rust] theorem set_cons (x y : Name) (v w : V T P) (env) :
    set x v ((y, w) :: env) = if y = x then some ((y, v) :: env) else (set x v env).map ((y, w) :: ·) := rfl
@[rust] theorem pathV_one (x : Name) (env : Env T P) :
    pathV c [x] env = match get x env with | some v => .ok v | _ => constV c [x] := rfl
@[rust] theorem pathV_two (x y : Name) (l) (env : Env T P) : pathV c (x :: y :: l) env = constV c (x :: y :: l) := rfl
@[rust] theorem getField_struct (n fs f) : getField (.struct n fs : V T P) f =
    match get f fs with | some w => .ok w | _ => stuck := rfl
@[rust] theorem getField_range (lo hi f) : getField (.range lo hi : V T P) f =
    if f = i!"start" then .ok (.int lo) else if f = i!"end" then .ok (.int hi) else stuck := rfl
@[rust] theorem getField_pair (a b : V T P) (f) : getField (.pair a b) f =
    if f = i!"0" then .ok a else if f = i!"1" then .ok b else stuck := rfl
@[rust] theorem setField_struct (n fs f) (w : V T P) : setField (.struct n fs : V T P) f w =
    match set f w fs with | some fs => .ok (.struct n fs) | _ => stuck := rfl
@[rust] theorem binary_add (M a b : Nat) :
    binary M .add (.int a : V T P) (.int b) = lift (uadd M a b) fun n => .ok (.int n) := rfl
@[rust] theorem binary_sub (M a b : Nat) :
    binary M .sub (.int a : V T P) (.int b) = lift (usub a b) fun n => .ok (.int n) := rfl
@[rust] theorem binary_eq (M : Nat) (a b : V T P) :
    binary M .eq a b = match equal a b with | some x => .ok (.bool x) | _ => stuck := rfl
@[rust] theorem binary_ne (M : Nat) (a b : V T P) :
    binary M .ne a b = match equal a b with | some x => .ok (.bool (!x)) | _ => stuck := rfl
@[rust] theorem binary_lt (M a b : Nat) :
    binary M .lt (.int a : V T P) (.int b) = .ok (.bool (decide (a < b))) := rfl
@[rust] theorem binary_gt (M a b : Nat) :
    binary M .gt (.int a : V T P) (.int b) = .ok (.bool (decide (a > b))) := rfl
@[rust] theorem binary_le (M a b : Nat) :
    binary M .le (.int a : V T P) (.int b) = .ok (.bool (decide (a ≤ b))) := rfl
@[rust] theorem binary_ge (M a b : Nat) :
    binary M .ge (.int a : V T P) (.int b) = .ok (.bool (decide (a ≥ b))) := rfl
@[rust] theorem equal_int (a b : Nat) : equal (.int a : V T P) (.int b) = some (decide (a = b)) := rfl
@[rust] theorem equal_pair (a b x y : Nat) :
    equal (.pair (.int a) (.int b) : V T P) (.pair (.int x) (.int y)) = some (decide (a = x ∧ b = y)) := rfl
@[rust] theorem method_struct (s fs f) (vs : List (V T P)) : method c (.struct [s] fs) f vs =
    andThen (c.user false s f (.struct [s] fs :: vs)) fun r => .ok (r.1, some r.2) := rfl
@[rust] theorem method_buf (t f) (vs : List (V T P)) : method c (.buf t) f vs = bufMethod c t f vs := rfl
@[rust] theorem method_bytes (t f) (vs : List (V T P)) : method c (.bytes t) f vs = bytesMethod c.M t f vs := rfl
@[rust] theorem method_int (t f) (vs : List (V T P)) : method c (.int t) f vs =
    andThen (intMethod t f vs) fun v => .ok (v, .none) := rfl
@[rust] theorem method_ptr (x fs off f n) : method c (.ptr x fs off) f [.int n] =
    if f = i!"add" then .ok (.ptr x fs (off + n), .none) else stuck := rfl
@[rust] theorem indexBytes_int (bs i) : indexBytes bs (.int i : V T P) =
    lift (getByte bs i) fun b => .ok (.int b.toNat) := rfl
@[rust] theorem indexBytes_range (bs lo hi) : indexBytes bs (.range lo hi : V T P) =
    lift (sliceRange bs lo hi) fun b => .ok (.bytes b) := rfl
@[rust] theorem indexBytes_rangeFrom (bs lo) : indexBytes bs (.rangeFrom lo : V T P) =
    lift (sliceFrom bs lo) fun b => .ok (.bytes b) := rfl
@[rust] theorem indexBytes_rangeTo (bs hi) : indexBytes bs (.rangeTo hi : V T P) =
    lift (sliceRange bs 0 hi) fun b => .ok (.bytes b) := rfl
@[rust] theorem indexV_bytes (bs i) : indexV c (.bytes bs) i = indexBytes bs i := rfl
@[rust] theorem indexV_buf_int (t i) : indexV c (.buf t) (.int i) = lift (index t i) fun b => .ok (.int b.toNat) := rfl
@[rust] theorem indexV_buf_range (t lo hi) : indexV c (.buf t) (.range lo hi) =
    lift (range t lo hi) fun b => .ok (.bytes b) := rfl
@[rust] theorem indexV_struct_int (s fs i) : indexV c (.struct [s] fs) (.int i) =
    andThen (c.user false s i!"index" [.struct [s] fs, .int i]) fun r => .ok r.1 := rfl
@[rust] theorem indexV_struct_range (s fs lo hi) : indexV c (.struct [s] fs) (.range lo hi) =
    andThen (c.user true s i!"index" [.struct [s] fs, .range lo hi]) fun r => .ok r.1 := rfl
@[rust] theorem bindPat_name (x) (v : V T P) : bindPat (.name x) v = some [(x, v)] := rfl
@[rust] theorem bindPat_pair (x y) (a b : V T P) : bindPat (.pair x y) (.pair a b) = some [(y, b), (x, a)] := rfl
@[rust] theorem bindPat_ctor (x y z) (v : V T P) : bindPat (.ctor x [y]) (.ctor z v) =
    if x = z then some [(y, v)] else .none := rfl
@[rust] theorem bindPat_ctor_none (x y) : bindPat (.ctor x [y]) (.none : V T P) = .none := rfl
@[rust] theorem bindPat_none (x) : bindPat (.ctor x []) (.none : V T P) = if x = i!"None" then some [] else .none := rfl


attribute [rust] beq_iff_eq

omit [UnderlyingBuffer T] in
@[rust] theorem errV_outOfMemory (n : Nat) :
    (errV (.outOfMemory n) : V T P) = .struct [i!"ParserError", i!"OutOfMemory"] [(i!"required_size", .int n)] := rfl
@[rust] theorem byteList_nil : byteList ([] : List (V T P)) = some [] := rfl
@[rust] theorem byteList_two (a b : UInt8) :
    byteList [(.int a.toNat : V T P), .int b.toNat] = some [a, b] := by
  have ha := a.toNat_lt
  have hb := b.toNat_lt
  simp [byteList, ha, hb]

/-- One round of a `for` loop -/
def forBody (c : Ctx T P) (x : Name) (body : Stmts) (v : V T P) (env : Env T P) : Res T P :=
  scope env.length (evalS c body ((x, v) :: env))

@[rust high] theorem eval_for (x : Name) (e : Expr) (body : Stmts) (env : Env T P) :
    eval c (.for_ x e body) env = bindV (eval c e env) fun v env =>
      match elems v with | some vs => forLoop (forBody c x body) vs env | _ => stuck := by
  rw [eval]
  rfl

/-- The function that is given to `find` -/
def closure (c : Ctx T P) (x : Name) (body : Expr) (env : Env T P) (w : V T P) : O (V T P) :=
  andThen (eval c body ((x, w) :: env)) fun r =>
    match r.1 with
    | .val u => .ok u
    | _ => stuck

@[rust high] theorem eval_methFn (e : Expr) (f x : Name) (body : Expr) (env : Env T P) :
    eval c (.methFn e f x body) env = bindV (eval c e env) fun v env =>
      andThen (methodFn v f (closure c x body env)) fun w => .ok (.val w, env) := by
  rw [eval]
  rfl

/-- One round of a `while` loop -/
def whileBody (c : Ctx T P) (body : Stmts) (env : Env T P) : Res T P := scope env.length (evalS c body env)

@[rust high] theorem eval_while (b : Expr) (body : Stmts) (env : Env T P) :
    eval c (.while_ b body) env = whileLoop (eval c b) (whileBody c body) c.rounds env := by
  rw [eval]
  rfl

@[rust] theorem elems_bytes (bs : Bytes) : elems (.bytes bs : V T P) = some (bs.map fun b => .int b.toNat) := rfl
@[rust] theorem elems_range (lo hi : Nat) : elems (.range lo hi : V T P) =
    some ((List.range' lo (hi - lo)).map .int) := rfl
@[rust] theorem methodFn_range (lo hi : Nat) (f : Name) (g : V T P → O (V T P)) : methodFn (.range lo hi) f g =
    if f = i!"find" then andThen (findFrom g lo (hi - lo)) fun r => .ok (optV r) else stuck := rfl
@[rust] theorem methodFn_bytes (bs : Bytes) (f : Name) (g : V T P → O (V T P)) : methodFn (.bytes bs) f g =
    if f = i!"position" then andThen (position g 0 bs) fun r => .ok (optV r) else stuck := rfl

theorem findFrom_index {g : V T P → O (V T P)} {idx : Nat → R UInt8} {value : UInt8}
    (h : ∀ i, g (.int i) = lift (idx i) fun b => .ok (.bool (b == value))) (i n : Nat) :
    findFrom g i n = lift (findIndex idx value i n) .ok := by
  induction n generalizing i with
  | zero => rfl
  | succ n ih =>
    simp only [findFrom, findIndex, h, rust]
    congr 1
    funext b
    by_cases hb : b = value
    · simp [hb]
    · simp [hb, ih, beq_eq_false_iff_ne.2 hb]

theorem position_findIdx {g : V T P → O (V T P)} {value : UInt8}
    (h : ∀ b : UInt8, g (.int b.toNat) = .ok (.bool (b == value))) (i : Nat) (bs : Bytes) :
    position g i bs = .ok ((bs.findIdx? (· == value)).map (· + i)) := by
  induction bs generalizing i with
  | nil => rfl
  | cons b bs ih =>
    simp only [position, h, rust, List.findIdx?_cons]
    by_cases hb : b = value
    · simp [hb]
    · simp only [hb, ih, beq_eq_false_iff_ne.2 hb, if_false, Option.map_map]
      congr 2
      funext k
      simp only [Function.comp]
      omega

theorem forLoop_bytes {body : V T P → Env T P → Res T P} (E : UInt8 → UInt8 → Env T P)
    (h : ∀ (b x y : UInt8), body (.int b.toNat) (E x y) = .ok (.val .unit, E (x + b) (y + (x + b))))
    (bs : Bytes) (x y : UInt8) :
    forLoop body (bs.map fun b => .int b.toNat) (E x y) =
      .ok (.val .unit, E (ParserChecksum.update.loop bs x y).1 (ParserChecksum.update.loop bs x y).2) := by
  induction bs generalizing x y with
  | nil => rfl
  | cons b bs ih => simp only [List.map_cons, forLoop, h, ih, ParserChecksum.update.loop]

theorem toNat_add (a b : UInt8) : (a.toNat + b.toNat) % 256 = (a + b).toNat := by
  rw [UInt8.toNat_add]

/-! ## `DualBuffer` -/

theorem dual_index (d : DualBuffer T) (i : Nat) :
    runFn c Gen.parserRs_DualBuffer_Index_index [dualV d, .int i] =
      lift (d.index c.M i) fun b => .ok (.int b.toNat, dualV d) := by
  simp only [rust, Gen.parserRs_DualBuffer_Index_index, dualV, DualBuffer.index]

theorem dual_new (b : T) (bs : Bytes) (h : c.me = i!"DualBuffer") :
    runFn c Gen.parserRs_DualBuffer_new [.buf b, .bytes bs] = .ok (dualV (DualBuffer.new b bs), .unit) := by
  simp only [rust, Gen.parserRs_DualBuffer_new, dualV, DualBuffer.new, h]
  rfl

theorem dual_len (d : DualBuffer T) :
    runFn c Gen.parserRs_DualBuffer_len [dualV d] = lift (d.length c.M) fun n => .ok (.int n, dualV d) := by
  simp only [rust, Gen.parserRs_DualBuffer_len, dualV, DualBuffer.length]

theorem dual_drain (d : DualBuffer T) (n : Nat) :
    runFn c Gen.parserRs_DualBuffer_drain [dualV d, .int n] =
      lift (d.drain c.M n) fun d => .ok (.unit, dualV d) := by
  simp only [rust, Gen.parserRs_DualBuffer_drain, dualV, DualBuffer.drain]

theorem dual_canDrainAndTake (d : DualBuffer T) (n k : Nat) :
    runFn c Gen.parserRs_DualBuffer_can_drain_and_take [dualV d, .int n, .int k] =
      lift (d.canDrainAndTake c.M n k) fun b => .ok (.bool b, dualV d) := by
  simp only [rust, Gen.parserRs_DualBuffer_can_drain_and_take, dualV, DualBuffer.canDrainAndTake]

theorem dual_peekRaw (d : DualBuffer T) (n k : Nat) :
    runFn c Gen.parserRs_DualBuffer_peek_raw [dualV d, .range n k] =
      lift (d.peekRaw c.M n k) fun r => .ok (.pair (.bytes r.1) (.bytes r.2), dualV d) := by
  simp only [rust, Gen.parserRs_DualBuffer_peek_raw, dualV, DualBuffer.peekRaw]

theorem dual_take (d : DualBuffer T) (n : Nat) :
    runFn c Gen.parserRs_DualBuffer_take [dualV d, .int n] =
      lift (d.take c.M n) fun r => .ok (takeV r.1, dualV r.2) := by
  simp only [rust, Gen.parserRs_DualBuffer_take, dualV, DualBuffer.take, takeV]

theorem dual_drop (d : DualBuffer T) :
    runFn c Gen.parserRs_DualBuffer_Drop_drop [dualV d] =
      lift d.dropDual fun b => .ok (.unit, dualV { d with buf := b }) := by
  simp only [rust, Gen.parserRs_DualBuffer_Drop_drop, dualV, DualBuffer.dropDual]

/-! ## Functions that call others -/

@[rust] theorem method_dual (d : DualBuffer T) (f) (vs : List (V T P)) : method c (dualV d) f vs =
    andThen (c.user false i!"DualBuffer" f (dualV d :: vs)) fun r => .ok (r.1, some r.2) := rfl
@[rust] theorem indexV_dual (d : DualBuffer T) (i) : indexV c (dualV d) (.int i) =
    andThen (c.user false i!"DualBuffer" i!"index" [dualV d, .int i]) fun r => .ok r.1 := rfl
@[rust] theorem getField_dual (d : DualBuffer T) (f) : getField (dualV d : V T P) f =
    match get f [(i!"buf", .buf d.buf), (i!"off", .int d.off), (i!"new_buf", .bytes d.newBuf),
      (i!"new_buf_offset", .int d.newOff)] with | some w => .ok w | _ => stuck := rfl

/-- The functions of `DualBuffer` that call no other function of the file do in a context what the model does. -/
structure DualOk (c : Ctx T P) : Prop where
  index : ∀ d i, c.user false i!"DualBuffer" i!"index" [dualV d, .int i] =
    lift (d.index c.M i) fun b => .ok (.int b.toNat, dualV d)
  new : ∀ b bs, c.user false i!"DualBuffer" i!"new" [.buf b, .bytes bs] = .ok (dualV (DualBuffer.new b bs), .unit)
  len : ∀ d, c.user false i!"DualBuffer" i!"len" [dualV d] = lift (d.length c.M) fun n => .ok (.int n, dualV d)
  drain : ∀ d n, c.user false i!"DualBuffer" i!"drain" [dualV d, .int n] =
    lift (d.drain c.M n) fun d => .ok (.unit, dualV d)
  can : ∀ d n k, c.user false i!"DualBuffer" i!"can_drain_and_take" [dualV d, .int n, .int k] =
      lift (d.canDrainAndTake c.M n k) fun b => .ok (.bool b, dualV d)
  peek : ∀ d n k, c.user false i!"DualBuffer" i!"peek_raw" [dualV d, .range n k] =
      lift (d.peekRaw c.M n k) fun r => .ok (.pair (.bytes r.1) (.bytes r.2), dualV d)
  take : ∀ d n, c.user false i!"DualBuffer" i!"take" [dualV d, .int n] =
      lift (d.take c.M n) fun r => .ok (takeV r.1, dualV r.2)

/-- The same for the functions that call them. -/
structure DualOk2 (c : Ctx T P) : Prop extends DualOk c where
  clear : ∀ d, c.user false i!"DualBuffer" i!"clear" [dualV d] = lift (d.clear c.M) fun d => .ok (.unit, dualV d)
  lost : ∀ d, c.user false i!"DualBuffer" i!"potential_lost_bytes" [dualV d] =
    lift (d.potentialLostBytes c.M) fun n => .ok (.int n, dualV d)

variable {c}

theorem dual_clear (h : DualOk c) (d : DualBuffer T) :
    runFn c Gen.parserRs_DualBuffer_clear [dualV d] = lift (d.clear c.M) fun d => .ok (.unit, dualV d) := by
  simp only [rust, Gen.parserRs_DualBuffer_clear, DualBuffer.clear, h.len, h.drain]

theorem dual_lost (h : DualOk c) (d : DualBuffer T) :
    runFn c Gen.parserRs_DualBuffer_potential_lost_bytes [dualV d] =
      lift (d.potentialLostBytes c.M) fun n => .ok (.int n, dualV d) := by
  simp only [rust, Gen.parserRs_DualBuffer_potential_lost_bytes, DualBuffer.potentialLostBytes, h.len]

theorem calc_new (h : c.me = i!"UbxChecksumCalc") :
    runFn c Gen.parserRs_UbxChecksumCalc_new [] = .ok (calcV ParserChecksum.new, .unit) := by
  simp only [rust, Gen.parserRs_UbxChecksumCalc_new, calcV, ParserChecksum.new, h]
  rfl

theorem calc_update (k : ChecksumCalc) (bs : Bytes) :
    runFn c Gen.parserRs_UbxChecksumCalc_update [calcV k, .bytes bs] =
      .ok (.unit, calcV (ParserChecksum.update k bs)) := by
  simp only [rust, Gen.parserRs_UbxChecksumCalc_update, calcV, ParserChecksum.update]
  rw [forLoop_bytes (fun x y => [(i!"b", .int y.toNat), (i!"a", .int x.toNat),
    (i!"self", .struct [i!"UbxChecksumCalc"] [(i!"ck_a", .int k.ckA.toNat), (i!"ck_b", .int k.ckB.toNat)]),
    (i!"bytes", .bytes bs)])]
  · simp only [rust]
  · intro b x y
    simp only [rust, toNat_add]

theorem calc_result (k : ChecksumCalc) :
    runFn c Gen.parserRs_UbxChecksumCalc_result [calcV k] =
      .ok (.pair (.int (ParserChecksum.result k).1.toNat) (.int (ParserChecksum.result k).2.toNat), calcV k) := by
  simp only [rust, Gen.parserRs_UbxChecksumCalc_result, calcV, ParserChecksum.result]

/-! ## `ParserIter` -/

theorem toNat_eq (a b : UInt8) : decide (a.toNat = b.toNat) = (a == b) := by
  simp [UInt8.toNat_inj, BEq.beq]

theorem iter_findSync (h : DualOk c) (it : ParserIter T) :
    runFn c Gen.parserRs_ParserIter_find_sync [iterV it] =
      lift (it.findSync c.M) fun r => .ok (optV r, iterV it) := by
  simp only [rust, Gen.parserRs_ParserIter_find_sync, iterV, h.len, ParserIter.findSync]
  congr 1
  funext n
  rw [findFrom_index (idx := it.buf.index c.M) (value := SYNC_CHAR_1)]
  · simp only [rust, Nat.sub_zero]
  · intro i
    simp only [rust, h.index, toNat_eq]


/-- What `ParserIter` needs: the functions of `DualBuffer`, those of `UbxChecksumCalc`, `find_sync`. -/
structure IterOk (c : Ctx T P) : Prop extends DualOk2 c where
  calcNew : c.user false i!"UbxChecksumCalc" i!"new" [] = .ok (calcV ParserChecksum.new, .unit)
  calcUpdate : ∀ k bs, c.user false i!"UbxChecksumCalc" i!"update" [calcV k, .bytes bs] =
    .ok (.unit, calcV (ParserChecksum.update k bs))
  calcResult : ∀ k, c.user false i!"UbxChecksumCalc" i!"result" [calcV k] =
    .ok (.pair (.int (ParserChecksum.result k).1.toNat) (.int (ParserChecksum.result k).2.toNat), calcV k)

@[rust] theorem method_calc (k : ChecksumCalc) (f) (vs : List (V T P)) : method c (calcV k) f vs =
    andThen (c.user false i!"UbxChecksumCalc" f (calcV k :: vs)) fun r => .ok (r.1, some r.2) := rfl

theorem u16FromLe_toNat (a b : UInt8) : (ParserIter.u16FromLe a b).toNat = le16 a b := by
  have : ∀ x y : BitVec 8, (x.setWidth 16 ||| y.setWidth 16 <<< 8).toNat = x.toNat + 256 * y.toNat := by
    decide +kernel
  exact this a.toBitVec b.toBitVec

@[rust] theorem errV_invalidChecksum (a b x y : UInt8) :
    (errV (.invalidChecksum (ParserIter.u16FromLe a b) (ParserIter.u16FromLe x y)) : V T P) =
      .struct [i!"ParserError", i!"InvalidChecksum"] [(i!"expect", .int (le16 a b)), (i!"got", .int (le16 x y))] := by
  simp only [errV, u16FromLe_toNat]

@[rust] theorem resV_error (e : ParserError) : (resV (.error e) : V T P) = .ctor i!"Err" (errV e) := rfl
@[rust] theorem answerV_some (r : Except ParserError P) : (answerV (some r) : V T P) = .ctor i!"Some" (resV r) := rfl
@[rust] theorem answerV_none : (answerV (.none : Option (Except ParserError P)) : V T P) = .none := rfl

theorem iter_extract (h : IterOk c) (it : ParserIter T) (n : Nat) :
    runFn c Gen.parserRs_ParserIter_extract_packet [iterV it, .int n] =
      lift (it.extractPacket c.M c.D n) fun r => .ok (answerV r.1, iterV r.2) := by
  simp only [rust, Gen.parserRs_ParserIter_extract_packet, iterV, h.can, h.lost, h.drain, h.index, h.peek, h.take,
    h.calcNew, h.calcUpdate, h.calcResult, ParserIter.extractPacket, Bool.not_eq_true',
    decide_eq_false_iff_not, UInt8.toNat_inj, ne_eq, Prod.mk.injEq]
  repeat' first | with_reducible rfl | refine congrArg (lift _) (funext fun _ => ?_) | refine ite_congr rfl (fun _ => ?_) (fun _ => ?_)
  rename_i r
  obtain ⟨r, d⟩ := r
  cases r <;> simp only [rust, takeV, UInt8.ofNat_toNat]

/-- What the loop of `next` needs in addition. -/
structure NextOk (c : Ctx T P) : Prop extends IterOk c where
  findSync : ∀ it, c.user false i!"ParserIter" i!"find_sync" [iterV it] =
    lift (it.findSync c.M) fun r => .ok (optV r, iterV it)
  extract : ∀ it n, c.user false i!"ParserIter" i!"extract_packet" [iterV it, .int n] =
    lift (it.extractPacket c.M c.D n) fun r => .ok (answerV r.1, iterV r.2)

@[rust] theorem method_iter (it : ParserIter T) (f) (vs : List (V T P)) : method c (iterV it) f vs =
    andThen (c.user false i!"ParserIter" f (iterV it :: vs)) fun r => .ok (r.1, some r.2) := rfl
@[rust] theorem getField_iter (it : ParserIter T) (f) : getField (iterV it : V T P) f =
    match get f [(i!"buf", dualV it.buf)] with | some w => .ok w | _ => stuck := rfl
@[rust] theorem setField_iter (it : ParserIter T) (d : DualBuffer T) :
    setField (iterV it : V T P) i!"buf" (dualV d) = .ok (iterV ⟨d⟩) := rfl

@[rust] theorem iter_eta (it : ParserIter T) : (⟨it.buf⟩ : ParserIter T) = it := rfl
@[rust] theorem optV_some (n : Nat) : (optV (some n) : V T P) = .ctor i!"Some" (.int n) := rfl
@[rust] theorem optV_none : (optV .none : V T P) = .none := rfl

/-- What one round of the loop of `next` leaves behind -/
def ctlV : ParserIter.Ctl (ParserIter T) (Option (Except ParserError P) × ParserIter T) → Res T P
  | .ret r => .ok (.ret (answerV r.1), [(i!"self", iterV r.2)])
  | .cont it => .ok (.cont, [(i!"self", iterV it)])

/-- The condition of a `while` loop, and then one round -/
def round (c : Ctx T P) (b : Expr) (body : Stmts) (env : Env T P) : Res T P :=
  bindV (eval c b env) fun v env =>
    match v with
    | .bool b => if b then whileBody c body env else .ok (.brk, env)
    | _ => stuck

/-- The condition and the body of the loop of `next`, `ublox/src/parser.rs:469-497` -/
def nextLoop : Expr × Stmts :=
  match Gen.parserRs_ParserIter_next.body with
  | .semi (.while_ b body) _ => (b, body)
  | _ => (.panic, .nil)

theorem iter_round (h : NextOk c) (it : ParserIter T) :
    round c nextLoop.1 nextLoop.2 [(i!"self", iterV it)] =
      if (it.buf.length c.M).toOption.any (· = 0) then .ok (.brk, [(i!"self", iterV it)])
      else lift (ParserIter.nextBody c.M c.D it) ctlV := by
  simp only [nextLoop, Gen.parserRs_ParserIter_next, round]
  simp only [rust, h.len, ParserIter.nextBody, whileBody, h.findSync]
  cases hl : it.buf.length c.M with
  | error p => rfl
  | ok l =>
    simp only [rust, Except.toOption, Option.any_some]
    by_cases hl0 : l = 0
    · simp [hl0]
    · have hl1 : l > 0 := Nat.pos_of_ne_zero hl0
      simp only [hl0, hl1, rust, if_true, if_false, decide_false, Bool.false_eq_true]
      refine congrArg (lift _) (funext fun r => ?_)
      cases r with
      | none => simp only [rust, h.clear, ctlV]
      | some pos =>
        simp only [rust, h.drain, h.len, h.index, h.extract, Bool.not_eq_true', decide_eq_false_iff_not,
          UInt8.toNat_inj, ne_eq, ctlV]

theorem whileLoop_succ {b : Expr} {env : Env T P} {r : R (V T P)} (hb : eval c b env = lift r fun v => .ok (.val v, env))
    (body : Stmts) (n : Nat) :
    whileLoop (eval c b) (whileBody c body) (n + 1) env =
      match round c b body env with
      | .ok (.val _, env) => whileLoop (eval c b) (whileBody c body) n env
      | .ok (.cont, env) => whileLoop (eval c b) (whileBody c body) n env
      | .ok (.brk, env) => .ok (.val .unit, env)
      | .ok (.ret v, env) => .ok (.ret v, env)
      | .error e => .error e := by
  simp only [whileLoop, round, hb]
  rcases r with e | v
  · rfl
  · cases v with
    | bool x => cases x <;> rfl
    | _ => rfl

/-- The loop of `next` with at most so many rounds, and what follows it -/
def nextRun (c : Ctx T P) (n : Nat) (it : ParserIter T) : O (V T P × V T P) :=
  match whileLoop (eval c nextLoop.1) (whileBody c nextLoop.2) n [(i!"self", iterV it)] with
  | .ok (.val _, env) => andThen (pathV c [i!"None"] env) fun v => .ok (v, (get i!"self" env).getD .unit)
  | .ok (.ret v, env) => .ok (v, (get i!"self" env).getD .unit)
  | .ok _ => stuck
  | .error e => .error e

theorem iter_next (it : ParserIter T) :
    runFn c Gen.parserRs_ParserIter_next [iterV it] = nextRun c c.rounds it := by
  simp only [nextRun, nextLoop, Gen.parserRs_ParserIter_next]
  simp only [runFn, evalS, eval_while, List.length_cons, List.length_nil, if_true, List.zip_cons_cons, List.zip_nil_right]
  generalize whileLoop _ _ c.rounds _ = w
  rcases w with e | ⟨o, env⟩
  · rfl
  · cases o with
    | val v =>
      simp only [bindV_val, eval]
      cases pathV c [i!"None"] env <;> rfl
    | _ => rfl

theorem nextRun_succ (h : NextOk c) (n : Nat) (it : ParserIter T) :
    nextRun c (n + 1) it = lift (ParserIter.nextBody c.M c.D it) fun r =>
      match r with
      | .ret r => .ok (answerV r.1, iterV r.2)
      | .cont it => nextRun c n it := by
  have hb : eval c nextLoop.1 [(i!"self", iterV it)] =
      lift (it.buf.length c.M |>.map fun l => V.bool (decide (l > 0)))
        fun v => .ok (.val v, [(i!"self", iterV it)]) := by
    simp only [nextLoop, Gen.parserRs_ParserIter_next]
    simp only [rust, h.len]
    cases it.buf.length c.M <;> rfl
  simp only [nextRun, whileLoop_succ hb, iter_round h]
  by_cases hl : (it.buf.length c.M).toOption.any (· = 0)
  · simp only [hl, if_true]
    have hb : ParserIter.nextBody c.M c.D it = .ok (.ret (.none, it)) := by
      cases hl' : it.buf.length c.M with
      | error p => rw [hl'] at hl; cases hl
      | ok l =>
        rw [hl'] at hl
        have : l = 0 := by simpa [Except.toOption] using hl
        subst this
        simp only [ParserIter.nextBody, hl']
        rfl
    rw [hb]
    rfl
  · simp only [hl]
    cases ParserIter.nextBody c.M c.D it with
    | error p => rfl
    | ok r =>
      cases r with
      | ret r => rfl
      | cont it => rfl

theorem nextRun_some {M : Nat} {D : Dispatch P} {it : ParserIter T}
    {r : R (Option (Except ParserError P) × ParserIter T)} (hr : ParserIter.next M D it = some r) :
    ∃ n, ∀ (c : Ctx T P), NextOk c → c.M = M → c.D = D → ∀ k, n ≤ k →
      nextRun c k it = lift r fun r => .ok (answerV r.1, iterV r.2) := by
  refine ParserIter.next.partial_correctness (M := M) (D := D)
    (fun it r => ∃ n, ∀ (c : Ctx T P), NextOk c → c.M = M → c.D = D → ∀ k, n ≤ k →
      nextRun c k it = lift r fun r => .ok (answerV r.1, iterV r.2)) ?_ it r hr
  intro next ih it r hr
  cases hb : ParserIter.nextBody M D it with
  | error p =>
    rw [hb] at hr
    cases hr
    refine ⟨1, fun c h hM hD k hk => ?_⟩
    subst hM hD
    obtain ⟨k, rfl⟩ := Nat.exists_eq_add_of_le' hk
    rw [nextRun_succ h, hb]
    rfl
  | ok b =>
    rw [hb] at hr
    cases b with
    | ret r' =>
      cases hr
      refine ⟨1, fun c h hM hD k hk => ?_⟩
      subst hM hD
      obtain ⟨k, rfl⟩ := Nat.exists_eq_add_of_le' hk
      rw [nextRun_succ h, hb]
      rfl
    | cont it' =>
      obtain ⟨n, hn⟩ := ih it' r hr
      refine ⟨n + 1, fun c h hM hD k hk => ?_⟩
      obtain ⟨k, rfl⟩ := Nat.exists_eq_add_of_le' (Nat.le_trans (Nat.le_add_left 1 n) hk)
      subst hM hD
      rw [nextRun_succ h, hb]
      exact hn c h rfl rfl k (by omega)

theorem nextRun_none (h : NextOk c) {it : ParserIter T} (hr : ParserIter.next c.M c.D it = .none) (n : Nat) :
    nextRun c n it = .error .fuel := by
  induction n generalizing it with
  | zero => rfl
  | succ n ih =>
    rw [ParserIter.next] at hr
    cases hb : ParserIter.nextBody c.M c.D it with
    | error p => rw [hb] at hr; cases hr
    | ok b =>
      rw [hb] at hr
      cases b with
      | ret r' => cases hr
      | cont it' =>
        rw [nextRun_succ h, hb]
        exact ih hr

end

end Ublox.Code
