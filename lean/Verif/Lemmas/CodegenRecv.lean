import Verif.Lemmas.RustEval
import Verif.Spec.Codegen

/-!
# The generated code for received packets
-/

namespace Ublox.Rust
open Spec

variable {W E : Type} (x : Externs W E)

/-! ## Reading the bytes of a field -/

theorem fieldCode_isByteArray (f : FieldDesc) {n : Nat} (h : f.ty.size = some n) :
    (fieldCode f).isFieldRawTyByteArray = match f.ty with
      | .bytes _ => true
      | _ => false := by
  cases hf : f.ty <;> simp_all [fieldCode, Syn.PackField.isFieldRawTyByteArray, rawTy, RawTy.size]

theorem seqR_bytes (data : Bytes) : ∀ n off,
    seqR ((List.range n).map fun i => V.byte (W := W) (E := E) <$> getByte data (off + i)) =
      (List.map V.byte) <$> readBytes data off n
  | 0, _ => rfl
  | n + 1, off => by
    rw [List.range_succ_eq_map, List.map_cons, List.map_map]
    simp only [seqR, readBytes, Nat.add_zero]
    have := seqR_bytes data n (off + 1)
    have h2 : ((fun i => V.byte (W := W) (E := E) <$> getByte data (off + i)) ∘ Nat.succ) =
        fun i => V.byte (W := W) (E := E) <$> getByte data (off + 1 + i) := by
      funext i; simp only [Function.comp, Nat.succ_eq_add_one]; congr 2; omega
    rw [h2, this]
    cases getByte data off with
    | error p => rfl
    | ok b => cases readBytes data (off + 1) n <;> rfl

theorem bytesOf_map (bs : Bytes) : bytesOf (bs.map (V.byte (W := W) (E := E))) = .ok bs := by
  induction bs with
  | nil => rfl
  | cons b bs ih =>
    simp only [List.map_cons, bytesOf, ih]
    rfl

theorem arrayV_map (bs : Bytes) : arrayV (bs.map (V.byte (W := W) (E := E))) = .bytes bs := by
  simp only [arrayV, bytesOf_map]

theorem eval_bytes {de : Expr} {env : Env W E} {data : Bytes}
    (hde : de.eval x env = Ev.lift (.ok (.bytes data)) env) (n off : Nat) :
    (Expr.array ((List.range n).map fun i => Expr.index de (usizeLit (off + i)))).eval x env =
      Ev.lift (V.bytes <$> readBytes data off n) env := by
  rw [eval_array x (rs := (List.range n).map fun i => V.byte <$> getByte data (off + i)), seqR_bytes]
  · cases readBytes data off n with
    | error p => rfl
    | ok bs =>
      show Ev.lift (.ok (arrayV (bs.map V.byte))) env = Ev.lift (.ok (.bytes bs)) env
      rw [arrayV_map]
  · rw [List.forall₂_map_left_iff, List.forall₂_map_right_iff, List.forall₂_same]
    intro i _
    rw [eval_index x hde (eval_usizeLit x _ env)]
    congr 1

theorem fromLeBytesV_rawTy {ty : RawTy} {n : Nat} (h : ty.size = some n)
    (hb : ∀ n, ty ≠ .bytes n) (mapped : Bool) (bs : Bytes) :
    fromLeBytesV (W := W) (E := E) (rawTy mapped ty) (.bytes bs) = rawV <$> ty.fromLeBytes bs := by
  cases ty <;> simp_all [RawTy.size, rawTy] <;>
    (simp only [fromLeBytesV]; exact (by
      first
        | (cases h : RawTy.fromLeBytes _ bs <;>
            simp [V.asBytes, bind, Except.bind, h, pure, Except.pure, rawV, Functor.map, Except.map])))

theorem eval_getRawFieldCode {f : FieldDesc} {n off : Nat} {de : Expr} {env : Env W E} {data : Bytes}
    (hn : f.ty.size = some n) (hde : de.eval x env = Ev.lift (.ok (.bytes data)) env)
    (hM : off + n ≤ x.maxUsize) :
    (getRawFieldCode (fieldCode f) n off de).eval x env =
      Ev.lift (rawV <$> getRawField f off data) env := by
  have hr : (fieldCode f).map.getAsRef = f.getAsRef := rfl
  simp only [getRawFieldCode, getRawField, hn, hr, fieldCode_isByteArray f hn]
  split
  · have hadd := eval_bin x .add (eval_usizeLit x off env) (eval_usizeLit x n env)
    rw [← eval_paren] at hadd
    rw [eval_slice x hde (eval_range x (eval_usizeLit x off env) hadd)]
    have : binV x.maxUsize .add (V.usize (W := W) (E := E) off) (V.usize n) = .ok (.usize (off + n)) := by
      show (do return V.usize (← uadd x.maxUsize (← Except.ok off) (← Except.ok n))) = _
      simp [uadd, hM, bind, Except.bind, pure, Except.pure]
    show Ev.lift (do
      let v ← (do
        let m ← Except.ok off
        let w ← binV x.maxUsize .add (V.usize off) (V.usize n)
        let n ← w.asUsize
        Except.ok (V.range m (some n)))
      sliceV (.bytes data) v) env = _
    rw [this]
    show Ev.lift (do return V.bytes (← sliceRange data off (off + n))) env = _
    cases sliceRange data off (off + n) <;> rfl
  · have hty' : (fieldCode f).ty = rawTy f.map.isSome f.ty := rfl
    cases hty : f.ty
    case bytes m =>
      simp only [if_true]
      rw [eval_bytes x hde]
      cases readBytes data off n <;> rfl
    case tail => simp [hty, RawTy.size] at hn
    all_goals
      simp only [Bool.false_eq_true, if_false]
      rw [hty', hty]
      rw [hty] at hn
      obtain rfl : _ = n := by simpa only [RawTy.size, Option.some.injEq] using hn
      simp only [rawTy, ne_eq, not_true_eq_false, false_or, reduceCtorEq, List.cons.injEq, and_true,
        Syn.Ty.path.injEq, if_false, if_true, Nat.reduceEqDiff, not_false_eq_true, or_false, or_self,
        true_or]
      first
        | rw [eval_index x hde (eval_usizeLit x off env)]
          show Ev.lift (do return V.byte (← getByte data off)) env = _
          cases getByte data off <;> rfl
        | rw [eval_fromLeBytes x _ (eval_bytes x hde _ off)]
          cases readBytes data off _ with
          | error p => rfl
          | ok bs =>
            exact congrArg (Ev.lift · env)
              (fromLeBytesV_rawTy (W := W) (E := E) hn (by intro n h; cases h) true bs)

/-! ## Calling a method -/

/-- The value of a function body. -/
def resultOf (q : Except (V W E) (V W E) × Env W E) : V W E :=
  match q.1 with
  | .ok v => v
  | .error v => v

theorem call_eq {f : FnDecl} {args : List (V W E)} (h : f.params.length = args.length) :
    f.call x args = resultOf <$> evalStmts x f.body (bindParams f.params args) := by
  simp only [FnDecl.call, FnDecl.run, h, ne_eq, not_true_eq_false, if_false]
  cases evalStmts x f.body (bindParams f.params args) with
  | error p => rfl
  | ok q =>
    obtain ⟨r, env⟩ := q
    cases r <;> rfl

theorem eval_selfBytes {env : Env W E} {name : String} {data : Bytes}
    (h : getVar .self_ env = some (refV name data)) :
    selfBytes.eval x env = Ev.lift (.ok (.bytes data)) env := by
  rw [selfBytes, eval_field x _ (eval_var x h)]
  simp [fieldV, refV, bind, Except.bind, List.lookup]

/-- A literal of a scale. -/
theorem eval_float (q : Rat) (env : Env W E) :
    (Expr.float q).eval x env = Ev.lift (.ok (.float q)) env := by
  simp only [Expr.eval]; rfl

theorem rawGetter_call {f : FieldDesc} {n off : Nat} (name : String) (data : Bytes)
    (hn : f.ty.size = some n) (hM : off + n ≤ x.maxUsize) :
    (rawGetter (fieldCode f) n off).call x [refV name data] = rawV <$> getRawField f off data := by
  rw [call_eq x rfl]
  show resultOf <$> evalStmts x [letE .val (getRawFieldCode (fieldCode f) n off selfBytes),
    .tail (.var .val)] [(.self_, refV name data)] = _
  rw [letE, stmts_let_lift x (eval_getRawFieldCode x hn (eval_selfBytes x rfl) hM)]
  cases getRawField f off data with
  | error p => rfl
  | ok r =>
    show resultOf <$> evalStmts x [.tail (.var .val)] [(.val, rawV r), (.self_, refV name data)] = _
    rw [stmts_tail, eval_var x (v := rawV r) rfl]
    rfl

/-- The functions of a field are those of its description. -/
structure FieldLinks (x : Externs W E) (f : FieldDesc) : Prop where
  fromFn : ∀ c, f.map = some c → ∀ r : RawVal,
    x.fn (convDesc f (rawTy true f.ty) c).fromFn (rawV r) = valV <$> c.convert f.mayFail r
  isValidFn : ∀ c, f.map = some c → f.mayFail = true → ∀ r : RawVal,
    x.fn (convDesc f (rawTy true f.ty) c).isValidFn (rawV r) = V.bool <$> c.isValid r

theorem _root_.Ublox.Spec.RecvLinks.field {x : Externs W E} {d : Ublox.PackDesc} (h : RecvLinks x d)
    {f : FieldDesc} (hf : f ∈ d.fields) : FieldLinks x f :=
  ⟨h.fromFn f hf, h.isValidFn f hf⟩

/-- The statement of the scale and the end of an accessor. -/
theorem scale_eval {f : FieldDesc} (v : Val) (env : Env W E) :
    resultOf <$> evalStmts x ((match f.scale with
      | some q => [letE .val (.bin .mul (.var .val) (.float q))]
      | none => []) ++ [.tail (.var .val)]) ((.val, valV v) :: env) =
    valV <$> (match f.scale with
      | some s => mulScale v s
      | none => (pure v : R Val)) := by
  cases f.scale with
  | none =>
    simp only [List.nil_append]
    rw [stmts_tail, eval_var x (v := valV v) rfl]
    rfl
  | some q =>
    simp only [List.cons_append, List.nil_append]
    rw [letE, stmts_let_lift x
      (eval_bin x .mul (eval_var x (v := valV v) rfl) (eval_float x q _))]
    show resultOf <$> ((do return V.val (← mulScale v q)) >>= _) = _
    cases mulScale v q with
    | error p => rfl
    | ok w =>
      show resultOf <$> evalStmts x [.tail (.var .val)] ((.val, .val w) :: (.val, valV v) :: env) = _
      rw [stmts_tail, eval_var x (v := .val w) rfl]
      rfl

theorem sizedGetter_call {f : FieldDesc} {n off : Nat} (name : String) (data : Bytes)
    (hn : f.ty.size = some n) (hM : off + n ≤ x.maxUsize) (hx : FieldLinks x f) :
    (sizedGetter (fieldCode f) n off).call x [refV name data] =
      valV <$> (getRawField f off data >>= f.convert) := by
  rw [call_eq x rfl]
  show resultOf <$> evalStmts x ([letE .val (getRawFieldCode (fieldCode f) n off selfBytes)] ++ _ ++ _ ++
    [.tail (.var .val)]) [(.self_, refV name data)] = _
  simp only [List.append_assoc, List.cons_append, List.nil_append]
  rw [letE, stmts_let_lift x (eval_getRawFieldCode x hn (eval_selfBytes x rfl) hM)]
  cases getRawField f off data with
  | error p => rfl
  | ok r =>
    show resultOf <$> evalStmts x _ [(.val, rawV r), (.self_, refV name data)] = valV <$> f.convert r
    have hmap : (fieldCode f).map.mapType = f.map.map (convDesc f (rawTy f.map.isSome f.ty)) := rfl
    have hscale : (fieldCode f).map.scale = f.scale := rfl
    rw [hmap, hscale]
    cases hf : f.map with
    | none =>
      simp only [Option.map_none, List.nil_append, FieldDesc.convert, hf]
      exact scale_eval x (.raw r) _
    | some c =>
      simp only [Option.map_some, Option.isSome_some, FieldDesc.convert, hf, List.cons_append,
        List.nil_append]
      rw [letE, stmts_let_lift x (eval_fn x _ (eval_var x (v := rawV r) rfl))]
      have : (Except.ok (rawV r) >>= x.fn (convDesc f (rawTy true f.ty) c).fromFn) =
          valV <$> c.convert f.mayFail r := hx.fromFn c hf r
      rw [this]
      cases c.convert f.mayFail r with
      | error p => rfl
      | ok v => exact scale_eval x v _

/-! ## Size functions -/

theorem SizeFn.run_le {s : SizeFn} {d : Ublox.PackDesc} {data : Bytes} {n : Nat}
    (h : s.run d data = .ok n) : n ≤ 128 := by
  unfold SizeFn.run at h
  cases hf : flagsOf d data with
  | error p => simp [hf, bind, Except.bind] at h
  | ok fl =>
    cases s with
    | dataLen =>
      simp only [hf, bind, Except.bind, pure, Except.pure, Except.ok.injEq] at h
      have : (fl >>> 11 &&& 0x1f).toNat ≤ 31 := by
        rw [UInt16.toNat_and]; exact Nat.and_le_right
      omega
    | calibTagLen =>
      simp only [hf, bind, Except.bind, pure, Except.pure, Except.ok.injEq] at h
      split at h <;> omega

theorem sumSizeFns_le {d : Ublox.PackDesc} {data : Bytes} : ∀ {ss : List SizeFn} {acc n : Nat},
    sumSizeFns d data acc ss = .ok n → n ≤ acc + 128 * ss.length
  | [], acc, n, h => by cases h; simp
  | s :: ss, acc, n, h => by
    simp only [sumSizeFns, bind, Except.bind] at h
    cases hs : s.run d data with
    | error p => simp [hs] at h
    | ok k =>
      simp only [hs] at h
      have h1 := sumSizeFns_le h
      have h2 := SizeFn.run_le hs
      simp only [List.length_cons]
      omega

theorem add_usize {M a b : Nat} (h : a + b ≤ M) :
    binV (W := W) (E := E) M .add (.usize a) (.usize b) = .ok (.usize (a + b)) := by
  show (do return V.usize (← uadd M (← Except.ok a) (← Except.ok b))) = _
  simp [uadd, h, bind, Except.bind, pure, Except.pure]

/-- The method that a size function stands for. -/
def SizeLinks (x : Externs W E) (d : Ublox.PackDesc) (s : SizeFn) : Prop :=
  ∀ payload, x.method (refV d.name payload) (pathText (sizeFnName s)) = V.usize <$> s.run d payload

theorem eval_sizeFn {d : Ublox.PackDesc} {s : SizeFn} (hs : SizeLinks x d s) {e : Expr}
    {env : Env W E} {data : Bytes} (he : e.eval x env = Ev.lift (.ok (refV d.name data)) env)
    (hv : ∀ y, e = .var y → getVar y env = some (refV d.name data)) :
    (Expr.meth e (.user (pathText (sizeFnName s))) []).eval x env =
      Ev.lift (V.usize <$> s.run d data) env := by
  refine eval_meth x he ?_ hv
  show (do return (← x.method (refV d.name data) (pathText (sizeFnName s)), refV d.name data)) = _
  rw [hs data]
  cases s.run d data <;> rfl

theorem eval_offsetSum {d : Ublox.PackDesc} {e : Expr} {env : Env W E} {data : Bytes}
    (he : e.eval x env = Ev.lift (.ok (refV d.name data)) env)
    (hv : ∀ y, e = .var y → getVar y env = some (refV d.name data)) :
    ∀ (ss : List SizeFn) (a : Expr) (k : Nat), (∀ s ∈ ss, SizeLinks x d s) →
      k + 128 * ss.length ≤ x.maxUsize → a.eval x env = Ev.lift (.ok (.usize k)) env →
      ((ss.map fun s => pathText (sizeFnName s)).foldl
        (fun acc s => .bin .add acc (.meth e (.user s) [])) a).eval x env =
        Ev.lift (V.usize <$> sumSizeFns d data k ss) env
  | [], a, k, _, _, ha => by
    simp only [List.map_nil, List.foldl_nil, sumSizeFns]
    exact ha
  | s :: ss, a, k, hl, hM, ha => by
    simp only [List.map_cons, List.foldl_cons, sumSizeFns]
    have hadd := eval_bin x .add ha (eval_sizeFn x (hl s (.head _)) he hv)
    cases hs : s.run d data with
    | ok n =>
      rw [hs] at hadd
      have hn := SizeFn.run_le hs
      simp only [List.length_cons] at hM
      refine eval_offsetSum he hv ss _ (k + n) (fun s h => hl s (.tail _ h)) (by omega) ?_
      rw [hadd]
      show Ev.lift (binV x.maxUsize .add (.usize k) (.usize n)) env = _
      rw [add_usize (by omega)]
    | error p =>
      rw [hs] at hadd
      have hadd : (Expr.bin .add a (.meth e (.user (pathText (sizeFnName s))) [])).eval x env =
          Ev.lift (.error p) env := hadd
      show _ = Ev.lift (.error p) env
      clear ha
      revert hadd
      generalize Expr.bin .add a (.meth e (.user (pathText (sizeFnName s))) []) = a'
      intro hadd
      clear hs hl hM
      induction ss generalizing a' with
      | nil => exact hadd
      | cons t ss ih =>
        simp only [List.map_cons, List.foldl_cons]
        refine ih _ ?_
        simp only [Expr.eval]
        rw [bind_error (hadd.trans rfl)]
        rfl

/-! ## Fields without known size -/

theorem scoped_push {m : Ev W E (V W E)} {env : Env W E} {r : R (V W E)} {y : Var} {w : V W E}
    (h : m env = (fun v => (.ok v, (y, w) :: env)) <$> r) : Ev.scoped m env = Ev.lift r env := by
  simp only [Ev.scoped, h]
  cases r with
  | error p => rfl
  | ok v =>
    show Except.ok (Except.ok v, ((y, w) :: env).drop ((env.length + 1) - env.length)) = _
    rw [Nat.add_sub_cancel_left]
    rfl

theorem fieldCode_sizeFn {f : FieldDesc} (h : f.sizeFn.isSome → f.map.isSome) :
    (fieldCode f).sizeFn = f.sizeFn.map sizeFnName := by
  cases hm : f.map with
  | some c => simp [Syn.PackField.sizeFn, fieldCode, hm, convDesc]
  | none =>
    cases hs : f.sizeFn with
    | none => simp [Syn.PackField.sizeFn, fieldCode, hm]
    | some s => simp [hm, hs] at h

theorem eval_tailBytesCode {d : Ublox.PackDesc} {g : Getter} {env : Env W E} {data : Bytes}
    (hself : getVar .self_ env = some (refV d.name data))
    (hmap : g.field.sizeFn.isSome → g.field.map.isSome)
    (hs : ∀ s ∈ g.sizeFns, SizeLinks x d s) (hs' : ∀ s, g.field.sizeFn = some s → SizeLinks x d s)
    (hM : g.off + 128 * (g.sizeFns.length + 1) ≤ x.maxUsize ∨ g.field.sizeFn = none) :
    (tailBytesCode (fieldCode g.field) g.off (g.sizeFns.map fun s => pathText (sizeFnName s))).eval x env =
      Ev.lift (V.bytes <$> g.tailBytes d data) env := by
  rw [tailBytesCode, fieldCode_sizeFn hmap]
  unfold Getter.tailBytes
  cases hf : g.field.sizeFn with
  | none =>
    simp only [Option.map_none]
    rw [eval_slice x (eval_selfBytes x hself) (eval_rangeFrom x (eval_usizeLit x g.off env))]
    show Ev.lift (do return V.bytes (← sliceFrom data g.off)) env = _
    cases sliceFrom data g.off <;> rfl
  | some s =>
    simp only [Option.map_some]
    have hM : g.off + 128 * (g.sizeFns.length + 1) ≤ x.maxUsize := by simpa [hf] using hM
    have hsum : (offsetSum g.off (.var .self_)
          (g.sizeFns.map fun s => pathText (sizeFnName s))).eval x env =
        Ev.lift (V.usize <$> sumSizeFns d data g.off g.sizeFns) env :=
      eval_offsetSum x (d := d) (data := data) (eval_var x hself)
      (fun y h => by cases h; exact hself) g.sizeFns (usizeLit g.off) g.off hs (by omega)
      (eval_usizeLit x g.off env)
    have hblock : (Expr.block
        [letE .offset (offsetSum g.off (.var .self_) (g.sizeFns.map fun s => pathText (sizeFnName s))),
         .tail (.range (.var .offset) (.bin .add (.var .offset)
           (selfCall (pathText (sizeFnName s)))))]).eval x env =
        Ev.lift (do
          let o ← sumSizeFns d data g.off g.sizeFns
          let n ← s.run d data
          return V.range o (some (o + n))) env := by
      simp only [Expr.eval]
      cases ho : sumSizeFns d data g.off g.sizeFns with
      | error p =>
        have h1 : evalStmts x [letE .offset (offsetSum g.off (.var .self_)
              (g.sizeFns.map fun s => pathText (sizeFnName s))),
            .tail (.range (.var .offset) (.bin .add (.var .offset)
              (selfCall (pathText (sizeFnName s)))))] env = .error p := by
          rw [letE, stmts_let_lift x hsum, ho]
          rfl
        simp only [Ev.scoped, h1]
        rfl
      | ok o =>
        have ho' := sumSizeFns_le ho
        refine scoped_push (y := .offset) (w := .usize o) ?_
        rw [letE, stmts_let_lift x hsum, ho]
        show evalStmts x [.tail (.range (.var .offset) (.bin .add (.var .offset)
              (selfCall (pathText (sizeFnName s)))))] ((.offset, .usize o) :: env) = _
        have hself' : getVar .self_ ((.offset, V.usize o) :: env) = some (refV d.name data) := hself
        have hcall : (selfCall (pathText (sizeFnName s))).eval x _ = Ev.lift _ _ :=
          eval_sizeFn x (hs' s hf) (eval_var x hself') (fun y h => by cases h; exact hself')
        rw [stmts_tail, eval_range x (eval_var x (y := .offset) (v := .usize o) rfl)
          (eval_bin x .add (eval_var x (y := .offset) (v := .usize o) rfl) hcall)]
        cases hn : s.run d data with
        | error p => rfl
        | ok n =>
          have hn' := SizeFn.run_le hn
          show Ev.lift (do
            let w ← binV x.maxUsize .add (.usize o) (.usize n)
            let n ← w.asUsize
            Except.ok (V.range o (some n))) _ = _
          rw [add_usize (by omega)]
          rfl
    rw [eval_slice x (eval_selfBytes x hself) hblock]
    cases sumSizeFns d data g.off g.sizeFns with
    | error p => rfl
    | ok o =>
      show Ev.lift (do
        let r ← (do let n ← s.run d data; return V.range o (some (o + n)))
        sliceV (.bytes data) r) env = Ev.lift (V.bytes <$> (do
          sliceRange data o (o + (← s.run d data)))) env
      cases s.run d data with
      | error p => rfl
      | ok n =>
        show Ev.lift (do return V.bytes (← sliceRange data o (o + n))) env =
          Ev.lift (V.bytes <$> sliceRange data o (o + n)) env
        cases sliceRange data o (o + n) <;> rfl

theorem unsizedGetter_call {d : Ublox.PackDesc} {g : Getter} (data : Bytes)
    (hn : g.field.ty.size = none) (hx : FieldLinks x g.field)
    (hmap : g.field.sizeFn.isSome → g.field.map.isSome)
    (hs : ∀ s ∈ g.sizeFns, SizeLinks x d s) (hs' : ∀ s, g.field.sizeFn = some s → SizeLinks x d s)
    (hM : g.off + 128 * (g.sizeFns.length + 1) ≤ x.maxUsize ∨ g.field.sizeFn = none) :
    (unsizedGetter (fieldCode g.field) g.off (g.sizeFns.map fun s => pathText (sizeFnName s))).call x
      [refV d.name data] = valV <$> g.run d data := by
  rw [call_eq x rfl]
  have hbytes := eval_tailBytesCode x (d := d) (env := [(.self_, refV d.name data)]) (data := data) rfl
    hmap hs hs' hM
  have hmt : (fieldCode g.field).map.mapType =
      g.field.map.map (convDesc g.field (rawTy g.field.map.isSome g.field.ty)) := rfl
  simp only [unsizedGetter, hmt, bindParams, List.zip_cons_cons, List.zip_nil_right,
    List.reverse_singleton]
  unfold Getter.run
  rw [hn]
  cases hm : g.field.map with
  | none =>
    simp only [Option.map_none]
    rw [stmts_tail, hbytes]
    cases g.tailBytes d data <;> rfl
  | some c =>
    simp only [Option.map_some, Option.isSome_some]
    rw [letE, stmts_let_lift x hbytes]
    cases g.tailBytes d data with
    | error p => rfl
    | ok bs =>
      show resultOf <$> evalStmts x _ ((.val, .bytes bs) :: _) = valV <$> c.convert g.field.mayFail (.bytes bs)
      rw [stmts_tail, eval_fn x _ (eval_var x (v := .bytes bs) rfl)]
      have : (Except.ok (V.bytes bs) >>= x.fn (convDesc g.field (rawTy true g.field.ty) c).fromFn) =
          valV <$> c.convert g.field.mayFail (.bytes bs) := hx.fromFn c hm (.bytes bs)
      rw [this]
      cases c.convert g.field.mayFail (.bytes bs) <;> rfl

end Ublox.Rust
