import Verif.Lemmas.CodegenValidate

/-!
# The generated code for builders
-/

namespace Ublox.Rust
open Spec

variable {W E : Type} {α : Type} (x : Externs W E)

/-! ## Variables -/

theorem getVar_set {y : Var} {v u : V W E} {env : Env W E} (h : getVar y env = some u) :
    getVar y (setVar y v env) = some v := by
  induction env with
  | nil => simp [getVar] at h
  | cons b env ih =>
    obtain ⟨z, w⟩ := b
    simp only [getVar, setVar] at h ⊢
    split
    · rename_i hz; simp [getVar, hz]
    · rename_i hz
      rw [if_neg hz] at h
      simp [getVar, hz, ih h]

theorem getVar_set_ne {y z : Var} {v : V W E} {env : Env W E} (h : z ≠ y) :
    getVar y (setVar z v env) = getVar y env := by
  induction env with
  | nil => rfl
  | cons b env ih =>
    obtain ⟨u, w⟩ := b
    simp only [setVar]
    split
    · rename_i hz
      simp only [getVar]
      rw [if_neg (by rintro rfl; exact h hz.symm), if_neg (by rintro rfl; exact h hz.symm)]
    · simp only [getVar, ih]

theorem setVar_length {y : Var} {v : V W E} (env : Env W E) :
    (setVar y v env).length = env.length := by
  induction env with
  | nil => rfl
  | cons b env ih =>
    obtain ⟨u, w⟩ := b
    simp only [setVar]
    split <;> simp [ih]

theorem setVar_setVar {y : Var} {u v : V W E} (env : Env W E) :
    setVar y v (setVar y u env) = setVar y v env := by
  induction env with
  | nil => rfl
  | cons b env ih =>
    obtain ⟨z, w⟩ := b
    simp only [setVar]
    split
    · rename_i h; simp [setVar, h]
    · rename_i h; simp [setVar, h, ih]

/-! ## Statements -/

theorem stmts_cons {s : Stmt} {ss : List Stmt} (h : ∀ e, s ≠ .tail e) :
    evalStmts x (s :: ss) = (s.eval x >>= fun _ => evalStmts x ss) := by
  cases s
  case tail e => exact absurd rfl (h e)
  all_goals cases ss <;> simp only [evalStmts]

theorem stmts_setIndex {y : Var} {i e : Expr} {ss : List Stmt} {env : Env W E} {r : R (V W E)}
    {iv : V W E} {n : Nat} {bs : Bytes} (he : e.eval x env = Ev.lift r env)
    (hi : i.eval x env = Ev.lift (.ok iv) env) (hn : iv.asUsize = .ok n)
    (hy : getVar y env = some (.bytes bs)) :
    evalStmts x (.setIndex y i e :: ss) env =
      (do
        let v ← r
        let b ← v.asU8
        let bs ← setByte bs n b
        evalStmts x ss (setVar y (.bytes bs) env)) := by
  rw [stmts_cons x (by intro e h; cases h)]
  cases r with
  | error p =>
    refine bind_error ?_
    simp only [Stmt.eval]
    exact bind_error he
  | ok v =>
    have hget : Ev.get y env = .ok (.ok (V.bytes bs), env) := by simp only [Ev.get, hy]
    have h1 : (Stmt.setIndex y i e).eval x env =
        (Ev.lift v.asU8 >>= fun b => Ev.lift (setByte bs n b) >>= fun bs => Ev.set y (.bytes bs)) env := by
      simp only [Stmt.eval]
      rw [bind_ok he, bind_ok hi, hn, bind_ok (lift_ok n env), bind_ok hget]
      rfl
    cases hb : v.asU8 with
    | error p =>
      rw [hb] at h1
      rw [bind_error (h1.trans rfl)]
      simp [bind, Except.bind, hb]
    | ok b =>
      rw [hb] at h1
      cases hs : setByte bs n b with
      | error p =>
        have : (Stmt.setIndex y i e).eval x env = .error p := by
          rw [h1, bind_ok (lift_ok b env), hs]
          rfl
        rw [bind_error this]
        simp [bind, Except.bind, hb, hs]
      | ok bs' =>
        have : (Stmt.setIndex y i e).eval x env = .ok (.ok (), setVar y (.bytes bs') env) := by
          rw [h1, bind_ok (lift_ok b env), hs]
          rfl
        rw [bind_ok this]
        simp [bind, Except.bind, hb, hs]

theorem stmts_letPair {y z : Var} {e : Expr} {ss : List Stmt} {env env' : Env W E} {a b : V W E}
    (he : e.eval x env = .ok (.ok (.pair a b), env')) :
    evalStmts x (.letPair y z e :: ss) env = evalStmts x ss ((z, b) :: (y, a) :: env') := by
  rw [stmts_cons x (by intro e h; cases h), bind_ok (a := ()) (env' := (z, b) :: (y, a) :: env')]
  simp only [Stmt.eval]
  rw [bind_ok he]
  rfl

/-! ## The bytes of a field -/

theorem asSigned_asRaw_ne {s : ScaleBack} {ty : RawTy} {v : Fl} {bs : Bytes}
    (h : s.asRaw ty v = .ok (.bytes bs)) : False := by
  unfold ScaleBack.asRaw at h
  cases ty <;> simp [bind, Except.bind, pure, Except.pure] at h <;> split at h <;> cases h

theorem intoRaw_ne_bytes {c : Conv} {sc : Option Rat} {ty : RawTy} {v : Val} {bs : Bytes} :
    c.intoRaw sc ty v ≠ .ok (.bytes bs) := by
  intro h
  unfold Conv.intoRaw at h
  split at h
  · split at h
    · exact asSigned_asRaw_ne h
    · cases h
  · split at h
    · exact asSigned_asRaw_ne h
    · cases h
  · split at h <;> cases h
  · split at h
    · unfold RawVal.ofUnsigned at h
      split at h
      · cases h
      split at h
      · cases h
      split at h <;> cases h
    · cases h
  all_goals cases h

/-- The builder has the value for the field. -/
def HasField (B : V W E) (f : FieldDesc) (v : Val) : Prop := fieldV B f.getName = .ok (.val v)

/-- The functions for sending a field are those of its description. -/
def IntoLinks (x : Externs W E) (f : FieldDesc) : Prop :=
  ∀ c, f.map = some c → ∀ v : Val, HasType f v →
    x.fn (convDesc f (rawTy true f.ty) c).intoFn (valV v) = rawV <$> c.intoRaw f.scale f.ty v

theorem toLeBytes_meth {r : RawVal} (h : ∀ bs, r ≠ .bytes bs) :
    methV x .toLeBytes (rawV r) [] =
      (fun w => (w, rawV r)) <$> (Except.ok (V.bytes r.toLeBytes) : R (V W E)) := by
  cases r <;> first | rfl | exact absurd rfl (h _)

theorem stmts_bytesCode {f : FieldDesc} {v : Val} {env : Env W E} {B : V W E} {ss : List Stmt} {n : Nat}
    (hn : f.ty.size = some n)
    (hself : getVar .self_ env = some B) (hf : HasField B f v) (ht : FieldTyped f v)
    (hx : IntoLinks x f) :
    evalStmts x (bytesCode (fieldCode f) :: ss) env =
      (f.bytes v >>= fun bs => evalStmts x ss ((.bytes, .bytes bs) :: env)) := by
  have hval : (Expr.field (.var .self_) (fieldCode f).intermediateFieldName).eval x env =
      Ev.lift (.ok (valV v)) env := by
    rw [eval_field x _ (eval_var x hself)]
    exact congrArg (Ev.lift · env) hf
  have hmt : (fieldCode f).map.mapType =
      f.map.map (convDesc f (rawTy f.map.isSome f.ty)) := rfl
  unfold bytesCode FieldDesc.bytes
  simp only [hmt]
  cases hm : f.map with
  | some c =>
    simp only [Option.map_some, Option.isSome_some]
    have hfn := eval_fn x (convDesc f (rawTy true f.ty) c).intoFn hval
    have : (Except.ok (valV v) >>= x.fn (convDesc f (rawTy true f.ty) c).intoFn) =
        rawV <$> c.intoRaw f.scale f.ty v := by
      unfold FieldTyped at ht
      rw [hn] at ht
      exact hx c hm v ht
    rw [this] at hfn
    cases hr : c.intoRaw f.scale f.ty v with
    | error p =>
      rw [hr] at hfn
      rw [letE, stmts_let, bind_error]
      · rfl
      · simp only [Expr.eval] at hfn ⊢
        exact bind_error hfn
    | ok r =>
      rw [hr] at hfn
      rw [letE, stmts_let_lift x (eval_meth x hfn (toLeBytes_meth x fun bs h => by
        rw [h] at hr; exact intoRaw_ne_bytes hr) (fun y h => by cases h))]
      rfl
  | none =>
    simp only [Option.map_none]
    unfold FieldTyped at ht
    rw [hn] at ht
    obtain ⟨r, rfl, hr⟩ : ∃ r, v = .raw r ∧ r.ofTy f.ty = true := by
      simp only [HasType, hm] at ht
      cases v <;> simp only at ht
      exact ⟨_, rfl, ht⟩
    rw [fieldCode_isByteArray f hn]
    cases hty : f.ty with
    | bytes k =>
      simp only [Bool.not_true, Bool.false_eq_true, if_false]
      rw [stmts_let_lift x ((eval_ref x).trans hval)]
      rw [hty] at hr
      cases r <;> simp [RawVal.ofTy] at hr
      simp [RawVal.ofTy, hr]
      rfl
    | tail => simp [hty, RawTy.size] at hn
    | _ =>
      simp only [Bool.not_false, if_true]
      rw [hty] at hr
      rw [letE, stmts_let_lift x (eval_meth x hval (toLeBytes_meth x fun bs h => by
        rw [h] at hr; simp [RawVal.ofTy] at hr) (fun y h => by cases h))]
      simp only [hr, if_true]
      rfl

/-! ## `into_packet_bytes` -/

/-- The part of the fields in `into_packet_bytes`. -/
def packCode : List FieldDesc → Nat → List Stmt
  | [], _ => []
  | f :: fs, off => packFieldCode (fieldCode f) (f.ty.size.getD 0) off ++
      packCode fs (off + f.ty.size.getD 0)

/-- The assignments of the bytes of one field. -/
theorem packField_eval {bytes : Bytes} {ss : List Stmt} (obs : Except (V W E) (V W E) × Env W E → α)
    (I : Env W E → Prop) (hI : ∀ env v, I env → I (setVar .ret v env))
    {k : Bytes → R α}
    (hk : ∀ env ret, I env → getVar .ret env = some (.bytes ret) → obs <$> evalStmts x ss env = k ret) :
    ∀ (n i off : Nat) (ret : Bytes) (env : Env W E), I env →
      getVar .ret env = some (.bytes ret) → getVar .bytes env = some (.bytes bytes) →
      obs <$> evalStmts x (((List.range n).map fun j =>
        Stmt.setIndex .ret (usizeLit (off + j)) (.index (.var .bytes) (usizeLit (i + j)))) ++ ss) env =
        (packField bytes n off i ret >>= k)
  | 0, i, off, ret, env, hi, hr, _ => hk env ret hi hr
  | n + 1, i, off, ret, env, hi, hr, hb => by
    rw [List.range_succ_eq_map, List.map_cons, List.map_map, List.cons_append]
    have hidx := eval_index x (eval_var x hb) (eval_usizeLit x (i + 0) env)
    rw [stmts_setIndex x hidx (eval_usizeLit x (off + 0) env) (n := off + 0) rfl hr]
    show obs <$> ((do return V.byte (← getByte bytes (i + 0))) >>= _) = _
    simp only [packField, Nat.add_zero]
    cases getByte bytes i with
    | error p => rfl
    | ok b =>
      show obs <$> (setByte ret off b >>= _) = ((setByte ret off b >>= _) >>= _)
      cases setByte ret off b with
      | error p => rfl
      | ok ret' =>
        have := packField_eval obs I hI hk n (i + 1) (off + 1) ret' (setVar .ret (.bytes ret') env)
          (hI _ _ hi) (getVar_set hr) ((getVar_set_ne (by decide)).trans hb)
        have hmap : ((fun j => Stmt.setIndex .ret (usizeLit (off + j))
              (.index (.var .bytes) (usizeLit (i + j)))) ∘ Nat.succ) =
            fun j => Stmt.setIndex .ret (usizeLit (off + 1 + j))
              (.index (.var .bytes) (usizeLit (i + 1 + j))) := by
          funext j
          simp only [Function.comp, Nat.succ_eq_add_one]
          rw [show off + (j + 1) = off + 1 + j by omega, show i + (j + 1) = i + 1 + j by omega]
        rw [hmap]
        exact this

theorem packFields_eval {B : V W E} {ss : List Stmt} (obs : Except (V W E) (V W E) × Env W E → α)
    {k : Bytes → R α}
    (hk : ∀ env ret, getVar .self_ env = some B → getVar .ret env = some (.bytes ret) →
      obs <$> evalStmts x ss env = k ret) :
    ∀ (fs : List FieldDesc) (vs : Builder) (off : Nat) (ret : Bytes) (env : Env W E),
      BuilderTyped fs vs → (∀ p ∈ fs.zip vs, HasField B p.1 p.2) → (∀ f ∈ fs, IntoLinks x f) →
      (∀ f ∈ fs, f.ty.size ≠ none) →
      getVar .self_ env = some B → getVar .ret env = some (.bytes ret) →
      obs <$> evalStmts x (packCode fs off ++ ss) env = (packFields fs vs off ret >>= k)
  | [], _, off, ret, env, .nil, _, _, _, hself, hr => hk env ret hself hr
  | f :: fs, v :: vs, off, ret, env, .cons ht hts, hf, hx, hs, hself, hr => by
    obtain ⟨n, hn⟩ := Option.ne_none_iff_exists'.mp (hs f (.head _))
    simp only [packCode, packFields, hn, Option.getD_some, List.append_assoc]
    simp only [packFieldCode, List.cons_append]
    rw [stmts_bytesCode x hn hself (hf (f, v) (by simp)) ht (hx f (.head _))]
    cases f.bytes v with
    | error p => rfl
    | ok bytes =>
      have := packField_eval x (bytes := bytes) (ss := packCode fs (off + n) ++ ss) obs
        (fun env => getVar .self_ env = some B)
        (fun env v h => (getVar_set_ne (by decide)).trans h)
        (k := fun ret => packFields fs vs (off + n) ret >>= k)
        (fun env ret h1 h2 => packFields_eval obs hk fs vs (off + n) ret env hts
          (fun p hp => hf p (by simp [hp])) (fun f h => hx f (.tail _ h)) (fun f h => hs f (.tail _ h)) h1 h2)
        n 0 off ret ((.bytes, .bytes bytes) :: env) hself hr rfl
      simp only [Nat.zero_add] at this
      show obs <$> evalStmts x _ ((.bytes, .bytes bytes) :: env) = ((packField bytes n off 0 ret >>= _) >>= k)
      rw [this]
      cases packField bytes n off 0 ret <;> rfl

theorem u16_bytes {n : Nat} (h : n < 65536) :
    u16ToLe (UInt16.ofNat n) = [UInt8.ofNat n, UInt8.ofNat (n / 256)] := by
  simp only [u16ToLe, List.cons.injEq, and_true]
  constructor
  · apply UInt8.toNat.inj
    simp only [UInt16.toNat_toUInt8, UInt16.toNat_ofNat', UInt8.toNat_ofNat']
    omega
  · apply UInt8.toNat.inj
    rw [UInt16.toNat_toUInt8, UInt16.toNat_shiftRight, UInt16.toNat_ofNat', UInt8.toNat_ofNat',
      Nat.mod_eq_of_lt h]
    simp [Nat.shiftRight_eq_div_pow]

theorem eval_u16Bytes {n : Nat} (h : n < 65536) (env : Env W E) :
    (Expr.meth (.lit n .u16) .toLeBytes []).eval x env =
      Ev.lift (.ok (.bytes [UInt8.ofNat n, UInt8.ofNat (n / 256)])) env := by
  refine eval_meth x (v := rawV (.u16 (UInt16.ofNat n))) ?_ ?_ (fun y h => by cases h)
  · simp only [Expr.eval]; rfl
  · rw [toLeBytes_meth x (by intro bs h; cases h)]
    simp only [RawVal.toLeBytes, u16_bytes h]

theorem eval_constOk {p : String} {v : V W E} (h : x.const p = .ok v) (env : Env W E) :
    (Expr.const p).eval x env = Ev.lift (.ok v) env := by
  rw [eval_const, h]

theorem okBind {α β : Type} (a : α) (f : α → R β) : ((Except.ok a : R α) >>= f) = f a := rfl

theorem stmts_let_ok {mt : Bool} {y : Var} {ty : String} {e : Expr} {ss : List Stmt} {env : Env W E}
    {v : V W E} (h : e.eval x env = Ev.lift (.ok v) env) :
    evalStmts x (.let_ mt y ty e :: ss) env = evalStmts x ss ((y, v) :: env) := by
  rw [stmts_let_lift x h]
  rfl

/-- An assignment of a known byte. -/
theorem setIndex_step {y : Var} {n : Nat} {i e : Expr} {ss : List Stmt} {env : Env W E} {b : UInt8}
    {bs : Bytes} {iv : V W E} (he : e.eval x env = Ev.lift (.ok (.byte b)) env)
    (hi : i.eval x env = Ev.lift (.ok iv) env) (hn : iv.asUsize = .ok n)
    (hy : getVar y env = some (.bytes bs)) :
    evalStmts x (.setIndex y i e :: ss) env =
      (setByte bs n b >>= fun bs => evalStmts x ss (setVar y (.bytes bs) env)) := by
  rw [stmts_setIndex x he hi hn hy]
  rfl

theorem eval_packetLenMinus {len n : Nat} (hc : x.const "Self::PACKET_LEN" = .ok (.usize len))
    (h : n ≤ len) (env : Env W E) :
    (packetLenMinus n).eval x env = Ev.lift (.ok (.usize (len - n))) env := by
  rw [packetLenMinus, eval_bin x .sub (eval_constOk x hc env) (eval_int x n env)]
  show Ev.lift (do return V.usize (← usub (← Except.ok len) (← Except.ok n))) env = _
  simp [usub, h, bind, Except.bind, pure, Except.pure]

theorem setByte_length {bs bs' : Bytes} {i : Nat} {b : UInt8} (h : setByte bs i b = .ok bs') :
    bs'.length = bs.length := by
  unfold setByte at h
  split at h
  · cases h; simp
  · cases h

theorem eval_indexInt {y : Var} {env : Env W E} {bs : Bytes} {i : Nat} {b : UInt8}
    (hy : getVar y env = some (.bytes bs)) (hb : getByte bs i = .ok b) :
    (Expr.index (.var y) (.int i)).eval x env = Ev.lift (.ok (.byte b)) env := by
  rw [eval_index x (eval_var x hy) (eval_int x i env)]
  show Ev.lift (do return V.byte (← getByte bs i)) env = _
  rw [hb]
  rfl

theorem intoPacketBytesCode_call {d : Ublox.PackDesc} {b : Builder} {size : Nat} {B : V W E}
    (hsz : d.packetPayloadSize = some size) (hlt : size < 65536) (hb : d.hasBuilder = true)
    (hx : SendLinks x d) (hlen : x.const "Self::PACKET_LEN" = .ok (.usize (size + 8)))
    (ht : BuilderTyped d.fields b) (hf : ∀ p ∈ d.fields.zip b, HasField B p.1 p.2)
    (hs : ∀ f ∈ d.fields, f.ty.size ≠ none) :
    (intoPacketBytesCode d.name size (packCode d.fields 6)).call x [B] =
      V.bytes <$> d.intoPacketBytes b := by
  rw [call_eq x rfl]
  unfold PackDesc.intoPacketBytes
  simp only [hsz, hb, not_true_eq_false, false_or, Nat.not_le.mpr hlt, if_false]
  simp only [intoPacketBytesCode, List.cons_append, List.nil_append, bindParams,
    List.zip_cons_cons, List.zip_nil_right, List.reverse_singleton]
  have hz : (Expr.zeros (.const "Self::PACKET_LEN")).eval x [(.self_, B)] =
      Ev.lift (.ok (.bytes (List.replicate (size + 8) 0))) [(.self_, B)] := by
    simp only [Expr.eval, hlen]
    rfl
  rw [stmts_let_ok x hz]
  generalize List.replicate (size + 8) (0 : UInt8) = ret
  rw [setIndex_step x (eval_constOk x hx.sync1 _) (eval_int x 0 _) (n := 0) (bs := ret) rfl rfl]
  rw [show SYNC_CHAR_1 = 0xb5 from rfl, show SYNC_CHAR_2 = 0x62 from rfl]
  cases setByte ret 0 0xb5 with
  | error p => rfl
  | ok ret =>
  rw [okBind, okBind]
  show resultOf <$> evalStmts x _ [(.ret, .bytes ret), (.self_, B)] = V.bytes <$> _
  rw [setIndex_step x (eval_constOk x hx.sync2 _) (eval_int x 1 _) (n := 1) (bs := ret) rfl rfl]
  cases setByte ret 1 0x62 with
  | error p => rfl
  | ok ret =>
  rw [okBind, okBind]
  show resultOf <$> evalStmts x _ [(.ret, .bytes ret), (.self_, B)] = V.bytes <$> _
  rw [setIndex_step x (eval_constOk x hx.cls _) (eval_int x 2 _) (n := 2) (bs := ret) rfl rfl]
  cases setByte ret 2 d.cls with
  | error p => rfl
  | ok ret =>
  rw [okBind, okBind]
  show resultOf <$> evalStmts x _ [(.ret, .bytes ret), (.self_, B)] = V.bytes <$> _
  rw [setIndex_step x (eval_constOk x hx.id _) (eval_int x 3 _) (n := 3) (bs := ret) rfl rfl]
  cases setByte ret 3 d.id with
  | error p => rfl
  | ok ret =>
  rw [okBind, okBind]
  show resultOf <$> evalStmts x _ [(.ret, .bytes ret), (.self_, B)] = V.bytes <$> _
  rw [letE, stmts_let_ok x (eval_u16Bytes x hlt _)]
  rw [setIndex_step x (eval_indexInt x (y := .packLenBytes) rfl rfl) (eval_int x 4 _) (n := 4)
    (bs := ret) rfl rfl]
  cases setByte ret 4 (UInt8.ofNat size) with
  | error p => rfl
  | ok ret =>
  rw [okBind, okBind]
  show resultOf <$> evalStmts x _ [(.packLenBytes, .bytes [UInt8.ofNat size, UInt8.ofNat (size / 256)]),
    (.ret, .bytes ret), (.self_, B)] = V.bytes <$> _
  rw [setIndex_step x (eval_indexInt x (y := .packLenBytes) rfl rfl) (eval_int x 5 _) (n := 5)
    (bs := ret) rfl rfl]
  cases setByte ret 5 (UInt8.ofNat (size / 256)) with
  | error p => rfl
  | ok ret =>
  rw [okBind, okBind]
  show resultOf <$> evalStmts x _ [(.packLenBytes, .bytes [UInt8.ofNat size, UInt8.ofNat (size / 256)]),
    (.ret, .bytes ret), (.self_, B)] = V.bytes <$> _
  rw [packFields_eval x (B := B) resultOf (k := fun ret => V.bytes <$> (do
    let (ckA, ckB) := ubxChecksum (← sliceRange ret 2 (size + 8 - 2))
    let ret ← setByte ret (size + 8 - 2) ckA
    setByte ret (size + 8 - 1) ckB)) ?_ d.fields b 6 ret _ ht hf
    (fun f hf c hc v hv => hx.intoFn f hf c hc v hv) hs rfl rfl]
  · cases packFields d.fields b 6 ret <;> rfl
  · intro env ret _ hr
    have hrange := eval_range x (eval_int x 2 env) ((eval_paren x).trans
      (eval_packetLenMinus x hlen (n := 2) (by omega) env))
    have hslice : (Expr.slice (.var .ret) (.range (.int 2) (.paren (packetLenMinus 2)))).eval x env =
        Ev.lift (V.bytes <$> sliceRange ret 2 (size + 8 - 2)) env := by
      rw [eval_slice x (eval_var x hr) hrange]
      show Ev.lift (do return V.bytes (← sliceRange ret 2 (size + 8 - 2))) env = _
      cases sliceRange ret 2 (size + 8 - 2) <;> rfl
    have hcall := eval_call x .ubxChecksum (.cons hslice .nil)
    cases hsl : sliceRange ret 2 (size + 8 - 2) with
    | error p =>
      rw [hsl] at hcall
      rw [stmts_cons x (by intro e h; cases h), bind_error]
      · rfl
      · simp only [Stmt.eval]
        exact bind_error (hcall.trans rfl)
    | ok bs =>
      rw [hsl] at hcall
      rw [stmts_letPair x (a := .byte (ubxChecksum bs).1) (b := .byte (ubxChecksum bs).2) (env' := env)
        (hcall.trans rfl)]
      show _ = V.bytes <$> (setByte ret (size + 8 - 2) (ubxChecksum bs).1 >>= fun ret =>
        setByte ret (size + 8 - 1) (ubxChecksum bs).2)
      generalize (ubxChecksum bs).1 = ckA
      generalize (ubxChecksum bs).2 = ckB
      have hr0 : getVar .ret ((.ckB, .byte ckB) :: (.ckA, .byte ckA) :: env) = some (V.bytes ret) := hr
      rw [setIndex_step x (eval_var x (y := .ckA) (v := .byte ckA) rfl)
        (eval_packetLenMinus x hlen (n := 2) (by omega) _) (n := size + 8 - 2) (bs := ret) rfl hr0]
      cases setByte ret (size + 8 - 2) ckA with
      | error p => rfl
      | ok ret' =>
      show resultOf <$> evalStmts x _
        ((.ckB, .byte ckB) :: (.ckA, .byte ckA) :: setVar .ret (.bytes ret') env) =
        V.bytes <$> setByte ret' (size + 8 - 1) ckB
      have hr' : getVar .ret ((.ckB, .byte ckB) :: (.ckA, .byte ckA) :: setVar .ret (.bytes ret') env) =
          some (V.bytes ret') := by
        simp only [getVar, reduceCtorEq, if_false]
        exact getVar_set hr
      rw [setIndex_step x (eval_var x (y := .ckB) (v := .byte ckB) rfl)
        (eval_packetLenMinus x hlen (n := 1) (by omega) _) (n := size + 8 - 1) (bs := ret') rfl hr']
      cases setByte ret' (size + 8 - 1) ckB with
      | error p => rfl
      | ok ret'' =>
      show resultOf <$> evalStmts x [.tail (.var .ret)] (setVar .ret (.bytes ret'') _) = _
      rw [stmts_tail, eval_var x (getVar_set hr')]
      rfl

end Ublox.Rust
