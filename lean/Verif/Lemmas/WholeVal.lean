import Verif.Lemmas.WholeInto
import Verif.Lemmas.ExecMeta

/-!
# What the functions of `CfgVal` that the macros of `cfg_val.rs` make do
-/

namespace Ublox.Exec

open Code Macro Gen Spec
attribute [local irreducible] Exec.run Exec.change Code.lift Exec.runFn Exec.runMut

/-! ## Arms -/

/-- The arm of the variant is taken. -/
theorem evalA_variant (c : Ctx) (hc : c.me = i!"CfgVal") (y : Name) (arm : Row → Pat × Expr)
    (ha : ∀ r, (arm r).1 = Pat.variant i!"Self" r.name y) {rows : List Row}
    (hn : (rows.map Row.name).Nodup) {r : Row} (hr : r ∈ rows) {w : W} {bs : Env} (hb : bindName y w = some bs) (env : Env) :
    evalA c (armsOf (rows.map arm)) (.adt [i!"CfgVal", r.name] [w]) env =
      scope env.length (eval c (arm r).2 (bs ++ env)) := by
  induction rows with
  | nil => cases hr
  | cons x rows ih =>
    rw [List.map_cons, List.nodup_cons] at hn
    rw [List.map_cons, armsOf, evalA, ha]
    rcases List.mem_cons.mp hr with rfl | hr
    · simp only [bindPat, hc, if_true, hb, fits_some]
    · have : r.name ≠ x.name := fun e => hn.1 (e ▸ List.mem_map_of_mem (f := Row.name) hr)
      simp only [bindPat, hc, if_true, List.cons.injEq, this, and_true, and_false, if_false, fits_none, ih hn.2 hr]

/-- The arm of the key is taken. -/
theorem evalA_key (c : Ctx) (rows : List Row) (x : UInt32) (env : Env) :
    evalA c (armsOf (rows.map Row.parseArm ++ [(.name i!"_", .panic)])) (.u32 x) env =
      match rows.find? fun r => UInt32.ofNat r.key == x with
      | some r => scope env.length (eval c r.parseArm.2 env)
      | none => .error (.panic .explicit) := by
  induction rows with
  | nil => simp only [List.map_nil, List.nil_append, armsOf, rust, exec, List.find?_nil]
  | cons r rows ih =>
    rw [List.map_cons, List.cons_append, armsOf, evalA, ih, List.find?_cons]
    by_cases h : UInt32.ofNat r.key = x
    · simp only [Row.parseArm, bindPat, h, if_true, fits_some, List.nil_append, beq_self_eq_true]
    · have h' : ¬ x = UInt32.ofNat r.key := fun e => h e.symm
      have h'' : (UInt32.ofNat r.key == x) = false := by simpa using h
      simp only [Row.parseArm, bindPat, h', if_false, fits_none, h'']

variable {rows : List Row} (hf : Fine rows) (m : Mach) (k : Nat)

include hf

theorem wlookup_len : lookup (whole rows).impls [] i!"CfgVal" i!"len" = some (lenFn rows) := by
  rw [lookup_other (hf.ne (by decide +kernel))]
  kernel_rfl
theorem wlookup_isEmpty : lookup (whole rows).impls [] i!"CfgVal" i!"is_empty" = some isEmptyFn := by
  rw [lookup_other (hf.ne (by decide +kernel))]
  kernel_rfl
theorem wlookup_parse : lookup (whole rows).impls [] i!"CfgVal" i!"parse" = some (parseFn rows) := by
  rw [lookup_other (hf.ne (by decide +kernel))]
  kernel_rfl
theorem wlookup_extend : lookup (whole rows).impls [] i!"CfgVal" i!"extend_to" = some (extendFn rows) := by
  rw [lookup_other (hf.ne (by decide +kernel))]
  kernel_rfl
theorem wlookup_write : lookup (whole rows).impls [] i!"CfgVal" i!"write_to" = some (writeFn rows) := by
  rw [lookup_other (hf.ne (by decide +kernel))]
  kernel_rfl

section
variable {r : Row} (hr : r ∈ rows)
include hr

theorem val_len (w : W) : run (whole rows) m (k + 3) [] i!"CfgVal" i!"len" [.adt [i!"CfgVal", r.name] [w]] =
    lift (uadd m.M KeyId.SIZE (KeyId.valueSize (UInt32.ofNat r.key)).toUsize) fun n =>
      .ok (.usize n, .adt [i!"CfgVal", r.name] [w]) := by
  rw [run_whole _ _ (wlookup_len hf)]
  unfold lenFn
  simp only [rust, exec]
  rw [evalA_variant _ rfl i!"_" Row.lenArm (fun _ => rfl) hf.nodup hr (bs := []) (by simp only [exec])]
  simp only [rust, exec, Row.lenArm, isVariant_none noVariant_size (hf.ne (n := i!"SIZE") (by decide +kernel)),
    flagConst_none noVariant_size, hf.ne (n := i!"i32") (by decide +kernel) r hr,
    hf.ne (n := i!"u32") (by decide +kernel) r hr, hf.ne (n := i!"u16") (by decide +kernel) r hr,
    hf.ne (n := i!"u8") (by decide +kernel) r hr, hf.ne (n := i!"T") (by decide +kernel) r hr,
    hf.ne (n := i!"Self") (by decide +kernel) r hr, wctx_prog, wctx_mach, wctx_me, wctx_user, row_SIZE hf _ _ hr]

theorem val_isEmpty (w : W) : run (whole rows) m (k + 4) [] i!"CfgVal" i!"is_empty" [.adt [i!"CfgVal", r.name] [w]] =
    lift (uadd m.M KeyId.SIZE (KeyId.valueSize (UInt32.ofNat r.key)).toUsize) fun n =>
      .ok (.bool (n == 0), .adt [i!"CfgVal", r.name] [w]) := by
  rw [run_whole _ _ (wlookup_isEmpty hf)]
  unfold isEmptyFn
  simp only [rust, exec, wctx_prog, wctx_mach, wctx_me, wctx_user, val_len hf _ _ hr]
  rfl

omit hf hr in
theorem coerce_value (c : Ctx) (v : CfgValue) :
    coerce c (Code.name (tyCodes v.ty)) (cfgValueV v) = .ok (cfgValueV v) := by
  cases v with
  | tpPulse v => cases v <;> rfl
  | tpPulseLength v => cases v <;> rfl
  | dataBits v => cases v <;> rfl
  | parity v => cases v <;> rfl
  | stopBits v => cases v <;> rfl
  | alignment v => cases v <;> rfl
  | _ => rfl

theorem call_row (k : Nat) (ty : Name) (v : CfgValue) (hv : v.ty = r.ty) :
    callFn (wctx rows m k ty) [r.name] [cfgValueV v] = .ok (.adt [r.name] [cfgValueV v]) := by
  have h1 : builtin1 (wctx rows m k ty) [r.name] (cfgValueV v) = none := by
    have a := hf.ne (n := i!"Some") (by decide +kernel) r hr
    have b := hf.ne (n := i!"Ok") (by decide +kernel) r hr
    have c := hf.ne (n := i!"Err") (by decide +kernel) r hr
    cases v with
    | tpPulse v => cases v <;> simp [builtin1, cfgValueV, varV, a, b, c]
    | tpPulseLength v => cases v <;> simp [builtin1, cfgValueV, varV, a, b, c]
    | dataBits v => cases v <;> simp [builtin1, cfgValueV, dataBitsV, varV, a, b, c]
    | parity v => cases v <;> simp [builtin1, cfgValueV, parityV, varV, a, b, c]
    | stopBits v => cases v <;> simp [builtin1, cfgValueV, stopBitsV, varV, a, b, c]
    | alignment v => cases v <;> simp [builtin1, cfgValueV, alignmentV, varV, a, b, c]
    | _ => simp [builtin1, cfgValueV, truncate, a, b, c]
  rw [callFn_one, h1]
  have a := hf.ne (n := i!"Self") (by decide +kernel) r hr
  simp only [ownFn, a, hf.ctor r hr, if_false, or_true, if_true, wctx_prog, fieldTy_row hf hr, ← hv, coerce_value, rust]

omit hf hr in
theorem evals_value (c : Ctx) (w : W) (env : Env) (K : List W → Env → Res) :
    evals c (exprs [.un .deref (.path [i!"value"])]) ((i!"value", w) :: env) K = K [w] ((i!"value", w) :: env) := by
  simp only [Macro.exprs, rust, exec]

theorem eval_call_row (ty : Name) (v : CfgValue) (hv : v.ty = r.ty) (env : Env) :
    eval (wctx rows m k ty) (.call [r.name] (exprs [.un .deref (.path [i!"value"])])) ((i!"value", cfgValueV v) :: env) =
      .ok (.val (.adt [r.name] [cfgValueV v]), (i!"value", cfgValueV v) :: env) := by
  rw [eval, evals_value, if_neg (by simp), call_row hf m hr _ _ v hv]
  rfl

theorem eval_kv (ty : Name) (v : CfgValue) (hv : v.ty = r.ty) (env : Env) :
    eval (wctx rows m (k + 2) ty) r.kv ((i!"value", cfgValueV v) :: env) =
      .ok (.val (.bytes (u32ToLe (UInt32.ofNat r.key) ++ v.bytes)), (i!"value", cfgValueV v) :: env) := by
  rw [Row.kv, eval, eval_call_row hf m _ hr ty v hv env]
  simp only [rust, exec, wctx_user, row_into hf m k hr v hv, hf.ne (n := i!"Some") (by decide +kernel) r hr,
    hf.ne (n := i!"None") (by decide +kernel) r hr, hf.ne (n := i!"Ok") (by decide +kernel) r hr,
    hf.ne (n := i!"Err") (by decide +kernel) r hr]

omit hf hr in
theorem extend_loop (bs out : Bytes) (a b c d : Name × W) (body : W → Env → Res) (h : ∀ out x,
      body (.u8 x) [a, b, c, d, (i!"buf", .bytes out)] = .ok (.val .unit, [a, b, c, d, (i!"buf", .bytes (out ++ [x]))])) :
    forLoop body (bs.map .u8) [a, b, c, d, (i!"buf", .bytes out)] =
      .ok (.val .unit, [a, b, c, d, (i!"buf", .bytes (out ++ bs))]) := by
  induction bs generalizing out with
  | nil => rw [List.map_nil, forLoop, List.append_nil]
  | cons x bs ih =>
    rw [List.map_cons, forLoop, h]
    refine (ih _).trans ?_
    simp only [List.append_assoc, List.cons_append, List.nil_append]

theorem val_extend (v : CfgValue) (hv : v.ty = r.ty) (buf : Bytes) :
    change (whole rows) m (k + 3) i!"CfgVal" i!"extend_to" [.adt [i!"CfgVal", r.name] [cfgValueV v], .bytes buf] =
      .ok (.usize (u32ToLe (UInt32.ofNat r.key) ++ v.bytes).length, .bytes (buf ++ (u32ToLe (UInt32.ofNat r.key) ++ v.bytes))) := by
  rw [change_whole _ _ (wlookup_extend hf)]
  unfold extendFn
  simp only [rust, exec, runMut]
  rw [evalA_variant _ rfl i!"value" Row.extendArm (fun _ => rfl) hf.nodup hr (bs := [(i!"value", cfgValueV v)]) (by simp only [exec])]
  simp only [rust, exec, Row.extendArm, eval_kv hf m k hr _ v hv]
  rw [extend_loop _ _ _ _ _ _ _ (fun out x => by simp only [rust, exec, Macro.exprs])]
  simp only [rust, exec, show [i!"self", i!"buf"].getLastD 0 = i!"buf" from rfl]

theorem val_write (v : CfgValue) (hv : v.ty = r.ty) (buf : Bytes) :
    change (whole rows) m (k + 3) i!"CfgVal" i!"write_to" [.adt [i!"CfgVal", r.name] [cfgValueV v], .bytes buf] =
      (if (u32ToLe (UInt32.ofNat r.key) ++ v.bytes).length ≤ buf.length then
        .ok (.usize (u32ToLe (UInt32.ofNat r.key) ++ v.bytes).length, .bytes (u32ToLe (UInt32.ofNat r.key) ++ v.bytes ++ buf.drop (u32ToLe (UInt32.ofNat r.key) ++ v.bytes).length))
      else .error (.panic .slice)) := by
  rw [change_whole _ _ (wlookup_write hf)]
  unfold writeFn
  simp only [rust, exec, runMut]
  rw [evalA_variant _ rfl i!"value" Row.writeArm (fun _ => rfl) hf.nodup hr (bs := [(i!"value", cfgValueV v)]) (by simp only [exec])]
  simp only [rust, exec, Row.writeArm, eval_kv hf m k hr _ v hv, Macro.exprs,
    show [i!"self", i!"buf"].getLastD 0 = i!"buf" from rfl]
  generalize u32ToLe (UInt32.ofNat r.key) ++ v.bytes = kv
  by_cases h : kv.length ≤ buf.length
  · simp only [sliceRange, sliceFrom, h, Nat.zero_le, and_self, if_true, rust, List.drop_zero, List.length_take,
      Nat.sub_zero, Nat.min_eq_left h]
  · simp only [sliceRange, sliceFrom, h, Nat.zero_le, and_false, if_false, rust]

end

/-! ## `parse` -/

omit hf

theorem eval_byteAt (c : Ctx) (x : UInt32) (buf rest : Bytes) (hb : sliceFrom buf 4 = .ok rest) (n : Nat) (hn : n < 65536) :
    eval c (byteAt n) [(i!"key_id", .u32 x), (i!"buf", .bytes buf)] =
      lift (getByte rest n) fun b => .ok (.val (.u8 b), [(i!"key_id", .u32 x), (i!"buf", .bytes buf)]) := by
  simp only [byteAt, rust, exec, hb, hn, if_true]

theorem evals_byteAt (c : Ctx) (x : UInt32) (buf rest : Bytes) (hb : sliceFrom buf 4 = .ok rest)
    (ks : List Nat) (hk : ∀ k ∈ ks, k < 65536) (K : List W → Env → Res) :
    evals c (exprs (ks.map byteAt)) [(i!"key_id", .u32 x), (i!"buf", .bytes buf)] K =
      lift (ks.mapM (getByte rest)) fun l => K (l.map .u8) [(i!"key_id", .u32 x), (i!"buf", .bytes buf)] := by
  induction ks generalizing K with
  | nil => simp only [List.map_nil, Macro.exprs, evals, List.mapM_nil, pure, Except.pure, rust]
  | cons k ks ih =>
    simp only [List.mem_cons, forall_eq_or_imp] at hk
    simp only [List.map_cons, Macro.exprs, List.mapM_cons, ih hk.2, evals, eval_byteAt c x buf rest hb k hk.1, rust, exec]

theorem range_2 : List.range 2 = [0, 1] := rfl
theorem range_4 : List.range 4 = [0, 1, 2, 3] := rfl
theorem range_8 : List.range 8 = [0, 1, 2, 3, 4, 5, 6, 7] := rfl

/-- Evaluates `from_cfg_v_bytes!` of an enumeration. -/
macro "from_enum " x:term:max h:term:max " [" ls:Lean.Parser.Tactic.simpLemma,* "]" : tactic =>
  `(tactic| (
    have e0 := fun c => eval_byteAt c $x _ _ $h 0 (by decide)
    simp only [fromBytes, fromMatch, CfgTy.fromCfgVBytes, Macro.exprs, eval, evals, e0, rust, exec,
      lift_bindR, lift_pureR, cfgValueV, armsOf, List.map_cons, List.map_nil, wctx_prog, wctx_me, wctx_user, $ls,*]))

/-- Evaluates `from_cfg_v_bytes!` of a number of so many bytes. -/
macro "from_num " x:term:max h:term:max n:term:max : tactic =>
  `(tactic| (
    have es := fun c => evals_byteAt c $x _ _ $h (List.range $n) (by decide)
    simp only [fromBytes, fromLe, Macro.exprs, eval, evals, es]
    simp only [CfgTy.fromCfgVBytes, Macro.exprs, rust, exec, lift_bindR, lift_pureR, cfgValueV, List.map_cons,
      List.map_nil, range_2, range_4, range_8, List.mapM_cons, List.mapM_nil]))

theorem find_inf : List.find? (fun d => d.name == "CfgInfMask") (whole rows).flags = some cfgInfMask_ := by
  show List.find? (fun d => d.name == "CfgInfMask") allFlags = some cfgInfMask_
  decide +kernel

theorem inf_toNat (a : UInt8) :
    (UInt8.ofNat (cfgInfMask_.fromBitsTruncate a.toNat)).toNat = cfgInfMask_.fromBitsTruncate a.toNat := by
  have h : cfgInfMask_.fromBitsTruncate a.toNat ≤ a.toNat := Nat.and_le_left
  have := a.toNat_lt
  rw [UInt8.toNat_ofNat']
  exact Nat.mod_eq_of_lt (by omega)

theorem eval_from (k : Nat) (ty : CfgTy) (x : UInt32) (buf rest : Bytes) (hb : sliceFrom buf 4 = .ok rest) :
    eval (wctx rows m k i!"CfgVal") (fromBytes ty) [(i!"key_id", .u32 x), (i!"buf", .bytes buf)] =
      lift (ty.fromCfgVBytes rest) fun v => .ok (.val (cfgValueV v), [(i!"key_id", .u32 x), (i!"buf", .bytes buf)]) := by
  cases ty with
  | bool => from_enum x hb []
  | u8 => from_enum x hb []
  | u16 => from_num x hb 2
  | i16 => from_num x hb 2
  | u32 => from_num x hb 4
  | u64 => from_num x hb 8
  | cfgInfMask => from_enum x hb [find_inf, inf_toNat, show cfgInfMask_.nbits = 8 from rfl]
  | dataBits => from_enum x hb [isVariant_whole, Bool.true_or, dataBitsV, varV]
  | parity => from_enum x hb [isVariant_whole, Bool.true_or, parityV, varV]
  | stopBits => from_enum x hb [isVariant_whole, Bool.true_or, stopBitsV, varV]
  | alignment => from_enum x hb [isVariant_whole, Bool.true_or, alignmentV, varV]
  | tpPulse => from_enum x hb [isVariant_whole, Bool.true_or, varV]
  | tpPulseLength => from_enum x hb [isVariant_whole, Bool.true_or, varV]

include hf

theorem val_parse (buf : Bytes) :
    run (whole rows) m (k + 1) [] i!"CfgVal" i!"parse" [.bytes buf] =
      lift (getByte buf 0) fun a => lift (getByte buf 1) fun b => lift (getByte buf 2) fun c => lift (getByte buf 3) fun d =>
        match rows.find? fun r => UInt32.ofNat r.key == u32FromLe a b c d with
        | some r => lift (r.ty.fromCfgVBytes (buf.drop 4)) fun v =>
          .ok (.adt [i!"CfgVal", r.name] [cfgValueV v], .unit)
        | none => .error (.panic .explicit) := by
  rw [run_whole _ _ (wlookup_parse hf)]
  unfold parseFn
  have e := fun c => evals_index0 c i!"buf" buf [] 4 (by decide)
  simp only [evalS, eval, evals, Macro.exprs, e]
  simp only [rust, exec, Macro.exprs, range_4, List.mapM_cons, List.mapM_nil, lift_bindR, lift_pureR, List.map_cons,
    List.map_nil, evalA_key]
  refine lift_congr_ok _ _ _ fun a _ => lift_congr_ok _ _ _ fun b _ => lift_congr_ok _ _ _ fun c _ =>
    lift_congr_ok _ _ _ fun d hd => ?_
  have hs : sliceFrom buf 4 = .ok (buf.drop 4) := by
    rw [sliceFrom, if_pos]
    rcases hb : buf with _ | ⟨_, _ | ⟨_, _ | ⟨_, _ | ⟨_, _⟩⟩⟩⟩ <;> simp_all [getByte]
  cases hr : rows.find? fun r => UInt32.ofNat r.key == u32FromLe a b c d with
  | none => simp only [rust]
  | some r =>
    have h1 : isVariant (whole rows) i!"CfgVal" r.name = true := by
      rw [isVariant_whole]
      have : rows.any (fun x => x.name == r.name) = true :=
        List.any_eq_true.mpr ⟨r, List.mem_of_find?_eq_some hr, by simp⟩
      simp [this]
    simp only [Row.parseArm, eval_from m _ _ _ _ _ hs, eval, evals, Macro.exprs, rust, exec, h1, wctx_prog, wctx_me,
      hf.ne (n := i!"from_bits_truncate") (by decide +kernel) r (List.mem_of_find?_eq_some hr)]
    refine lift_congr_ok _ _ _ fun v _ => ?_
    cases v with
    | tpPulse v => cases v <;> rfl
    | tpPulseLength v => cases v <;> rfl
    | dataBits v => cases v <;> rfl
    | parity v => cases v <;> rfl
    | stopBits v => cases v <;> rfl
    | alignment v => cases v <;> rfl
    | _ => rfl

end Ublox.Exec
