import Verif.Lemmas.WholeFns

/-!
# What `into_cfg_kv_bytes` that the macros of `cfg_val.rs` make does
-/

namespace Ublox.Exec

open Code Macro Gen Spec
attribute [local irreducible] Exec.run Exec.change Code.lift Exec.runFn Exec.runMut

theorem evals_append (c : Ctx) (a b : List Expr) (env : Env) (K : List W → Env → Res) :
    evals c (exprs (a ++ b)) env K =
      evals c (exprs a) env fun vs env => evals c (exprs b) env fun ws env => K (vs ++ ws) env := by
  induction a generalizing env K with
  | nil => simp only [List.nil_append, Macro.exprs, evals]
  | cons e a ih => simp only [List.cons_append, Macro.exprs, evals, ih]

theorem evals_index (c : Ctx) (x : Name) (bs : Bytes) (env : Env) (hx : pathV c [x] env = .ok (.bytes bs))
    (ks : List Nat) (hk : ∀ k ∈ ks, k < 65536) (K : List W → Env → Res) :
    evals c (exprs (ks.map fun k => Expr.index (.path [x]) (.int k))) env K =
      lift (ks.mapM (getByte bs)) fun l => K (l.map .u8) env := by
  induction ks generalizing K with
  | nil => simp only [List.map_nil, Macro.exprs, evals, List.mapM_nil, pure, Except.pure, rust]
  | cons k ks ih =>
    simp only [List.mem_cons, forall_eq_or_imp] at hk
    simp only [List.map_cons, Macro.exprs, List.mapM_cons, ih hk.2, rust, exec, hx, hk.1, if_true]

theorem evals_index0 (c : Ctx) (x : Name) (bs : Bytes) (env : Env) (n : Nat) (hn : n < 65536) (K : List W → Env → Res) :
    evals c (exprs ((List.range n).map fun k => Expr.index (.path [x]) (.int k))) ((x, .bytes bs) :: env) K =
      lift ((List.range n).mapM (getByte bs)) fun l => K (l.map .u8) ((x, .bytes bs) :: env) := by
  refine evals_index c x bs _ ?_ _ (fun k h => ?_) K
  · simp only [exec, rust]
  · have := List.mem_range.mp h; omega

theorem evals_index1 (c : Ctx) (x y : Name) (hy : y ≠ x) (w : W) (bs : Bytes) (env : Env) (n : Nat) (hn : n < 65536)
    (K : List W → Env → Res) :
    evals c (exprs ((List.range n).map fun k => Expr.index (.path [x]) (.int k))) ((y, w) :: (x, .bytes bs) :: env) K =
      lift ((List.range n).mapM (getByte bs)) fun l => K (l.map .u8) ((y, w) :: (x, .bytes bs) :: env) := by
  refine evals_index c x bs _ ?_ _ (fun k h => ?_) K
  · simp only [exec, rust, hy]
  · have := List.mem_range.mp h; omega

theorem byteList_map (l : Bytes) (ws : List W) : byteList (l.map .u8 ++ ws) = (byteList ws).map (l ++ ·) := by
  induction l with
  | nil => simp
  | cons b l ih => simp only [List.map_cons, List.cons_append, byteList_u8, ih, Option.map_map]; rfl

theorem byteList_map' (l : Bytes) : byteList (l.map .u8) = some l := by
  have := byteList_map l []
  simpa only [List.append_nil, byteList_nil, Option.map_some] using this

theorem mapM_u16 (x : UInt16) : (List.range 2).mapM (getByte (u16ToLe x)) = .ok (u16ToLe x) := rfl
theorem mapM_u32 (x : UInt32) : (List.range 4).mapM (getByte (u32ToLe x)) = .ok (u32ToLe x) := rfl
theorem mapM_u64 (x : UInt64) : (List.range 8).mapM (getByte (u64ToLe x)) = .ok (u64ToLe x) := rfl

theorem flagBits_inf {rows : List Row} : flagBits (whole rows).flags i!"CfgInfMask" = 8 := rfl

variable {rows : List Row} (hf : Fine rows) (m : Mach) (k : Nat)
include hf

variable {r : Row} (hr : r ∈ rows)
include hr

/-- Evaluates `into_cfg_kv_bytes` of an item. -/
macro "into_fn " hf:term:max hr:term:max hv:term:max " [" ls:Lean.Parser.Tactic.simpLemma,* "]" : tactic =>
  `(tactic| (
    rw [run_whole _ _ (lookup_into $hf $hr)]
    unfold Row.intoFn
    rw [← $hv]
    simp only [rust, exec, wctx_prog, wctx_mach, wctx_me, wctx_user, cfgValueV, varV,
      isVariant_none noVariant_key (Fine.ne $hf (n := i!"KEY") (by decide +kernel)), flagConst_none noVariant_key,
      row_KEY $hf _ _ $hr, CfgValue.bytes, evals_append, evals_index0, evals_index1, mapM_u16, mapM_u32, mapM_u64,
      byteList_map, byteList_map', intoBytes, inner, intoLe, intoMatch, this, Macro.exprs, armsOf, List.map_cons,
      List.map_nil, $ls,*]))

theorem row_into_bool (v : Bool) (hv : .bool = r.ty) :
    run (whole rows) m (k + 2) [] r.name i!"into_cfg_kv_bytes" [.adt [r.name] [cfgValueV (.bool v)]] =
      .ok (.bytes (u32ToLe (UInt32.ofNat r.key) ++ CfgValue.bytes (.bool v)), .adt [r.name] [cfgValueV (.bool v)]) := by
  cases v <;> into_fn hf hr hv [castTo_bool]

theorem row_into_u8 (v : UInt8) (hv : .u8 = r.ty) :
    run (whole rows) m (k + 2) [] r.name i!"into_cfg_kv_bytes" [.adt [r.name] [cfgValueV (.u8 v)]] =
      .ok (.bytes (u32ToLe (UInt32.ofNat r.key) ++ CfgValue.bytes (.u8 v)), .adt [r.name] [cfgValueV (.u8 v)]) := by
  into_fn hf hr hv []

theorem row_into_u16 (v : UInt16) (hv : .u16 = r.ty) :
    run (whole rows) m (k + 2) [] r.name i!"into_cfg_kv_bytes" [.adt [r.name] [cfgValueV (.u16 v)]] =
      .ok (.bytes (u32ToLe (UInt32.ofNat r.key) ++ CfgValue.bytes (.u16 v)), .adt [r.name] [cfgValueV (.u16 v)]) := by
  into_fn hf hr hv []

theorem row_into_i16 (v : Int16) (hv : .i16 = r.ty) :
    run (whole rows) m (k + 2) [] r.name i!"into_cfg_kv_bytes" [.adt [r.name] [cfgValueV (.i16 v)]] =
      .ok (.bytes (u32ToLe (UInt32.ofNat r.key) ++ CfgValue.bytes (.i16 v)), .adt [r.name] [cfgValueV (.i16 v)]) := by
  into_fn hf hr hv []

theorem row_into_u32 (v : UInt32) (hv : .u32 = r.ty) :
    run (whole rows) m (k + 2) [] r.name i!"into_cfg_kv_bytes" [.adt [r.name] [cfgValueV (.u32 v)]] =
      .ok (.bytes (u32ToLe (UInt32.ofNat r.key) ++ CfgValue.bytes (.u32 v)), .adt [r.name] [cfgValueV (.u32 v)]) := by
  into_fn hf hr hv []

theorem row_into_u64 (v : UInt64) (hv : .u64 = r.ty) :
    run (whole rows) m (k + 2) [] r.name i!"into_cfg_kv_bytes" [.adt [r.name] [cfgValueV (.u64 v)]] =
      .ok (.bytes (u32ToLe (UInt32.ofNat r.key) ++ CfgValue.bytes (.u64 v)), .adt [r.name] [cfgValueV (.u64 v)]) := by
  into_fn hf hr hv []

theorem row_into_cfgInfMask (v : UInt8) (hv : .cfgInfMask = r.ty) :
    run (whole rows) m (k + 2) [] r.name i!"into_cfg_kv_bytes" [.adt [r.name] [cfgValueV (.cfgInfMask v)]] =
      .ok (.bytes (u32ToLe (UInt32.ofNat r.key) ++ CfgValue.bytes (.cfgInfMask v)), .adt [r.name] [cfgValueV (.cfgInfMask v)]) := by
  into_fn hf hr hv [flagBits_inf, UInt8.ofNat_toNat]

theorem row_into_dataBits (v : DataBits) (hv : .dataBits = r.ty) :
    run (whole rows) m (k + 2) [] r.name i!"into_cfg_kv_bytes" [.adt [r.name] [cfgValueV (.dataBits v)]] =
      .ok (.bytes (u32ToLe (UInt32.ofNat r.key) ++ CfgValue.bytes (.dataBits v)), .adt [r.name] [cfgValueV (.dataBits v)]) := by
  cases v <;> into_fn hf hr hv [dataBitsV, isVariant_whole, Bool.true_or]

theorem row_into_parity (v : Parity) (hv : .parity = r.ty) :
    run (whole rows) m (k + 2) [] r.name i!"into_cfg_kv_bytes" [.adt [r.name] [cfgValueV (.parity v)]] =
      .ok (.bytes (u32ToLe (UInt32.ofNat r.key) ++ CfgValue.bytes (.parity v)), .adt [r.name] [cfgValueV (.parity v)]) := by
  cases v <;> into_fn hf hr hv [parityV, isVariant_whole, Bool.true_or]

theorem row_into_stopBits (v : StopBits) (hv : .stopBits = r.ty) :
    run (whole rows) m (k + 2) [] r.name i!"into_cfg_kv_bytes" [.adt [r.name] [cfgValueV (.stopBits v)]] =
      .ok (.bytes (u32ToLe (UInt32.ofNat r.key) ++ CfgValue.bytes (.stopBits v)), .adt [r.name] [cfgValueV (.stopBits v)]) := by
  cases v <;> into_fn hf hr hv [stopBitsV, isVariant_whole, Bool.true_or]

theorem row_into_alignment (v : AlignmentToReferenceTime) (hv : .alignment = r.ty) :
    run (whole rows) m (k + 2) [] r.name i!"into_cfg_kv_bytes" [.adt [r.name] [cfgValueV (.alignment v)]] =
      .ok (.bytes (u32ToLe (UInt32.ofNat r.key) ++ CfgValue.bytes (.alignment v)), .adt [r.name] [cfgValueV (.alignment v)]) := by
  cases v <;> into_fn hf hr hv [alignmentV, AlignmentToReferenceTime.intoRaw, discriminant_whole (rows := rows) (ty := i!"AlignmentToReferenceTime") (by decide)] <;> rfl

theorem row_into_tpPulse (v : TpPulse) (hv : .tpPulse = r.ty) :
    run (whole rows) m (k + 2) [] r.name i!"into_cfg_kv_bytes" [.adt [r.name] [cfgValueV (.tpPulse v)]] =
      .ok (.bytes (u32ToLe (UInt32.ofNat r.key) ++ CfgValue.bytes (.tpPulse v)), .adt [r.name] [cfgValueV (.tpPulse v)]) := by
  cases v <;> into_fn hf hr hv [discriminant_whole (rows := rows) (ty := i!"TpPulse") (by decide)]

theorem row_into_tpPulseLength (v : TpPulseLength) (hv : .tpPulseLength = r.ty) :
    run (whole rows) m (k + 2) [] r.name i!"into_cfg_kv_bytes" [.adt [r.name] [cfgValueV (.tpPulseLength v)]] =
      .ok (.bytes (u32ToLe (UInt32.ofNat r.key) ++ CfgValue.bytes (.tpPulseLength v)), .adt [r.name] [cfgValueV (.tpPulseLength v)]) := by
  cases v <;> into_fn hf hr hv [discriminant_whole (rows := rows) (ty := i!"TpPulseLength") (by decide)]

/-- `into_cfg_kv_bytes` of an item's structure: the key, then the value -/
theorem row_into (v : CfgValue) (hv : v.ty = r.ty) :
    run (whole rows) m (k + 2) [] r.name i!"into_cfg_kv_bytes" [.adt [r.name] [cfgValueV v]] =
      .ok (.bytes (u32ToLe (UInt32.ofNat r.key) ++ v.bytes), .adt [r.name] [cfgValueV v]) := by
  cases v with
  | bool v => exact row_into_bool hf m k hr v hv
  | u8 v => exact row_into_u8 hf m k hr v hv
  | u16 v => exact row_into_u16 hf m k hr v hv
  | i16 v => exact row_into_i16 hf m k hr v hv
  | u32 v => exact row_into_u32 hf m k hr v hv
  | u64 v => exact row_into_u64 hf m k hr v hv
  | cfgInfMask v => exact row_into_cfgInfMask hf m k hr v hv
  | dataBits v => exact row_into_dataBits hf m k hr v hv
  | parity v => exact row_into_parity hf m k hr v hv
  | stopBits v => exact row_into_stopBits hf m k hr v hv
  | alignment v => exact row_into_alignment hf m k hr v hv
  | tpPulse v => exact row_into_tpPulse hf m k hr v hv
  | tpPulseLength v => exact row_into_tpPulseLength hf m k hr v hv

end Ublox.Exec
