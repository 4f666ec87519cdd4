import Verif.Lemmas.Whole
import Verif.Spec.CfgText

/-!
# What the functions that the macros of `cfg_val.rs` make do
-/

namespace Ublox.Exec

open Code Macro Gen Spec

/-- What a function of the program is evaluated in -/
def wctx (rows : List Row) (m : Mach) (k : Nat) (ty : Name) : Ctx :=
  ⟨whole rows, m, ty, run (whole rows) m k, change (whole rows) m k⟩

variable {rows : List Row} (hf : Fine rows) (m : Mach) (k : Nat)

theorem wctx_prog (ty) : (wctx rows m k ty).prog = whole rows := rfl
theorem wctx_mach (ty) : (wctx rows m k ty).mach = m := rfl
theorem wctx_me (ty) : (wctx rows m k ty).me = ty := rfl
theorem wctx_user (ty) (tags : List Name) (t f : Name) (args : List W) :
    (wctx rows m k ty).user tags t f args = run (whole rows) m k tags t f args := rfl
theorem wctx_change (ty) (t f : Name) (args : List W) :
    (wctx rows m k ty).change t f args = change (whole rows) m k t f args := rfl

theorem run_whole {tags : List Name} {ty name : Name} {f : Fn} (h : lookup (whole rows).impls tags ty name = some f)
    (args : List W) : run (whole rows) m (k + 1) tags ty name args = runFn (wctx rows m k ty) f args := by
  unfold run
  simp only [runWith, h]
  rfl

theorem change_whole {ty name : Name} {f : Fn} (h : lookup (whole rows).impls [] ty name = some f)
    (args : List W) : change (whole rows) m (k + 1) ty name args = runMut (wctx rows m k ty) f args := by
  unfold change
  simp only [runWith, h]
  rfl

attribute [local irreducible] Exec.run Exec.change Code.lift Exec.runFn Exec.runMut

include hf in
theorem Fine.ne {n : Name} (h : n ∈ reserved) : ∀ r ∈ rows, r.name ≠ n := fun r hr e => hf.fresh r hr (e ▸ h)

theorem whole_items : (whole rows).items = [] := rfl

/-- Evaluates a function of the program: where it is found, its code, and other lemmas. -/
macro "whole_fn " h:term ", " f:ident " [" ls:Lean.Parser.Tactic.simpLemma,* "]" : tactic =>
  `(tactic| (rw [run_whole _ _ $h]; unfold $f; simp only [rust, exec, wctx_prog, wctx_mach, wctx_me, wctx_user, wctx_change,
      whole_items, $ls,*]))

include hf

theorem whole_KeyId_SIZE : run (whole rows) m (k + 1) [] i!"KeyId" i!"SIZE" [] = .ok (.usize KeyId.SIZE, .unit) := by
  have h : lookup (whole rows).impls [] i!"KeyId" i!"SIZE" = some cfgHeadRs_KeyId_SIZE := by
    rw [lookup_other (hf.ne (by decide +kernel))]
    kernel_rfl
  whole_fn h, cfgHeadRs_KeyId_SIZE [KeyId.SIZE]

theorem whole_StorageSize_to_usize (x : StorageSize) :
    run (whole rows) m (k + 1) [] i!"StorageSize" i!"to_usize" [storageSizeV x] =
      .ok (.usize x.toUsize, storageSizeV x) := by
  have h : lookup (whole rows).impls [] i!"StorageSize" i!"to_usize" = some cfgHeadRs_StorageSize_to_usize := by
    rw [lookup_other (hf.ne (by decide +kernel))]
    kernel_rfl
  cases x <;> whole_fn h, cfgHeadRs_StorageSize_to_usize [StorageSize.toUsize, isVariant_whole, Bool.true_or]

theorem whole_KeyId_value_size (x : UInt32) :
    run (whole rows) m (k + 1) [] i!"KeyId" i!"value_size" [.adt [i!"KeyId"] [.u32 x]] =
      .ok (storageSizeV (KeyId.valueSize x), wrapV i!"KeyId" (.u32 x)) := by
  have h : lookup (whole rows).impls [] i!"KeyId" i!"value_size" = some cfgHeadRs_KeyId_value_size := by
    rw [lookup_other (hf.ne (by decide +kernel))]
    kernel_rfl
  whole_fn h, cfgHeadRs_KeyId_value_size [KeyId.valueSize, isVariant_whole, Bool.true_or]
  (repeat' split) <;> simp_all [exec]

variable {r : Row} (hr : r ∈ rows)
include hr

theorem row_KEY : run (whole rows) m (k + 1) [] r.name i!"KEY" [] =
    .ok (wrapV i!"KeyId" (.u32 (UInt32.ofNat r.key)), .unit) := by
  have := hf.key r hr
  whole_fn (lookup_key hf hr), Row.keyFn [Macro.exprs, fieldTy_whole (hf.ne (n := i!"KeyId") (by decide +kernel)), this]

theorem row_SIZE : run (whole rows) m (k + 2) [] r.name i!"SIZE" [] =
    lift (uadd m.M KeyId.SIZE (KeyId.valueSize (UInt32.ofNat r.key)).toUsize) fun n => .ok (.usize n, .unit) := by
  whole_fn (lookup_size hf hr), Row.sizeFn [isVariant_none noVariant_size (hf.ne (n := i!"SIZE") (by decide +kernel)),
    isVariant_none noVariant_key (hf.ne (n := i!"KEY") (by decide +kernel)), flagConst_none noVariant_key,
    flagConst_none noVariant_size, row_KEY hf _ _ hr, whole_KeyId_value_size hf, whole_KeyId_SIZE hf]
  generalize KeyId.valueSize (UInt32.ofNat r.key) = x
  have h := whole_StorageSize_to_usize hf m k x
  cases x <;> simp only [storageSizeV, varV] at h <;> simp only [rust, exec, wctx_prog, wctx_mach, wctx_me, wctx_user, h]

end Ublox.Exec
