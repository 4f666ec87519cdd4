import Verif.Lemmas.WholeVal
import Verif.Lemmas.CfgVal

/-!
# The functions of `cfg_val.rs` on the values of the model
-/

namespace Ublox.Exec

open Code Macro Gen Spec
attribute [local irreducible] Exec.run Exec.change Code.lift Exec.runFn Exec.runMut

/-- What is needed of a table of items: the names as for `Fine`, and the sizes of the keys are those of the values. -/
structure FineItems (items : List CfgItem) : Prop where
  fine : Fine (items.map rowOf)
  size : ∀ i ∈ items, i.size = 4 + cfgWidth i.ty

theorem rowOf_key (i : CfgItem) : UInt32.ofNat (rowOf i).key = i.key := UInt32.ofNat_toNat

theorem rowOf_name (i : CfgItem) : (rowOf i).name = itemName i := rfl

variable {items : List CfgItem} (hf : FineItems items) (m : Mach) (k : Nat)

theorem mem_rows {i : CfgItem} (h : i ∈ items) : rowOf i ∈ items.map rowOf := List.mem_map_of_mem h

theorem toUsize_le (s : StorageSize) : s.toUsize ≤ 8 := by cases s <;> decide

theorem uadd_size {M : Nat} (h : 12 ≤ M) (s : StorageSize) : uadd M KeyId.SIZE s.toUsize = .ok (KeyId.SIZE + s.toUsize) := by
  have := toUsize_le s
  rw [uadd, if_pos]
  simp only [KeyId.SIZE]
  omega

include hf

theorem into_ok {v : CfgVal} (hv : IsCfgVal items v) :
    v.intoCfgKvBytes = .ok (u32ToLe v.item.key ++ v.value.bytes) := by
  rw [CfgVal.intoCfgKvBytes]
  refine if_pos ?_
  rw [hf.size _ hv.1, ← hv.2, List.length_append, v.value.bytes_length]
  rfl

theorem item_KEY {i : CfgItem} (hi : i ∈ items) : run (whole (items.map rowOf)) m (k + 1) [] (itemName i) i!"KEY" [] =
    .ok (wrapV i!"KeyId" (.u32 i.key), .unit) := by
  have := row_KEY hf.fine m k (mem_rows hi)
  simp only [rowOf_key] at this
  exact this

theorem item_SIZE (hM : 12 ≤ m.M) {i : CfgItem} (hi : i ∈ items) :
    run (whole (items.map rowOf)) m (k + 2) [] (itemName i) i!"SIZE" [] = .ok (.usize i.size, .unit) := by
  have := row_SIZE hf.fine m k (mem_rows hi)
  rw [uadd_size hM] at this
  simp only [rowOf_key, rust] at this
  exact this

theorem item_into {v : CfgVal} (hv : IsCfgVal items v) :
    run (whole (items.map rowOf)) m (k + 2) [] (itemName v.item) i!"into_cfg_kv_bytes" [cfgItemV v] =
      returns v.intoCfgKvBytes (cfgItemV v) .bytes := by
  have := row_into hf.fine m k (mem_rows hv.1) v.value hv.2
  rw [into_ok hf hv]
  simp only [rowOf_key] at this
  simp only [returns, rust]
  exact this

theorem item_len (hM : 12 ≤ m.M) {v : CfgVal} (hv : IsCfgVal items v) :
    run (whole (items.map rowOf)) m (k + 3) [] i!"CfgVal" i!"len" [cfgValV v] = .ok (.usize v.len, cfgValV v) := by
  have := val_len hf.fine m k (mem_rows hv.1) (cfgValueV v.value)
  rw [uadd_size hM] at this
  simp only [rowOf_key, rust] at this
  exact this

theorem item_isEmpty (hM : 12 ≤ m.M) {v : CfgVal} (hv : IsCfgVal items v) :
    run (whole (items.map rowOf)) m (k + 4) [] i!"CfgVal" i!"is_empty" [cfgValV v] =
      .ok (.bool v.isEmpty, cfgValV v) := by
  have := val_isEmpty hf.fine m k (mem_rows hv.1) (cfgValueV v.value)
  rw [uadd_size hM] at this
  simp only [rowOf_key, rust] at this
  exact this

theorem item_extend {v : CfgVal} (hv : IsCfgVal items v) (buf : Bytes) :
    change (whole (items.map rowOf)) m (k + 3) i!"CfgVal" i!"extend_to" [cfgValV v, .bytes buf] =
      lift (v.extendTo buf) fun r => .ok (.usize r.2, .bytes r.1) := by
  have := val_extend hf.fine m k (mem_rows hv.1) v.value hv.2 buf
  simp only [CfgVal.extendTo, into_ok hf hv, lift_bindR, lift_pureR, rust]
  simp only [rowOf_key, rust] at this
  exact this

theorem item_write {v : CfgVal} (hv : IsCfgVal items v) (buf : Bytes) :
    change (whole (items.map rowOf)) m (k + 3) i!"CfgVal" i!"write_to" [cfgValV v, .bytes buf] =
      lift (v.writeTo buf) fun r => .ok (.usize r.2, .bytes r.1) := by
  have := val_write hf.fine m k (mem_rows hv.1) v.value hv.2 buf
  simp only [CfgVal.writeTo, into_ok hf hv, lift_bindR, lift_pureR, rust]
  simp only [rowOf_key] at this
  exact this

theorem item_parse (buf : Bytes) :
    run (whole (items.map rowOf)) m (k + 1) [] i!"CfgVal" i!"parse" [.bytes buf] =
      returns (CfgVal.parse items buf) .unit cfgValV := by
  rw [val_parse hf.fine m k buf]
  simp only [returns, CfgVal.parse, lift_bindR]
  refine lift_congr_ok _ _ _ fun a _ => lift_congr_ok _ _ _ fun b _ => lift_congr_ok _ _ _ fun c _ =>
    lift_congr_ok _ _ _ fun d hd => ?_
  have hs : sliceFrom buf 4 = .ok (buf.drop 4) := by
    rw [sliceFrom, if_pos]
    rcases hb : buf with _ | ⟨_, _ | ⟨_, _ | ⟨_, _ | ⟨_, _⟩⟩⟩⟩ <;> simp_all [getByte]
  rw [List.find?_map]
  have e : ((fun r : Row => UInt32.ofNat r.key == u32FromLe a b c d) ∘ rowOf) =
      fun i : CfgItem => i.key == u32FromLe a b c d := by
    funext i; simp only [Function.comp, rowOf_key]
  rw [e]
  cases items.find? fun i => i.key == u32FromLe a b c d with
  | none => simp only [Option.map_none, rust]
  | some i =>
    simp only [Option.map_some, hs, lift_bindR, lift_pureR, rust]
    rfl

/-! ## The iterator -/

theorem wlookup_iter_new : lookup (whole (items.map rowOf)).impls [] i!"CfgValIter" i!"new" = some packetsRs_CfgValIter_new := by
  rw [lookup_other (hf.fine.ne (by decide +kernel))]
  kernel_rfl
theorem wlookup_iter_next :
    lookup (whole (items.map rowOf)).impls [] i!"CfgValIter" i!"next" = some packetsRs_CfgValIter_Iterator_next := by
  rw [lookup_other (hf.fine.ne (by decide +kernel))]
  kernel_rfl

omit hf in
theorem noVariant_parse : noVariant i!"parse" = true := by decide +kernel

omit hf in
theorem parse_isCfgVal {buf : Bytes} {v : CfgVal} (h : CfgVal.parse items buf = .ok v) : IsCfgVal items v := by
  unfold CfgVal.parse at h
  obtain ⟨a, ha, h⟩ := bind_ok h
  obtain ⟨b, hb, h⟩ := bind_ok h
  obtain ⟨c, hc, h⟩ := bind_ok h
  obtain ⟨d, hd, h⟩ := bind_ok h
  simp only at h
  split at h
  · rename_i i hi
    obtain ⟨r, hr, h⟩ := bind_ok h
    obtain ⟨w, hw, h⟩ := bind_ok h
    injection h with h; subst h
    exact ⟨List.mem_of_find?_eq_some hi, (CfgTy.fromCfgVBytes_sound hw).1⟩
  · cases h

theorem iter_next (hM : 12 ≤ m.M) (it : CfgValIter) :
    run (whole (items.map rowOf)) m (k + 4) [] i!"CfgValIter" i!"next" [cfgIterV it] =
      lift (it.next m.M items) fun r => .ok (optV (r.1.map cfgValV), cfgIterV r.2) := by
  have hp : ∀ r ∈ items.map rowOf, r.name ≠ i!"parse" := by
    intro r hr e
    have := hf.fine.ctor r hr
    rw [e] at this
    exact absurd this (by decide +kernel)
  whole_fn (wlookup_iter_next hf), packetsRs_CfgValIter_Iterator_next [cfgIterV, CfgValIter.next, lift_bindR, lift_pureR,
    item_parse hf, List.isEmpty_nil, isVariant_none noVariant_parse hp]
  by_cases h : it.offset < it.data.length
  · simp only [h, if_true]
    refine lift_congr_ok _ _ _ fun a _ => lift_congr_ok _ _ _ fun v hv => ?_
    have hl := item_len hf m k hM (parse_isCfgVal hv)
    simp only [cfgValV] at hl
    simp only [cfgValV, rust, exec, wctx_user, hl, lift_bindR, lift_pureR, Option.map_some]
  · simp only [h, if_false, lift_pureR, Option.map_none, exec]

omit hf in
theorem writeAll_whole (vs : List CfgVal) (hv : ∀ v ∈ vs, IsCfgVal items v) (data : Bytes) (off : Nat) (values : W)
    (body : W → Env → Res)
    (h : ∀ data off v, IsCfgVal items v →
      body (cfgValV v) [(i!"offset", .usize off), (i!"data", .bytes data), (i!"values", values)] =
      lift (sliceFrom data off) fun rest => lift (v.writeTo rest) fun r => lift (uadd m.M off r.2) fun n =>
        .ok (.val .unit, [(i!"offset", .usize n), (i!"data", .bytes (data.take off ++ r.1)), (i!"values", values)])) :
    forLoop body (vs.map cfgValV) [(i!"offset", .usize off), (i!"data", .bytes data), (i!"values", values)] =
      lift (CfgValIter.writeAll m.M vs data off) fun r =>
        .ok (.val .unit, [(i!"offset", .usize r.2), (i!"data", .bytes r.1), (i!"values", values)]) := by
  induction vs generalizing data off with
  | nil => simp only [CfgValIter.writeAll, rust, List.map_nil, forLoop]
  | cons x vs ih =>
    rw [List.map_cons, forLoop_cons, h _ _ _ (hv x List.mem_cons_self), CfgValIter.writeAll]
    simp only [lift_bindR, rust, exec, ih fun v h => hv v (List.mem_cons_of_mem _ h)]

theorem iter_new (data : Bytes) (vs : List CfgVal) (hv : ∀ v ∈ vs, IsCfgVal items v) :
    run (whole (items.map rowOf)) m (k + 4) [] i!"CfgValIter" i!"new" [.bytes data, .list (vs.map cfgValV)] =
      returns (CfgValIter.new m.M data vs) .unit cfgIterV := by
  cases vs with
  | nil =>
    whole_fn (wlookup_iter_new hf), packetsRs_CfgValIter_new
      [cfgIterV, CfgValIter.new, fieldTy_whole (hf.fine.ne (n := i!"CfgValIter") (by decide +kernel)),
        fieldNames_whole (hf.fine.ne (n := i!"CfgValIter") (by decide +kernel)), lift_bindR, lift_pureR, forLoop, CfgValIter.writeAll, List.map_nil]
  | cons v vs =>
    have w := fun buf => item_write hf m k (hv v List.mem_cons_self) buf
    simp only [cfgValV] at w
    rw [List.map_cons]
    whole_fn (wlookup_iter_new hf), packetsRs_CfgValIter_new
      [cfgIterV, CfgValIter.new, fieldTy_whole (hf.fine.ne (n := i!"CfgValIter") (by decide +kernel)),
        fieldNames_whole (hf.fine.ne (n := i!"CfgValIter") (by decide +kernel)), lift_bindR, lift_pureR, forLoop_cons, CfgValIter.writeAll, cfgValV, w]
    refine lift_congr_ok _ _ _ fun a _ => lift_congr_ok _ _ _ fun b _ => lift_congr_ok _ _ _ fun c _ => ?_
    rw [writeAll_whole m vs fun v h => hv v (List.mem_cons_of_mem _ h)]
    · simp only [rust, exec]
    · intro data off v h
      have w := fun buf => item_write hf m k h buf
      simp only [cfgValV] at w
      simp only [rust, exec, cfgValV, wctx_change, w]

end Ublox.Exec
