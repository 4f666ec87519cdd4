import Verif.Lemmas.ExecTypes

/-!
# The iterators and the functions for texts
-/

namespace Ublox.Exec

open Code Spec Gen

attribute [local irreducible] Exec.run Code.lift Exec.runFn

variable (m : Mach) (k : Nat)

theorem inf_convert (bs : Bytes) :
    run program m (k + 1) [] i!"inf" i!"convert_to_str" [.bytes bs] =
      .ok (optV ((Inf.convertToStr bs).map .str), .unit) := by
  cases h : utf8Valid bs <;>
  exec_fn packetsRs_inf_convert_to_str_lookup, packetsRs_inf_convert_to_str [Inf.convertToStr, h]

theorem inf_is_valid (bs : Bytes) :
    run program m (k + 1) [] i!"inf" i!"is_valid" [.bytes bs] = .ok (.bool (Inf.isValid bs), .unit) := by
  exec_fn packetsRs_inf_is_valid_lookup, packetsRs_inf_is_valid [Inf.isValid]

theorem position_zero (i : Nat) (bs : Bytes) :
    position (fun w => andThen (sameOp m.M BinOp.eq (unify w (W.lit 0 0)).1 (unify w (W.lit 0 0)).2) fun u => .ok u)
      i bs = .ok ((bs.findIdx? (· == 0)).map (· + i)) := by
  induction bs generalizing i with
  | nil => rfl
  | cons b bs ih =>
    rw [position]
    by_cases h : b = 0
    · simp only [rust, exec, h, List.findIdx?_cons, decide_true, beq_self_eq_true, Nat.zero_add]
    · simp only [rust, exec, h, List.findIdx?_cons, decide_false, beq_eq_false_iff_ne.2 h, ih]
      cases bs.findIdx? (· == 0) <;> simp only [Option.map_some, Option.map_none]
      congr 2
      omega

theorem position_zero' (bs : Bytes) :
    position (fun w => andThen (sameOp m.M BinOp.eq (unify w (W.lit 0 0)).1 (unify w (W.lit 0 0)).2) fun u => .ok u)
      0 bs = .ok (bs.findIdx? (· == 0)) := by
  rw [position_zero]; cases bs.findIdx? (· == 0) <;> rfl

theorem monVer_convert (bs : Bytes) :
    run program m (k + 1) [] i!"mon_ver" i!"convert_to_str_unchecked" [.bytes bs] =
      returns (MonVer.convertToStrUnchecked bs) .unit .str := by
  cases h : bs.findIdx? (· == 0) with
  | none =>
    exec_fn packetsRs_mon_ver_convert_to_str_unchecked_lookup, packetsRs_mon_ver_convert_to_str_unchecked
      [MonVer.convertToStrUnchecked, position_zero', h, bind, Except.bind]
  | some i =>
    cases h2 : sliceRange bs 0 i with
    | error =>
      exec_fn packetsRs_mon_ver_convert_to_str_unchecked_lookup, packetsRs_mon_ver_convert_to_str_unchecked
        [MonVer.convertToStrUnchecked, position_zero', h, h2, bind, Except.bind, pure, Except.pure]
    | ok t =>
      cases h3 : utf8Valid t <;>
      exec_fn packetsRs_mon_ver_convert_to_str_unchecked_lookup, packetsRs_mon_ver_convert_to_str_unchecked
        [MonVer.convertToStrUnchecked, position_zero', h, h2, h3, bind, Except.bind, pure, Except.pure]

theorem monVer_is_valid_body (me : Name) (bs : Bytes) :
    runFn (ctx m k me) packetsRs_mon_ver_is_cstr_valid [.bytes bs] =
      returns (MonVer.isCstrValid bs) .unit .bool := by
  unfold packetsRs_mon_ver_is_cstr_valid
  cases h : bs.findIdx? (· == 0) with
  | none => simp only [rust, exec, MonVer.isCstrValid, position_zero', h, pure, Except.pure]
  | some i =>
    cases h2 : sliceRange bs 0 i with
    | error => simp only [rust, exec, MonVer.isCstrValid, position_zero', h, h2, bind, Except.bind]
    | ok t =>
      cases h3 : utf8Valid t <;>
      simp only [rust, exec, MonVer.isCstrValid, position_zero', h, h2, h3, bind, Except.bind, pure, Except.pure]

theorem monVer_is_valid (bs : Bytes) :
    run program m (k + 1) [] i!"mon_ver" i!"is_cstr_valid" [.bytes bs] =
      returns (MonVer.isCstrValid bs) .unit .bool := by
  rw [run_fn packetsRs_mon_ver_is_cstr_valid_lookup, monVer_is_valid_body]

theorem is_cstr_valid_lookup :
    lookup program.impls [modName] 0 i!"is_cstr_valid" = some packetsRs_mon_ver_is_cstr_valid := by kernel_rfl

theorem monVer_is_valid_imported (bs : Bytes) :
    run program m (k + 1) [modName] 0 i!"is_cstr_valid" [.bytes bs] =
      returns (MonVer.isCstrValid bs) .unit .bool := by
  rw [run_fn is_cstr_valid_lookup, monVer_is_valid_body]

theorem allV_allR {f : W → O W} {g : Bytes → R Bool} (hf : ∀ x, f (.bytes x) = lift (g x) fun b => .ok (.bool b))
    (l : List Bytes) : allV f l = lift (allR g l) fun b => .ok (.bool b) := by
  induction l with
  | nil => simp only [allV, allR, rust]
  | cons x l ih =>
    simp only [allV, allR, hf]
    cases g x with
    | error e => simp only [rust, bind, Except.bind]
    | ok b => cases b <;> simp [rust, ih, bind, Except.bind, pure, Except.pure]

attribute [local exec] blockIterV iterName itemV exactSize IterKind.new IterKind.next IterKind.isValid bind Except.bind pure Except.pure

theorem NavSatIter_new (bs : Bytes) :
    run program m (k + 1) [] i!"NavSatIter" i!"new" [.bytes bs] = .ok (blockIterV .navSat (IterKind.navSat.new bs), .unit) := by
  exec_fn packetsRs_NavSatIter_new_lookup, packetsRs_NavSatIter_new []

theorem NavSatIter_is_valid (bs : Bytes) :
    run program m (k + 1) [] i!"NavSatIter" i!"is_valid" [.bytes bs] = returns (IterKind.navSat.isValid bs) .unit .bool := by
  exec_fn packetsRs_NavSatIter_is_valid_lookup, packetsRs_NavSatIter_is_valid []
  rfl

theorem NavSatIter_next (data : Bytes) (off : Nat) :
    run program m (k + 1) [] i!"NavSatIter" i!"next" [blockIterV .navSat (.offset data off)] =
      lift (IterKind.navSat.next m.M (.offset data off)) fun r => .ok (optV (r.1.map itemV), blockIterV .navSat r.2) := by
  exec_fn packetsRs_NavSatIter_Iterator_next_lookup, packetsRs_NavSatIter_Iterator_next []
  split
  · cases uadd m.M off 12 with
    | error => simp only [rust, exec]
    | ok a =>
      simp only [rust, exec]
      cases sliceRange data off a <;> simp only [rust, exec]
  · rfl

theorem MonVerExtensionIter_new (bs : Bytes) :
    run program m (k + 1) [] i!"MonVerExtensionIter" i!"new" [.bytes bs] = .ok (blockIterV .monVerExt (IterKind.monVerExt.new bs), .unit) := by
  exec_fn packetsRs_MonVerExtensionIter_new_lookup, packetsRs_MonVerExtensionIter_new []

theorem MonVerExtensionIter_is_valid (bs : Bytes) :
    run program m (k + 2) [] i!"MonVerExtensionIter" i!"is_valid" [.bytes bs] = returns (IterKind.monVerExt.isValid bs) .unit .bool := by
  exec_fn packetsRs_MonVerExtensionIter_is_valid_lookup, packetsRs_MonVerExtensionIter_is_valid []
  rw [allV_allR (g := MonVer.isCstrValid) (fun x => by simp only [rust, exec, monVer_is_valid_imported])]
  split
  · cases allR MonVer.isCstrValid (chunks 30 bs) <;> simp only [rust, exec]
  · rfl

theorem MonVerExtensionIter_next (data : Bytes) (off : Nat) :
    run program m (k + 2) [] i!"MonVerExtensionIter" i!"next" [blockIterV .monVerExt (.offset data off)] =
      lift (IterKind.monVerExt.next m.M (.offset data off)) fun r => .ok (optV (r.1.map itemV), blockIterV .monVerExt r.2) := by
  exec_fn packetsRs_MonVerExtensionIter_Iterator_next_lookup, packetsRs_MonVerExtensionIter_Iterator_next [monVer_convert]
  split
  · cases uadd m.M off 30 with
    | error => simp only [rust, exec]
    | ok a =>
      simp only [rust, exec]
      cases sliceRange data off a with
      | error => simp only [rust, exec]
      | ok b =>
        simp only [rust, exec]
        cases MonVer.convertToStrUnchecked b <;> simp only [rust, exec]
  · rfl

theorem EsfMeasDataIter_new (bs : Bytes) :
    run program m (k + 1) [] i!"EsfMeasDataIter" i!"new" [.bytes bs] = .ok (blockIterV .esfMeas (IterKind.esfMeas.new bs), .unit) := by
  exec_fn packetsRs_EsfMeasDataIter_new_lookup, packetsRs_EsfMeasDataIter_new []

theorem EsfMeasDataIter_is_valid (bs : Bytes) :
    run program m (k + 1) [] i!"EsfMeasDataIter" i!"is_valid" [.bytes bs] = returns (IterKind.esfMeas.isValid bs) .unit .bool := by
  exec_fn packetsRs_EsfMeasDataIter_is_valid_lookup, packetsRs_EsfMeasDataIter_is_valid []
  rfl

theorem u32FromSlice_error {bs : Bytes} {e : Panic} (h : u32FromSlice bs = .error e) : e = .unwrap := by
  unfold u32FromSlice at h
  split at h <;> simp_all

theorem EsfMeasDataIter_next (rest : Bytes) :
    run program m (k + 1) [] i!"EsfMeasDataIter" i!"next" [blockIterV .esfMeas (.chunks rest)] =
      lift (IterKind.esfMeas.next m.M (.chunks rest)) fun r => .ok (optV (r.1.map itemV), blockIterV .esfMeas r.2) := by
  rcases h : chunksNext 4 rest with ⟨_ | c, r⟩
  · exec_fn packetsRs_EsfMeasDataIter_Iterator_next_lookup, packetsRs_EsfMeasDataIter_Iterator_next [h]
  cases h2 : u32FromSlice c with
  | error =>
    exec_fn packetsRs_EsfMeasDataIter_Iterator_next_lookup, packetsRs_EsfMeasDataIter_Iterator_next [h, h2]
    rw [u32FromSlice_error h2]
  | ok x =>
    by_cases h3 : ((x &&& 0x3F000000) >>> 24).toNat < 256 <;>
    exec_fn packetsRs_EsfMeasDataIter_Iterator_next_lookup, packetsRs_EsfMeasDataIter_Iterator_next
      [h, h2, h3, u8TryFrom]

theorem EsfRawDataIter_new (bs : Bytes) :
    run program m (k + 1) [] i!"EsfRawDataIter" i!"new" [.bytes bs] = .ok (blockIterV .esfRaw (IterKind.esfRaw.new bs), .unit) := by
  exec_fn packetsRs_EsfRawDataIter_new_lookup, packetsRs_EsfRawDataIter_new []

theorem EsfRawDataIter_is_valid (bs : Bytes) :
    run program m (k + 1) [] i!"EsfRawDataIter" i!"is_valid" [.bytes bs] = returns (IterKind.esfRaw.isValid bs) .unit .bool := by
  exec_fn packetsRs_EsfRawDataIter_is_valid_lookup, packetsRs_EsfRawDataIter_is_valid []
  rfl

theorem DwrdIter_new (bs : Bytes) :
    run program m (k + 1) [] i!"DwrdIter" i!"new" [.bytes bs] = .ok (blockIterV .dwrd (IterKind.dwrd.new bs), .unit) := by
  exec_fn packetsRs_DwrdIter_new_lookup, packetsRs_DwrdIter_new []

theorem DwrdIter_is_valid (bs : Bytes) :
    run program m (k + 1) [] i!"DwrdIter" i!"is_valid" [.bytes bs] = returns (IterKind.dwrd.isValid bs) .unit .bool := by
  exec_fn packetsRs_DwrdIter_is_valid_lookup, packetsRs_DwrdIter_is_valid []
  rfl

theorem RxmRawxInfoIter_new (bs : Bytes) :
    run program m (k + 1) [] i!"RxmRawxInfoIter" i!"new" [.bytes bs] = .ok (blockIterV .rxmRawx (IterKind.rxmRawx.new bs), .unit) := by
  exec_fn packetsRs_RxmRawxInfoIter_new_lookup, packetsRs_RxmRawxInfoIter_new []

theorem RxmRawxInfoIter_is_valid (bs : Bytes) :
    run program m (k + 1) [] i!"RxmRawxInfoIter" i!"is_valid" [.bytes bs] = returns (IterKind.rxmRawx.isValid bs) .unit .bool := by
  exec_fn packetsRs_RxmRawxInfoIter_is_valid_lookup, packetsRs_RxmRawxInfoIter_is_valid []
  rfl

theorem EsfRawDataIter_next (rest : Bytes) :
    run program m (k + 1) [] i!"EsfRawDataIter" i!"next" [blockIterV .esfRaw (.chunks rest)] =
      lift (IterKind.esfRaw.next m.M (.chunks rest)) fun r => .ok (optV (r.1.map itemV), blockIterV .esfRaw r.2) := by
  rcases h : chunksNext 8 rest with ⟨_ | c, r⟩
  · exec_fn packetsRs_EsfRawDataIter_Iterator_next_lookup, packetsRs_EsfRawDataIter_Iterator_next [h]
  exec_fn packetsRs_EsfRawDataIter_Iterator_next_lookup, packetsRs_EsfRawDataIter_Iterator_next [h]
  cases sliceRange c 0 4 with
  | error => simp only [rust, exec]
  | ok a =>
    simp only [rust, exec]
    cases u32FromSlice a with
    | error => simp only [rust, exec]
    | ok x =>
      simp only [rust, exec]
      cases sliceRange c 4 8 with
      | error => simp only [rust, exec]
      | ok b =>
        simp only [rust, exec]
        cases u32FromSlice b with
        | error => simp only [rust, exec]
        | ok y =>
          by_cases h3 : ((x >>> 24) &&& 0xFF).toNat < 256 <;>
          simp only [rust, exec, u8TryFrom, h3]

theorem DwrdIter_next (rest : Bytes) :
    run program m (k + 1) [] i!"DwrdIter" i!"next" [blockIterV .dwrd (.chunks rest)] =
      lift (IterKind.dwrd.next m.M (.chunks rest)) fun r => .ok (optV (r.1.map itemV), blockIterV .dwrd r.2) := by
  rcases h : chunksNext 4 rest with ⟨_ | c, r⟩
  · exec_fn packetsRs_DwrdIter_Iterator_next_lookup, packetsRs_DwrdIter_Iterator_next [h]
  cases h2 : u32FromSlice c <;>
  exec_fn packetsRs_DwrdIter_Iterator_next_lookup, packetsRs_DwrdIter_Iterator_next [h, h2]

theorem RxmRawxInfoIter_next (rest : Bytes) :
    run program m (k + 1) [] i!"RxmRawxInfoIter" i!"next" [blockIterV .rxmRawx (.chunks rest)] =
      lift (IterKind.rxmRawx.next m.M (.chunks rest)) fun r => .ok (optV (r.1.map itemV), blockIterV .rxmRawx r.2) := by
  rcases h : chunksNext 32 rest with ⟨_ | c, r⟩ <;>
  exec_fn packetsRs_RxmRawxInfoIter_Iterator_next_lookup, packetsRs_RxmRawxInfoIter_Iterator_next [h]

end Ublox.Exec
