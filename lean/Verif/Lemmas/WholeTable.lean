import Verif.Lemmas.GenCfgNames

/-!
# The table of `cfg_val.rs` is as it must be
-/

namespace Ublox.Exec

open Code Macro Gen Spec

theorem cfgItems_fine : FineItems cfgItems where
  fine := by
    have e : (cfgItems.map rowOf).map Row.name = cfgNames := by
      rw [List.map_map]
      exact cfgNames_eq
    have h := List.all_eq_true.mp cfgNames_fresh
    have hn : ∀ r ∈ cfgItems.map rowOf, (reserved.all fun m => !Nat.beq m r.name) = true ∧ isCtor r.name = true := by
      intro r hr
      have := h r.name (e ▸ List.mem_map_of_mem (f := Row.name) hr)
      simpa only [Bool.and_eq_true] using this
    refine ⟨e ▸ nodup_of_nodupB cfgNames_nodup, fun r hr hm => ?_, fun r hr => (hn r hr).2, fun r hr => ?_⟩
    · have := List.all_eq_true.mp (hn r hr).1 _ hm
      simp at this
    · obtain ⟨i, _, rfl⟩ := List.mem_map.mp hr
      exact i.key.toNat_lt
  size := fun i hi => (cfgKeys_width i hi).1

end Ublox.Exec
