import Verif.Lemmas.GenMacro

/-!
# C93: the configuration items are what the macros in `cfg_val.rs` make of its table

`Gen.cfgFileRs` is the text of the file.  `Macro.programOf` reads a text with `macro_rules!` in it, replaces the
calls of the macros and returns the functions and declarations.
-/

namespace Ublox.Props

open Gen Macro

/-- **C93**: the functions and declarations of `cfg_val.rs`: those before the macros, then the enumeration
`CfgVal` with its functions, one structure with its functions for each item, and two enumerations. -/
theorem c93_expansion : Macro.programOf (Src.codes (String.join cfgFileRs)) =
    some (cfgHeadRs_code ++ cfgValImpl (cfgItems.map rowOf) :: (cfgItems.map rowOf).map Row.impl,
      cfgHeadRs_decls ++ cfgValDecl (cfgItems.map rowOf) :: (cfgItems.map rowOf).map Row.decl ++
        [tpPulseDecl, tpPulseLengthDecl]) :=
  cfgFileRs_program

/-- **C93**: the macros make the like of any table, whatever its rows and however it is written: a text that
has the rules of the file, then a call with the table, gives these functions and declarations. -/
theorem c93_tables {table : List Nat} {rows : List Row} (ht : tokensIn table = some (rows.flatMap Row.tokens)) :
    Macro.programOf (Src.codes (macrosRs0 ++ macrosRs1 ++ macrosRs2) ++
        (Src.codes cfgCallRs ++ (table ++ Src.codes cfgEndRs))) =
      some (cfgValImpl rows :: rows.map Row.impl, cfgValDecl rows :: rows.map Row.decl) := by
  have h := stage_append macrosRs0_stage (stage_append macrosRs1_stage (stage_append macrosRs2_stage
    (stage_call (rows := rows) cfgCallRs_tokens ht cfgEndRs_tokens)))
  rw [programOf_eq]
  have e : ∀ a b : String, Src.codes (a ++ b) = Src.codes a ++ Src.codes b := by
    intro a b
    simp only [Src.codes, String.toList_append, List.map_append]
  simp only [e, List.append_assoc] at h ⊢
  rw [h]
  rfl

/-- A table of one row, with a comment and an octal key -/
example : Macro.programOf (Src.codes (macrosRs0 ++ macrosRs1 ++ macrosRs2) ++ (Src.codes cfgCallRs ++
      (Src.codes "// one item\n  Abc , 0o17, TpPulse," ++ Src.codes cfgEndRs))) =
    some (let r : Row := ⟨Src.codes "Abc", 15, .tpPulse⟩; ([cfgValImpl [r], r.impl], [cfgValDecl [r], r.decl])) :=
  c93_tables (rows := [⟨Src.codes "Abc", 15, .tpPulse⟩]) (by decide +kernel)

/-- A type for which the macros have no rule is not accepted. -/
example : ((tokensIn (Src.codes "from_cfg_v_bytes!(&buf[4..], i64)")).bind (expand macros 1000 [])) = none := by
  decide +kernel

/-- **C93**: the structure of every item has the name, the key and the type of the table. -/
theorem c93_items {i : CfgItem} (hi : i ∈ cfgItems) :
    ∃ impls decls, Macro.programOf (Src.codes (String.join cfgFileRs)) = some (impls, decls) ∧
      .struct (Code.name (Src.codes i.name)) [(i!"0", Code.name (tyCodes i.ty))] ∈ decls ∧
      ∃ im ∈ impls, im.type = Code.name (Src.codes i.name) ∧
        ⟨i!"KEY", [], i!"KeyId", .last (.call [i!"KeyId"] (.cons (.int i.key.toNat) .nil))⟩ ∈ im.fns := by
  refine ⟨_, _, c93_expansion, ?_, (rowOf i).impl, ?_, rfl, List.mem_cons_self ..⟩
  · refine List.mem_append_left _ (List.mem_append_right _ (List.mem_cons_of_mem _ ?_))
    exact List.mem_map_of_mem (f := Row.decl) (List.mem_map_of_mem (f := rowOf) hi)
  · refine List.mem_append_right _ (List.mem_cons_of_mem _ ?_)
    exact List.mem_map_of_mem (f := Row.impl) (List.mem_map_of_mem (f := rowOf) hi)

end Ublox.Props
