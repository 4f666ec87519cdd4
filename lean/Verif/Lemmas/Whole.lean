import Verif.Lemmas.ExecTypes
import Verif.Model.Whole

/-!
# Where the functions that the macros of `cfg_val.rs` make are found
-/

namespace Ublox.Exec

open Code Macro Gen

/-- The functions without those of the rows -/
def others (rows : List Row) : List Impl :=
  metaRs_code ++ typesRs_code ++ (cfgHeadRs_code ++ [cfgValImpl rows]) ++ packetsRs_code

/-- The program without the table -/
def base : Prog where
  impls := program.impls
  decls := metaRs_decls ++ typesRs_decls ++ (cfgHeadRs_decls ++ [tpPulseDecl, tpPulseLengthDecl]) ++ packetsRs_decls
  enums := allEnums
  flags := allFlags
  items := []

/-- The names that items must not have -/
def reserved : List Name :=
  (i!"CfgVal" :: program.impls.map (·.type)) ++
  (metaRs_decls ++ typesRs_decls ++ cfgHeadRs_decls).map (fun d => match d with | .struct n _ => n | .enum n _ => n) ++
  [i!"Some", i!"None", i!"Ok", i!"Err", i!"Self", i!"KEY", i!"SIZE", i!"from_bits_truncate", i!"i32", i!"u32", i!"u16",
    i!"u8", i!"T"]

/-- What is needed of a table: every name occurs once, is not the name of something else and begins with a
capital letter, and keys are numbers of 32 bits. -/
structure Fine (rows : List Row) : Prop where
  nodup : (rows.map Row.name).Nodup
  fresh : ∀ r ∈ rows, r.name ∉ reserved
  ctor : ∀ r ∈ rows, isCtor r.name = true
  key : ∀ r ∈ rows, r.key < 4294967296

section

variable {rows : List Row}

theorem candidates_append (a b : List Impl) (tags : List Name) (ty f : Name) :
    candidates (a ++ b) tags ty f = candidates a tags ty f ++ candidates b tags ty f := List.flatMap_append

theorem candidates_rows {tags : List Name} {ty f : Name} (h : ∀ r ∈ rows, r.name ≠ ty) :
    candidates (rows.map Row.impl) tags ty f = [] := by
  induction rows with
  | nil => rfl
  | cons r rows ih =>
    have e : candidates ((r :: rows).map Row.impl) tags ty f =
        candidates [r.impl] tags ty f ++ candidates (rows.map Row.impl) tags ty f := candidates_append [r.impl] _ _ _ _
    rw [e, ih fun x hx => h x (List.mem_cons_of_mem _ hx)]
    have := h r List.mem_cons_self
    simp [candidates, Row.impl, this]

theorem candidates_row {r : Row} {f : Name} (hn : (rows.map Row.name).Nodup) (hr : r ∈ rows) :
    candidates (rows.map Row.impl) [] r.name f = [r.keyFn, Row.sizeFn, r.intoFn].filter (·.name == f) := by
  induction rows with
  | nil => cases hr
  | cons x rows ih =>
    have e : candidates ((x :: rows).map Row.impl) [] r.name f =
        candidates [x.impl] [] r.name f ++ candidates (rows.map Row.impl) [] r.name f := candidates_append [x.impl] _ _ _ _
    rw [List.map_cons, List.nodup_cons] at hn
    rw [e]
    rcases List.mem_cons.mp hr with rfl | hr
    · rw [candidates_rows]
      · simp [candidates, Row.impl]
      · intro y hy e
        exact hn.1 (e ▸ List.mem_map_of_mem (f := Row.name) hy)
    · rw [ih hn.2 hr]
      have : x.name ≠ r.name := fun e => hn.1 (e ▸ List.mem_map_of_mem (f := Row.name) hr)
      simp [candidates, Row.impl, this]

theorem candidates_none {is : List Impl} {tags : List Name} {ty f : Name} (h : ∀ i ∈ is, i.type ≠ ty) (h0 : ty ≠ 0) :
    candidates is tags ty f = [] := by
  simp only [candidates, List.flatMap_eq_nil_iff]
  intro i hi
  have := h i hi
  simp [this, h0]

theorem candidates_whole (tags : List Name) (ty f : Name) :
    candidates (whole rows).impls tags ty f =
      candidates (metaRs_code ++ typesRs_code ++ (cfgHeadRs_code ++ [cfgValImpl rows])) tags ty f ++
      candidates (rows.map Row.impl) tags ty f ++ candidates packetsRs_code tags ty f := by
  have : (whole rows).impls = metaRs_code ++ typesRs_code ++ (cfgHeadRs_code ++ [cfgValImpl rows]) ++
      rows.map Row.impl ++ packetsRs_code := by
    simp only [whole, List.append_assoc, List.cons_append, List.nil_append]
  rw [this, candidates_append, candidates_append]

/-- Functions of other types are found as without the rows. -/
theorem lookup_other {tags : List Name} {ty f : Name} (h : ∀ r ∈ rows, r.name ≠ ty) :
    lookup (whole rows).impls tags ty f = lookup (others rows) tags ty f := by
  rw [lookup, candidates_whole, candidates_rows h, List.append_nil, ← candidates_append]
  rfl

theorem mem_others {i : Impl} (h : i ∈ others rows) : i.type ∈ reserved := by
  simp only [others, List.mem_append, List.mem_singleton] at h
  have : i.type = i!"CfgVal" ∨ i ∈ program.impls := by
    simp only [program, List.mem_append]
    rcases h with ((h | h) | (h | h)) | h
    all_goals first
      | exact .inl (by rw [h]; rfl)
      | exact .inr (by simp only [h, true_or, or_true])
  simp only [reserved, List.mem_append, List.mem_cons]
  rcases this with h | h
  · exact .inl (.inl (.inl h))
  · exact .inl (.inl (.inr (List.mem_map_of_mem h)))

variable {r : Row}

theorem Fine.name_ne_zero (hf : Fine rows) (hr : r ∈ rows) : r.name ≠ 0 := by
  intro h
  have := hf.ctor r hr
  rw [h] at this
  exact absurd this (by decide)

/-- Functions of an item are found. -/
theorem lookup_row (hf : Fine rows) (hr : r ∈ rows)  (f : Name) :
    lookup (whole rows).impls [] r.name f =
      match [r.keyFn, Row.sizeFn, r.intoFn].filter (·.name == f) with | [f] => some f | _ => none := by
  have h0 : r.name ≠ 0 := hf.name_ne_zero hr
  have h : ∀ i ∈ others rows, i.type ≠ r.name := fun i hi e => hf.fresh r hr (e ▸ mem_others hi)
  rw [lookup, candidates_whole, candidates_row hf.nodup hr, candidates_none _ h0, candidates_none _ h0]
  · rw [List.nil_append, List.append_nil]
    rfl
  · exact fun i hi => h i (List.mem_append_right _ hi)
  · exact fun i hi => h i (List.mem_append_left _ hi)

theorem lookup_key (hf : Fine rows) (hr : r ∈ rows)  :
    lookup (whole rows).impls [] r.name i!"KEY" = some r.keyFn := by
  rw [lookup_row hf hr]; rfl

theorem lookup_size (hf : Fine rows) (hr : r ∈ rows)  :
    lookup (whole rows).impls [] r.name i!"SIZE" = some Row.sizeFn := by
  rw [lookup_row hf hr]; rfl

theorem lookup_into (hf : Fine rows) (hr : r ∈ rows)  :
    lookup (whole rows).impls [] r.name i!"into_cfg_kv_bytes" = some r.intoFn := by
  rw [lookup_row hf hr]; rfl

/-! ## Declarations -/

theorem any_rows (ty x : Name) : ((rows.map Row.decl).any fun d =>
    match d with
    | .enum n vs => n == ty && vs.any fun v => v.1 == x
    | _ => false) = false := by
  induction rows with
  | nil => rfl
  | cons r rows ih => rw [List.map_cons, List.any_cons, ih]; rfl

theorem any_whole (p : Decl → Bool) (h : (rows.map Row.decl).any p = false) :
    (whole rows).decls.any p = (base.decls.any p || p (cfgValDecl rows)) := by
  have e : (whole rows).decls = metaRs_decls ++ typesRs_decls ++ cfgHeadRs_decls ++ [cfgValDecl rows] ++
      rows.map Row.decl ++ [tpPulseDecl, tpPulseLengthDecl] ++ packetsRs_decls := by
    simp only [whole, List.append_assoc, List.cons_append, List.nil_append]
  have e' : base.decls = metaRs_decls ++ typesRs_decls ++ cfgHeadRs_decls ++
      [tpPulseDecl, tpPulseLengthDecl] ++ packetsRs_decls := by
    simp only [base, List.append_assoc, List.cons_append, List.nil_append]
  have c : [cfgValDecl rows].any p = p (cfgValDecl rows) := by
    simp only [List.any_cons, List.any_nil, Bool.or_false]
  rw [e, e', List.any_append, List.any_append, List.any_append, List.any_append, h, c, List.any_append, List.any_append]
  generalize p (cfgValDecl rows) = q
  cases q <;> simp [Bool.or_assoc]

theorem isVariant_whole (ty x : Name) : isVariant (whole rows) ty x =
    (isVariant base ty x || (i!"CfgVal" == ty && rows.any fun r => r.name == x)) := by
  have a : (whole rows).enums = base.enums := rfl
  have c : (rows.map fun r => (r.name, (none : Option Nat))).any (fun v => v.1 == x) = rows.any fun r => r.name == x := by
    rw [List.any_map]; rfl
  unfold isVariant
  rw [any_whole (rows := rows), a]
  case h => exact any_rows ty x
  simp only [cfgValDecl, c]
  generalize (i!"CfgVal" == ty && rows.any fun r => r.name == x) = q
  cases q <;> simp

/-- No enumeration has a variant of this name. -/
def noVariant (x : Name) : Bool :=
  (base.decls.all fun d => match d with | .enum _ vs => vs.all fun v => v.1 != x | _ => true) &&
  (base.enums.all fun e => e.variants.all fun v => v.1 != nameStr x) && (otherVariants.all fun p => p.2 != x) &&
  (base.flags.all fun d => d.items.all fun c => c.1 != nameStr x)

theorem isVariant_none {x : Name} (h : noVariant x = true) (hx : ∀ r ∈ rows, r.name ≠ x) (ty : Name) :
    isVariant (whole rows) ty x = false := by
  rw [isVariant_whole]
  simp only [noVariant, Bool.and_eq_true, List.all_eq_true] at h
  simp only [Bool.or_eq_false_iff, Bool.and_eq_false_iff, isVariant]
  refine ⟨⟨⟨?_, ?_⟩, ?_⟩, .inr ?_⟩
  · simp only [List.any_eq_false]
    intro d hd
    have := h.1.1.1 d hd
    cases d with
    | struct => simp
    | enum n vs =>
      simp only [List.all_eq_true, bne_iff_ne] at this
      simp only [Bool.and_eq_true, List.any_eq_true, beq_iff_eq, not_and, not_exists]
      intro _ v hv
      exact this v hv
  · simp only [List.any_eq_false]
    intro d hd
    have := h.1.1.2 d hd
    simp only [List.all_eq_true, bne_iff_ne] at this
    simp only [Bool.and_eq_true, List.any_eq_true, beq_iff_eq, not_and, not_exists]
    intro _ v hv
    exact this v hv
  · simp only [List.contains_eq_any_beq, List.any_eq_false, beq_iff_eq]
    intro p hp e
    have := h.1.2 p hp
    rw [← e] at this
    simp at this
  · simp only [List.any_eq_false, beq_iff_eq]
    exact hx

theorem flagConst_none {x : Name} (h : noVariant x = true) (ty : Name) : flagConst (whole rows).flags ty x = none := by
  simp only [noVariant, Bool.and_eq_true, List.all_eq_true] at h
  have e : (whole rows).flags = base.flags := rfl
  rw [e, flagConst]
  split
  · next d hd =>
    have := h.2 d (List.mem_of_find?_eq_some hd)
    simp only [bne_iff_ne] at this
    simp only [Option.map_eq_none_iff, List.find?_eq_none, beq_iff_eq]
    exact this
  · rfl

theorem noVariant_key : noVariant i!"KEY" = true := by decide +kernel
theorem noVariant_size : noVariant i!"SIZE" = true := by decide +kernel

theorem discriminant_rows (a b : List Decl) {ty : Name} (h : i!"CfgVal" ≠ ty) (x : Name) :
    discriminant (a ++ (cfgValDecl rows :: rows.map Row.decl) ++ b) ty x = discriminant (a ++ b) ty x := by
  induction a with
  | nil =>
    have h' : (i!"CfgVal" == ty) = false := by simp [h]
    simp only [List.nil_append, List.cons_append, cfgValDecl, discriminant, h', Bool.false_eq_true, if_false]
    induction rows with
    | nil => rfl
    | cons r rows ih => exact ih
  | cons d a ih =>
    cases d with
    | struct => exact ih
    | enum n vs => simp only [List.cons_append, discriminant, ih]

theorem discriminant_whole {ty : Name} (h : i!"CfgVal" ≠ ty) (x : Name) :
    discriminant (whole rows).decls ty x = discriminant base.decls ty x := by
  have := discriminant_rows (rows := rows) (metaRs_decls ++ typesRs_decls ++ cfgHeadRs_decls)
    ([tpPulseDecl, tpPulseLengthDecl] ++ packetsRs_decls) h x
  simpa only [whole, base, List.append_assoc, List.cons_append, List.nil_append] using this

theorem fieldTy_other (a b : List Decl) {ty : Name} (h : ∀ r ∈ rows, r.name ≠ ty) (f : Name) :
    fieldTy (a ++ (cfgValDecl rows :: rows.map Row.decl) ++ b) ty f = fieldTy (a ++ b) ty f := by
  induction a with
  | nil =>
    simp only [List.nil_append, List.cons_append, cfgValDecl, fieldTy]
    induction rows with
    | nil => rfl
    | cons r rows ih =>
      have h' : (r.name == ty) = false := by simp [h r List.mem_cons_self]
      simp only [List.map_cons, List.cons_append, Row.decl, fieldTy, h', Bool.false_eq_true, if_false]
      exact ih fun x hx => h x (List.mem_cons_of_mem _ hx)
  | cons d a ih =>
    cases d with
    | struct n fs => simp only [List.cons_append, fieldTy, ih]
    | enum n vs => exact ih

theorem fieldTy_whole {ty : Name} (h : ∀ r ∈ rows, r.name ≠ ty) (f : Name) :
    fieldTy (whole rows).decls ty f = fieldTy base.decls ty f := by
  have := fieldTy_other (rows := rows) (metaRs_decls ++ typesRs_decls ++ cfgHeadRs_decls)
    ([tpPulseDecl, tpPulseLengthDecl] ++ packetsRs_decls) h f
  simpa only [whole, base, List.append_assoc, List.cons_append, List.nil_append] using this

theorem fieldNames_other (a b : List Decl) {ty : Name} (h : ∀ r ∈ rows, r.name ≠ ty) :
    fieldNames (a ++ (cfgValDecl rows :: rows.map Row.decl) ++ b) ty = fieldNames (a ++ b) ty := by
  induction a with
  | nil =>
    simp only [List.nil_append, List.cons_append, cfgValDecl, fieldNames]
    induction rows with
    | nil => rfl
    | cons r rows ih =>
      have h' : (r.name == ty) = false := by simp [h r List.mem_cons_self]
      simp only [List.map_cons, List.cons_append, Row.decl, fieldNames, h', Bool.false_eq_true, if_false]
      exact ih fun x hx => h x (List.mem_cons_of_mem _ hx)
  | cons d a ih =>
    cases d with
    | struct n fs => simp only [List.cons_append, fieldNames, ih]
    | enum n vs => exact ih

theorem fieldNames_whole {ty : Name} (h : ∀ r ∈ rows, r.name ≠ ty) :
    fieldNames (whole rows).decls ty = fieldNames base.decls ty := by
  have := fieldNames_other (rows := rows) (metaRs_decls ++ typesRs_decls ++ cfgHeadRs_decls)
    ([tpPulseDecl, tpPulseLengthDecl] ++ packetsRs_decls) h
  simpa only [whole, base, List.append_assoc, List.cons_append, List.nil_append] using this

theorem fieldTy_prefix (a b : List Decl) {ty : Name}
    (h : ∀ d ∈ a, (match d with | .struct n _ => n | .enum n _ => n) ≠ ty) (f : Name) :
    fieldTy (a ++ b) ty f = fieldTy b ty f := by
  induction a with
  | nil => rfl
  | cons d a ih =>
    have ih := ih fun x hx => h x (List.mem_cons_of_mem _ hx)
    cases d with
    | struct n fs =>
      have h' : (n == ty) = false := by simp [h _ List.mem_cons_self]
      simp only [List.cons_append, fieldTy, h', Bool.false_eq_true, if_false, ih]
    | enum n vs => exact ih

theorem fieldTy_row (hf : Fine rows) (hr : r ∈ rows) :
    fieldTy (whole rows).decls r.name i!"0" = Code.name (tyCodes r.ty) := by
  have e : (whole rows).decls = (metaRs_decls ++ typesRs_decls ++ cfgHeadRs_decls) ++ (cfgValDecl rows ::
      (rows.map Row.decl ++ ([tpPulseDecl, tpPulseLengthDecl] ++ packetsRs_decls))) := by
    simp only [whole, List.append_assoc, List.cons_append, List.nil_append]
  rw [e, fieldTy_prefix]
  · simp only [cfgValDecl, fieldTy]
    have hn := hf.nodup
    clear e hf
    induction rows with
    | nil => cases hr
    | cons x rows ih =>
      rw [List.map_cons, List.nodup_cons] at hn
      simp only [List.map_cons, List.cons_append, Row.decl, fieldTy]
      rcases List.mem_cons.mp hr with rfl | hr
      · simp
      · have : x.name ≠ r.name := fun e => hn.1 (e ▸ List.mem_map_of_mem (f := Row.name) hr)
        have : (x.name == r.name) = false := by simp [this]
        simp only [this, Bool.false_eq_true, if_false]
        exact ih hr hn.2
  · intro d hd e
    apply hf.fresh r hr
    simp only [reserved, List.mem_append]
    refine .inl (.inr ?_)
    rw [← e]
    exact List.mem_map.mpr ⟨d, hd, rfl⟩

end

end Ublox.Exec
