import Verif.Lemmas.Macro

/-!
# The functions and declarations that `cfg_val!` makes of a table
-/

namespace Ublox.Macro

open Code Gen

/-! ## Items -/

/-- The enumeration -/
def enumItem (rows : List Row) : List Tk := cfgVal_part0 ++ rows.flatMap (filled cfgVal_rep0) ++ [.p 125]

/-- The functions of the enumeration -/
def implItem (rows : List Row) : List Tk :=
  cfgVal_part1.drop 1 ++ rows.flatMap (filled cfgVal_rep1) ++
    cfgVal_part2 ++ rows.flatMap (replaced cfgVal_rep2) ++ cfgVal_part3 ++ rows.flatMap (filled cfgVal_rep3) ++
    cfgVal_part4 ++ rows.flatMap (filled cfgVal_rep4) ++ cfgVal_part5

/-- The structure of an item -/
def rowStruct (r : Row) : List Tk := (replaced cfgVal_rep5 r).take 7

/-- The functions of an item -/
def rowImpl (r : Row) : List Tk := (replaced cfgVal_rep5 r).drop 7

/-- All items -/
def itemsFor (rows : List Row) : List (List Tk) :=
  enumItem rows :: implItem rows :: rows.flatMap fun r => [rowStruct r, rowImpl r]

theorem cut_rows {f : Row → List Tk} {d : Nat}
    (h : ∀ r rev ts, cut d rev (f r ++ ts) = cut d ((f r).reverse ++ rev) ts) (rows : List Row) (rev ts : List Tk) :
    cut d rev (rows.flatMap f ++ ts) = cut d ((rows.flatMap f).reverse ++ rev) ts := by
  induction rows generalizing rev with
  | nil => rfl
  | cons r rows ih =>
    rw [List.flatMap_cons, List.append_assoc, h, ih]
    simp

theorem cut_row (r : Row) (ts : List Tk) : cut 0 [] (replaced cfgVal_rep5 r ++ ts) =
    ((cut 0 [] ts).map (rowImpl r :: ·)).map (rowStruct r :: ·) := by
  obtain ⟨id, key, ty⟩ := r
  cases ty <;> kernel_rfl

theorem cut_parse (r : Row) (rev ts : List Tk) : cut 3 rev (replaced cfgVal_rep2 r ++ ts) =
    cut 3 ((replaced cfgVal_rep2 r).reverse ++ rev) ts := by
  obtain ⟨id, key, ty⟩ := r
  cases ty <;> kernel_rfl

theorem cut_impls (rows : List Row) : cut 0 [] (rows.flatMap (replaced cfgVal_rep5)) =
    some (rows.flatMap fun r => [rowStruct r, rowImpl r]) := by
  induction rows with
  | nil => rfl
  | cons r rows ih => rw [List.flatMap_cons, cut_row, ih]; rfl

theorem cut_tokensOf (rows : List Row) : cut 0 [] (tokensOf rows) = some (itemsFor rows) := by
  simp only [tokensOf, List.append_assoc]
  rw [show ∀ ts, cut 0 [] (cfgVal_part0 ++ ts) = cut 1 cfgVal_part0.reverse ts from fun _ => by kernel_rfl]
  rw [cut_rows (f := filled cfgVal_rep0) (d := 1) (fun _ _ _ => by kernel_rfl)]
  rw [show ∀ rev ts, cut 1 rev (cfgVal_part1 ++ ts) =
    (cut 3 (cfgVal_part1.drop 1).reverse ts).map ((.p 125 :: rev).reverse :: ·) from fun _ _ => by kernel_rfl]
  rw [cut_rows (f := filled cfgVal_rep1) (d := 3) (fun _ _ _ => by kernel_rfl)]
  rw [show ∀ rev ts, cut 3 rev (cfgVal_part2 ++ ts) = cut 3 (cfgVal_part2.reverse ++ rev) ts
    from fun _ _ => by kernel_rfl]
  rw [cut_rows (f := replaced cfgVal_rep2) (d := 3) cut_parse]
  rw [show ∀ rev ts, cut 3 rev (cfgVal_part3 ++ ts) = cut 3 (cfgVal_part3.reverse ++ rev) ts
    from fun _ _ => by kernel_rfl]
  rw [cut_rows (f := filled cfgVal_rep3) (d := 3) (fun _ _ _ => by kernel_rfl)]
  rw [show ∀ rev ts, cut 3 rev (cfgVal_part4 ++ ts) = cut 3 (cfgVal_part4.reverse ++ rev) ts
    from fun _ _ => by kernel_rfl]
  rw [cut_rows (f := filled cfgVal_rep4) (d := 3) (fun _ _ _ => by kernel_rfl)]
  rw [show ∀ rev ts, cut 3 rev (cfgVal_part5 ++ ts) = (cut 0 [] ts).map ((cfgVal_part5.reverse ++ rev).reverse :: ·)
    from fun _ _ => by kernel_rfl]
  rw [cut_impls]
  simp only [Option.map_some, itemsFor, enumItem, implItem, List.reverse_append, List.reverse_cons,
    List.reverse_reverse, List.append_assoc]

/-! ## Arms -/

theorem arms_rows {f : Row → List Tk} {g : Row → Pat × Expr}
    (hd : ∀ r, ∃ cs ts, f r = .id cs :: ts)
    (hid : ∀ r n cs ts, arms (n + 201) (f r ++ .id cs :: ts) =
      (arms (n + 200) (.id cs :: ts)).bind fun x => some (.cons (g r).1 (g r).2 x.1, x.2))
    (hend : ∀ r n ts, arms (n + 201) (f r ++ .p 125 :: ts) =
      (arms (n + 200) (.p 125 :: ts)).bind fun x => some (.cons (g r).1 (g r).2 x.1, x.2))
    (rows : List Row) (n : Nat) (ts : List Tk) :
    arms (n + rows.length + 200) (rows.flatMap f ++ .p 125 :: ts) = some (armsOf (rows.map g), ts) := by
  induction rows with
  | nil => rfl
  | cons r rows ih =>
    rw [List.length_cons, show n + (rows.length + 1) + 200 = (n + rows.length) + 201 by omega, List.flatMap_cons,
      List.append_assoc]
    cases rows with
    | nil => exact (hend r _ ts).trans rfl
    | cons r' rows =>
      obtain ⟨cs, tl, hr⟩ := hd r'
      rw [List.flatMap_cons, hr] at ih ⊢
      simp only [List.cons_append] at ih ⊢
      rw [hid, ih]
      rfl

theorem arms_len (rows : List Row) (n : Nat) (ts : List Tk) :
    arms (n + rows.length + 200) (rows.flatMap (filled cfgVal_rep1) ++ .p 125 :: ts) =
      some (armsOf (rows.map Row.lenArm), ts) :=
  arms_rows (fun _ => ⟨_, _, rfl⟩) (fun _ _ _ _ => by kernel_rfl) (fun _ _ _ => by kernel_rfl) rows n ts

theorem arms_extend (rows : List Row) (n : Nat) (ts : List Tk) :
    arms (n + rows.length + 200) (rows.flatMap (filled cfgVal_rep3) ++ .p 125 :: ts) =
      some (armsOf (rows.map Row.extendArm), ts) :=
  arms_rows (fun _ => ⟨_, _, rfl⟩) (fun _ _ _ _ => by kernel_rfl) (fun _ _ _ => by kernel_rfl) rows n ts

theorem arms_write (rows : List Row) (n : Nat) (ts : List Tk) :
    arms (n + rows.length + 200) (rows.flatMap (filled cfgVal_rep4) ++ .p 125 :: ts) =
      some (armsOf (rows.map Row.writeArm), ts) :=
  arms_rows (fun _ => ⟨_, _, rfl⟩) (fun _ _ _ _ => by kernel_rfl) (fun _ _ _ => by kernel_rfl) rows n ts

theorem arms_parse_row (r : Row) (n : Nat) (ts : List Tk) :
    arms (n + 201) (replaced cfgVal_rep2 r ++ ts) =
      (arms (n + 200) ts).bind fun x => some (.cons r.parseArm.1 r.parseArm.2 x.1, x.2) := by
  obtain ⟨id, key, ty⟩ := r
  cases ty <;> kernel_rfl

theorem arms_parse (rows : List Row) (n : Nat) (ts : List Tk) :
    arms (n + rows.length + 200) (rows.flatMap (replaced cfgVal_rep2) ++ (cfgVal_part3.take 12 ++ ts)) =
      some (armsOf (rows.map Row.parseArm ++ [(.name i!"_", .panic)]), ts) := by
  induction rows with
  | nil =>
    have : ∀ n, arms (n + 200) (cfgVal_part3.take 12 ++ ts) =
      some (armsOf [(.name i!"_", .panic)], ts) := fun _ => by kernel_rfl
    exact this _
  | cons r rows ih =>
    rw [List.length_cons, show n + (rows.length + 1) + 200 = (n + rows.length) + 201 by omega, List.flatMap_cons,
      List.append_assoc, arms_parse_row, ih]
    rfl

/-! ## Functions -/

theorem stmts_match {n : Nat} {ts ts' : List Tk} {e : Expr}
    (h : primary n false (.kw .match_ :: ts) = some (e, .p 125 :: ts')) :
    stmts (n + 1) (.kw .match_ :: ts) = some (.last e, ts') := by
  rw [stmts] <;> simp [blockLike, h]

theorem match_self {n : Nat} {cs : List Nat} {ts ts' : List Tk} {as : Arms}
    (h : arms (n + 200) ts = some (as, ts')) :
    primary (n + 201) false (.kw .match_ :: .id cs :: .p 123 :: ts) = some (.match_ (.path [Code.name cs]) as, ts') := by
  have : primary (n + 201) false (.kw .match_ :: .id cs :: .p 123 :: ts) =
      (arms (n + 200) ts).bind fun x => some (.match_ (.path [Code.name cs]) x.1, x.2) := by kernel_rfl
  rw [this, h]
  rfl

theorem fns_len (rows : List Row) (n : Nat) (ts : List Tk) :
    fns (n + rows.length + 205) ((cfgVal_part1.drop 4) ++ (rows.flatMap (filled cfgVal_rep1) ++ .p 125 :: .p 125 :: ts)) =
      (fns (n + rows.length + 202) ts).bind fun x => some (lenFn rows :: x.1, x.2) := by
  have e : ∀ u, fns (n + rows.length + 205) ((cfgVal_part1.drop 4) ++ u) =
      (stmts (n + rows.length + 202) (.kw .match_ :: .id c!"self" :: .p 123 :: u)).bind fun y =>
        (fns (n + rows.length + 202) y.2).bind fun x => some (⟨i!"len", [i!"self"], i!"usize", y.1⟩ :: x.1, x.2) :=
    fun _ => by kernel_rfl
  rw [e, stmts_match (match_self (arms_len rows n _))]
  rfl

theorem fns_isEmpty (n : Nat) (ts : List Tk) :
    fns (n + 200) ((cfgVal_part2.drop 2).take 21 ++ ts) = (fns (n + 197) ts).bind fun x => some (isEmptyFn :: x.1, x.2) := by
  kernel_rfl

theorem fns_parse (rows : List Row) (n : Nat) (ts : List Tk) :
    fns (n + rows.length + 206) ((cfgVal_part2.drop 23) ++ (rows.flatMap (replaced cfgVal_rep2) ++
      (cfgVal_part3.take 12 ++ .p 125 :: ts))) =
      (fns (n + rows.length + 203) ts).bind fun x => some (parseFn rows :: x.1, x.2) := by
  have e : ∀ u, fns (n + rows.length + 206) ((cfgVal_part2.drop 23) ++ u) =
      (stmts (n + rows.length + 203) ((cfgVal_part2.drop 42) ++ u)).bind fun y =>
        (fns (n + rows.length + 203) y.2).bind fun x => some (⟨i!"parse", [i!"buf"], i!"Self", y.1⟩ :: x.1, x.2) :=
    fun _ => by kernel_rfl
  have s : ∀ u, stmts (n + rows.length + 203) ((cfgVal_part2.drop 42) ++ u) =
      (stmts (n + rows.length + 202) (.kw .match_ :: .id c!"key_id" :: .p 123 :: u)).bind fun y =>
        some (.let_ (.name i!"key_id")
          (.call [i!"u32", i!"from_le_bytes"]
            (exprs [.array (exprs ((List.range 4).map fun k => Expr.index (.path [i!"buf"]) (.int k)))])) y.1, y.2) :=
    fun _ => by kernel_rfl
  rw [e, s, stmts_match (match_self (arms_parse rows n _))]
  rfl

theorem fns_extend (rows : List Row) (n : Nat) (ts : List Tk) :
    fns (n + rows.length + 204) ((cfgVal_part3.drop 13) ++ (rows.flatMap (filled cfgVal_rep3) ++ .p 125 :: .p 125 :: ts)) =
      (fns (n + rows.length + 202) ts).bind fun x => some (extendFn rows :: x.1, x.2) := by
  have e : ∀ u, fns (n + rows.length + 204) ((cfgVal_part3.drop 13) ++ u) =
      (stmts (n + rows.length + 202) (.kw .match_ :: .id c!"self" :: .p 123 :: u)).bind fun y =>
        (fns (n + rows.length + 202) y.2).bind fun x => some (⟨i!"extend_to", [i!"self", i!"buf"], 0, y.1⟩ :: x.1, x.2) :=
    fun _ => by kernel_rfl
  rw [e, stmts_match (match_self (arms_extend rows n _))]
  rfl

theorem fns_write (rows : List Row) (n : Nat) (ts : List Tk) :
    fns (n + rows.length + 204) ((cfgVal_part4.drop 2) ++ (rows.flatMap (filled cfgVal_rep4) ++ .p 125 :: .p 125 :: ts)) =
      (fns (n + rows.length + 202) ts).bind fun x => some (writeFn rows :: x.1, x.2) := by
  have e : ∀ u, fns (n + rows.length + 204) ((cfgVal_part4.drop 2) ++ u) =
      (stmts (n + rows.length + 202) (.kw .match_ :: .id c!"self" :: .p 123 :: u)).bind fun y =>
        (fns (n + rows.length + 202) y.2).bind fun x => some (⟨i!"write_to", [i!"self", i!"buf"], i!"usize", y.1⟩ :: x.1, x.2) :=
    fun _ => by kernel_rfl
  rw [e, stmts_match (match_self (arms_write rows n _))]
  rfl

theorem fns_impl (rows : List Row) (n : Nat) :
    fns (n + rows.length + 300) ((implItem rows).drop 3) = some ((cfgValImpl rows).fns, []) := by
  have e : (implItem rows).drop 3 = cfgVal_part1.drop 4 ++ (rows.flatMap (filled cfgVal_rep1) ++ .p 125 :: .p 125 ::
      ((cfgVal_part2.drop 2).take 21 ++ (cfgVal_part2.drop 23 ++ (rows.flatMap (replaced cfgVal_rep2) ++
        (cfgVal_part3.take 12 ++ .p 125 :: (cfgVal_part3.drop 13 ++ (rows.flatMap (filled cfgVal_rep3) ++
        .p 125 :: .p 125 :: (cfgVal_part4.drop 2 ++ (rows.flatMap (filled cfgVal_rep4) ++
        .p 125 :: .p 125 :: [.p 125])))))))))  := by
    simp only [implItem, List.append_assoc]
    rfl
  rw [e, show n + rows.length + 300 = (n + 95) + rows.length + 205 by omega, fns_len,
    show n + 95 + rows.length + 202 = (n + 97 + rows.length) + 200 by omega, fns_isEmpty,
    show n + 97 + rows.length + 197 = (n + 88) + rows.length + 206 by omega, fns_parse,
    show n + 88 + rows.length + 203 = (n + 87) + rows.length + 204 by omega, fns_extend,
    show n + 87 + rows.length + 202 = (n + 85) + rows.length + 204 by omega, fns_write]
  rfl

/-! ## The items of the table -/

theorem item_impl (rows : List Row) : item (8 * (implItem rows).length) (implItem rows) = some [cfgValImpl rows] := by
  have hl : ∃ n, 8 * (implItem rows).length = n + rows.length + 301 := by
    have : (implItem rows).length ≥ 100 + 15 * rows.length := by
      simp only [implItem, List.length_append]
      rw [length_rows (f := filled cfgVal_rep1) (k := 15) (fun _ => by kernel_rfl)]
      have : (cfgVal_part1.drop 1).length = 18 := by kernel_rfl
      have : cfgVal_part2.length = 76 := by kernel_rfl
      have : cfgVal_part3.length = 49 := by kernel_rfl
      omega
    exact ⟨8 * (implItem rows).length - rows.length - 301, by omega⟩
  obtain ⟨n, hn⟩ := hl
  rw [hn]
  have e : item (n + rows.length + 301) (implItem rows) =
      (match fns (n + rows.length + 300) ((implItem rows).drop 3) with
      | some (f, []) => some [⟨[], i!"CfgVal", f⟩]
      | _ => none) := by kernel_rfl
  rw [e, fns_impl]
  rfl

theorem decl_impl (rows : List Row) : decl (8 * (implItem rows).length) (implItem rows) = some [] := by
  have hl : ∃ n, 8 * (implItem rows).length = n + 1 := by
    refine ⟨8 * (implItem rows).length - 1, ?_⟩
    have : (implItem rows).length ≥ 1 := by
      simp only [implItem, List.length_append]
      have : cfgVal_part2.length = 76 := by kernel_rfl
      omega
    omega
  obtain ⟨n, hn⟩ := hl
  rw [hn]; show decl (n + 1) (implItem rows) = some []
  kernel_rfl

theorem length_enum (rows : List Row) : (enumItem rows).length = 5 * rows.length + 18 := by
  simp only [enumItem, List.length_append]
  rw [length_rows (f := filled cfgVal_rep0) (k := 5) (fun _ => by kernel_rfl)]
  have : cfgVal_part0.length = 17 := by kernel_rfl
  simp only [List.length_cons, List.length_nil]
  omega

theorem item_enum (rows : List Row) : item (8 * (enumItem rows).length) (enumItem rows) = some [] := by
  rw [length_enum, show 8 * (5 * rows.length + 18) = (40 * rows.length + 44) + 100 by omega]
  kernel_rfl

theorem variants_rows (rows : List Row) (n : Nat) :
    declVariants (n + 2 * rows.length + 1) (rows.flatMap (filled cfgVal_rep0) ++ [.p 125]) =
      some (rows.map fun r => (r.name, none)) := by
  induction rows with
  | nil => rfl
  | cons r rows ih =>
    have e : ∀ n ts, declVariants (n + 2) (filled cfgVal_rep0 r ++ ts) =
      (declVariants n ts).bind fun l => some ((r.name, none) :: l) := fun _ _ => by kernel_rfl
    rw [List.length_cons, show n + 2 * (rows.length + 1) + 1 = (n + 2 * rows.length + 1) + 2 by omega,
      List.flatMap_cons, List.append_assoc, e, ih]
    rfl

theorem decl_enum (rows : List Row) : decl (8 * (enumItem rows).length) (enumItem rows) = some [cfgValDecl rows] := by
  rw [length_enum, show 8 * (5 * rows.length + 18) = (38 * rows.length + 139 + 2 * rows.length + 1) + 4 by omega]
  have e : ∀ n, decl (n + 4) (enumItem rows) =
    (declVariants n (rows.flatMap (filled cfgVal_rep0) ++ [.p 125])).bind fun l => some [.enum i!"CfgVal" l] :=
    fun n => by kernel_rfl
  rw [e, variants_rows]
  rfl

theorem item_row (r : Row) : itemsOf [rowStruct r, rowImpl r] = some [r.impl] := by
  obtain ⟨id, key, ty⟩ := r
  cases ty <;> kernel_rfl

theorem decl_row (r : Row) : declList [rowStruct r, rowImpl r] = some [r.decl] := by
  obtain ⟨id, key, ty⟩ := r
  cases ty <;> kernel_rfl

theorem itemsOf_rows (rows : List Row) :
    itemsOf (rows.flatMap fun r => [rowStruct r, rowImpl r]) = some (rows.map Row.impl) := by
  induction rows with
  | nil => rfl
  | cons r rows ih => exact itemsOf_append (item_row r) ih

theorem declList_rows (rows : List Row) :
    declList (rows.flatMap fun r => [rowStruct r, rowImpl r]) = some (rows.map Row.decl) := by
  induction rows with
  | nil => rfl
  | cons r rows ih => exact declList_append (decl_row r) ih

theorem itemsOf_table (rows : List Row) : itemsOf (itemsFor rows) = some (cfgValImpl rows :: rows.map Row.impl) := by
  rw [itemsFor, itemsOf, itemsOf, item_enum, item_impl, itemsOf_rows]
  rfl

theorem declList_table (rows : List Row) : declList (itemsFor rows) = some (cfgValDecl rows :: rows.map Row.decl) := by
  rw [itemsFor, declList, declList, decl_enum, decl_impl, declList_rows]
  rfl

end Ublox.Macro
