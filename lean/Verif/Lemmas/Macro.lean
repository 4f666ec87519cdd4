import Verif.Lemmas.Code
import Verif.Model.CfgProgram

/-!
# What the rules of `cfg_val!` make of a table
-/

namespace Ublox.Macro

open Code Gen

/-- No `$` -/
def plain : List Tk → Bool
  | [] => true
  | .p 36 :: _ => false
  | _ :: ts => plain ts

/-- No call of a macro, and no name at the end that the next token could make one -/
def quiet : List Tk → Bool
  | [] => true
  | [.id _] => false
  | .p 33 :: _ => false
  | _ :: ts => quiet ts

theorem make_plain {l : List Tk} (h : plain l = true) (n : Nat) (bs : List Bound) (acc ts : List Tk) :
    make (n + l.length) bs acc (l ++ ts) = make n bs (l.reverse ++ acc) ts := by
  induction l generalizing acc with
  | nil => rfl
  | cons t l ih =>
    have hn : n + (t :: l).length = n + l.length + 1 := by simp only [List.length_cons]; omega
    rw [hn, List.cons_append, List.reverse_cons, List.append_assoc]
    by_cases ht : t = .p 36
    · subst ht; simp [plain] at h
    · have hl : plain l = true := by
        unfold plain at h
        split at h <;> simp_all
      rw [make]
      · exact ih hl _
      · rintro x ts rfl; exact absurd rfl ht
      · rintro ts rfl; exact absurd rfl ht

theorem expand_quiet (ms : List Macro) {l : List Tk} (h : quiet l = true) (n : Nat) (acc ts : List Tk) :
    expand ms (n + l.length) acc (l ++ ts) = expand ms n (l.reverse ++ acc) ts := by
  induction l generalizing acc with
  | nil => rfl
  | cons t l ih =>
    have hn : n + (t :: l).length = n + l.length + 1 := by simp only [List.length_cons]; omega
    have hl : quiet l = true := by
      unfold quiet at h
      split at h <;> simp_all
    rw [hn, List.cons_append, List.reverse_cons, List.append_assoc, expand]
    · exact ih hl _
    · rintro m ts' rfl he
      cases l with
      | nil => simp [quiet] at h
      | cons u l =>
        simp only [List.cons_append, List.cons.injEq] at he
        obtain ⟨rfl, _⟩ := he
        simp [quiet] at hl

theorem every_map {α β γ : Type} {f : β → Option γ} {g : α → β} {h : α → γ} (hf : ∀ a, f (g a) = some (h a))
    (l : List α) : every f (l.map g) = some (l.map h) := by
  induction l with
  | nil => rfl
  | cons a l ih => rw [List.map_cons, every, hf, ih]; rfl

theorem join_nil (l : List (List Tk)) : join [] l = l.flatten := by
  induction l with
  | nil => rfl
  | cons a l ih =>
    cases l with
    | nil => simp [join]
    | cons b l => rw [join, ih]; simp; exact nofun

/-! ## Matching -/

/-- What the variables of `cfg_val!` stand for in a row -/
def bound (r : Row) : List Bound :=
  [.rounds [i!"class_comment"] [], .one i!"cfg_item" [.id r.id], .one i!"cfg_key_id" [.num r.key],
    .one i!"cfg_value_type" [.id (tyCodes r.ty)]]

/-- The part of the rule that takes a row -/
def rowPart : List Tk :=
  [.p 36, .p 40, .p 35, .p 91, .p 36, .id c!"class_comment", .p 58, .id c!"meta", .p 93,
     .p 41, .p 42, .p 36, .id c!"cfg_item", .p 58, .id c!"ident", .p 44, .p 36, .id c!"cfg_key_id", .p 58,
     .id c!"expr", .p 44, .p 36, .id c!"cfg_value_type", .p 58, .id c!"ident", .p 44]

theorem takeMany_row (n : Nat) (acc : List (List Bound)) (r : Row) (ts : List Tk) :
    takeMany (n + 21) rowPart none acc (r.tokens ++ ts) = takeMany (n + 20) rowPart none (bound r :: acc) ts := by
  kernel_rfl

theorem takeMany_rows (n : Nat) (acc : List (List Bound)) (rows : List Row) :
    takeMany (n + rows.length + 20) rowPart none acc (rows.flatMap Row.tokens) =
      some (acc.reverse ++ rows.map bound, []) := by
  induction rows generalizing acc with
  | nil =>
    have : takeMany (n + [].length (α := Row) + 20) rowPart none acc ([].flatMap Row.tokens) = some (acc.reverse, []) := by
      kernel_rfl
    rw [this]; simp
  | cons r rows ih =>
    have hn : n + (r :: rows).length + 20 = n + rows.length + 21 := by simp only [List.length_cons]; omega
    rw [hn, List.flatMap_cons, takeMany_row, ih]
    simp

/-- The variables of a table -/
def bounds (rows : List Row) : List Bound :=
  [.rounds [i!"class_comment", i!"cfg_item", i!"cfg_key_id", i!"cfg_value_type"] (rows.map bound)]

theorem take_rows (n : Nat) (rows : List Row) :
    take (n + rows.length + 21) cfgVal0.takes (rows.flatMap Row.tokens) = some (bounds rows, []) := by
  have : take (n + rows.length + 21) cfgVal0.takes (rows.flatMap Row.tokens) =
      (match takeMany (n + rows.length + 20) rowPart none [] (rows.flatMap Row.tokens) with
        | some (l, ts) =>
          (take (n + rows.length + 20) [] ts).map fun r =>
            (.rounds [i!"class_comment", i!"cfg_item", i!"cfg_key_id", i!"cfg_value_type"] l :: r.1, r.2)
        | none => none) := by kernel_rfl
  rw [this, takeMany_rows]
  rfl

/-! ## Making -/

/-- What a part of the rule makes for a row. -/
def filled (body : List Tk) (r : Row) : List Tk := (make 200 (bound r) [] body).getD []

theorem make_rep {body : List Tk} (hg : ∀ ts, group 0 (body ++ [.p 41, .p 42] ++ ts) = some (body, .p 42 :: ts))
    (hv : ∀ rows, findRounds (vars body) (bounds rows) = some (rows.map bound)) (n : Nat)
    (hf : ∀ rows r, make n (bound r ++ bounds rows) [] body = some (filled body r)) (rows : List Row)
    (acc ts : List Tk) :
    make (n + 1) (bounds rows) acc (repetition body ++ ts) =
      make n (bounds rows) ((rows.flatMap (filled body)).reverse ++ acc) ts := by
  rw [repetition]
  simp only [List.cons_append, make]
  rw [hg]
  simp only [repeated]
  rw [hv]
  simp only
  rw [every_map (hf rows)]
  simp only [Option.toList_none, join_nil, List.flatMap]

theorem make_at {k m : Nat} {l : List Tk} (h : plain l = true) (hk : k = m + l.length) (bs : List Bound)
    (acc ts : List Tk) : make k bs acc (l ++ ts) = make m bs (l.reverse ++ acc) ts := by
  rw [hk, make_plain h]

/-- What the rule makes of a table -/
def made (rows : List Row) : List Tk :=
  cfgVal_part0 ++ rows.flatMap (filled cfgVal_rep0) ++ cfgVal_part1 ++ rows.flatMap (filled cfgVal_rep1) ++
    cfgVal_part2 ++ rows.flatMap (filled cfgVal_rep2) ++ cfgVal_part3 ++ rows.flatMap (filled cfgVal_rep3) ++
    cfgVal_part4 ++ rows.flatMap (filled cfgVal_rep4) ++ cfgVal_part5 ++ rows.flatMap (filled cfgVal_rep5) ++
    cfgVal_part6

theorem apply_rows (rows : List Row) : apply (rows.flatMap Row.tokens) [cfgVal0] = some (made rows) := by
  have hl : ∃ n, (rows.flatMap Row.tokens).length + cfgVal0.takes.length + 1 = n + rows.length + 21 := by
    have h1 : rows.length ≤ (rows.flatMap Row.tokens).length := by
      induction rows with
      | nil => simp
      | cons r rows ih =>
        rw [List.flatMap_cons, List.length_append, List.length_cons]
        have : r.tokens.length = 6 := rfl
        omega
    have h2 : cfgVal0.takes.length = 30 := rfl
    exact ⟨(rows.flatMap Row.tokens).length - rows.length + 10, by omega⟩
  obtain ⟨n, hn⟩ := hl
  rw [apply, hn, take_rows]
  simp only
  have e : cfgVal0.makes.length + 1 = 474 := by kernel_rfl
  rw [e]
  simp only [cfgVal0, List.append_assoc]
  rw [make_at (k := 474) (m := 457) (l := cfgVal_part0) rfl rfl]
  rw [show make 457 = make (456 + 1) from rfl, make_rep (body := cfgVal_rep0) (fun _ => by kernel_rfl) (fun _ => by kernel_rfl) 456 (fun _ _ => by kernel_rfl)]
  rw [make_at (k := 456) (m := 437) (l := cfgVal_part1) rfl rfl]
  rw [show make 437 = make (436 + 1) from rfl, make_rep (body := cfgVal_rep1) (fun _ => by kernel_rfl) (fun _ => by kernel_rfl) 436 (fun _ _ => by kernel_rfl)]
  rw [make_at (k := 436) (m := 360) (l := cfgVal_part2) rfl rfl]
  rw [show make 360 = make (359 + 1) from rfl, make_rep (body := cfgVal_rep2) (fun _ => by kernel_rfl) (fun _ => by kernel_rfl) 359 (fun _ _ => by kernel_rfl)]
  rw [make_at (k := 359) (m := 310) (l := cfgVal_part3) rfl rfl]
  rw [show make 310 = make (309 + 1) from rfl, make_rep (body := cfgVal_rep3) (fun _ => by kernel_rfl) (fun _ => by kernel_rfl) 309 (fun _ _ => by kernel_rfl)]
  rw [make_at (k := 309) (m := 285) (l := cfgVal_part4) rfl rfl]
  rw [show make 285 = make (284 + 1) from rfl, make_rep (body := cfgVal_rep4) (fun _ => by kernel_rfl) (fun _ => by kernel_rfl) 284 (fun _ _ => by kernel_rfl)]
  rw [make_at (k := 284) (m := 281) (l := cfgVal_part5) rfl rfl]
  rw [show make 281 = make (280 + 1) from rfl, make_rep (body := cfgVal_rep5) (fun _ => by kernel_rfl) (fun _ => by kernel_rfl) 280 (fun _ _ => by kernel_rfl)]
  have e : ∀ acc, make 280 (bounds rows) acc cfgVal_part6 = some acc.reverse := fun _ => by kernel_rfl
  rw [e]
  simp only [made, cfgVal_part6, List.reverse_append, List.reverse_reverse, List.append_assoc,
    List.append_nil]

/-! ## Replacing the calls -/

/-- The macros that are known where `cfg_val!` is called -/
def macros : List Macro := [cfgVal_macro, intoCfgKvBytes_macro, fromCfgVBytes_macro]

/-- A part for a row after macros have been replaced -/
def replaced (body : List Tk) (r : Row) : List Tk := (expand macros 500 [] (filled body r)).getD []

/-- The tokens of a table, after macros have been replaced -/
def tokensOf (rows : List Row) : List Tk :=
  cfgVal_part0 ++ rows.flatMap (filled cfgVal_rep0) ++ cfgVal_part1 ++ rows.flatMap (filled cfgVal_rep1) ++
    cfgVal_part2 ++ rows.flatMap (replaced cfgVal_rep2) ++ cfgVal_part3 ++ rows.flatMap (filled cfgVal_rep3) ++
    cfgVal_part4 ++ rows.flatMap (filled cfgVal_rep4) ++ cfgVal_part5 ++ rows.flatMap (replaced cfgVal_rep5)

theorem expand_rows {f g : Row → List Tk} {k : Nat}
    (h : ∀ r n acc ts, expand macros (n + 400 + k) acc (f r ++ ts) = expand macros (n + 400) ((g r).reverse ++ acc) ts)
    (rows : List Row) (n : Nat) (acc ts : List Tk) :
    expand macros (n + 400 + k * rows.length) acc (rows.flatMap f ++ ts) =
      expand macros (n + 400) ((rows.flatMap g).reverse ++ acc) ts := by
  induction rows generalizing acc with
  | nil => rfl
  | cons r rows ih =>
    have hn : n + 400 + k * (r :: rows).length = (n + k * rows.length) + 400 + k := by
      rw [List.length_cons, Nat.mul_add]; omega
    rw [hn, List.flatMap_cons, List.append_assoc, h]
    rw [show n + k * rows.length + 400 = n + 400 + k * rows.length by omega, ih]
    simp [List.flatMap_cons]

theorem expand_parse (r : Row) (n : Nat) (acc ts : List Tk) :
    expand macros (n + 400 + 13) acc (filled cfgVal_rep2 r ++ ts) =
      expand macros (n + 400) ((replaced cfgVal_rep2 r).reverse ++ acc) ts := by
  obtain ⟨id, key, ty⟩ := r
  cases ty <;> kernel_rfl

theorem expand_impl (r : Row) (n : Nat) (acc ts : List Tk) :
    expand macros (n + 400 + 64) acc (filled cfgVal_rep5 r ++ ts) =
      expand macros (n + 400) ((replaced cfgVal_rep5 r).reverse ++ acc) ts := by
  obtain ⟨id, key, ty⟩ := r
  cases ty <;> kernel_rfl

theorem length_rows {f : Row → List Tk} {k : Nat} (h : ∀ r, (f r).length = k) (rows : List Row) :
    (rows.flatMap f).length = k * rows.length := by
  induction rows with
  | nil => rfl
  | cons r rows ih => rw [List.flatMap_cons, List.length_append, h, ih, List.length_cons, Nat.mul_add]; omega

theorem expand_filled {body : List Tk} {k : Nat} (hk : ∀ r, (filled body r).length = k)
    (hq : ∀ r, quiet (filled body r) = true) (r : Row) (n : Nat) (acc ts : List Tk) :
    expand macros (n + 400 + k) acc (filled body r ++ ts) =
      expand macros (n + 400) ((filled body r).reverse ++ acc) ts := by
  rw [← hk r, expand_quiet _ (hq r)]

theorem expand_made (rows : List Row) : expand macros ((made rows).length + 1000) [] (made rows) = some (tokensOf rows) := by
  have hl : (made rows).length = 188 + 235 * rows.length := by
    simp only [made, List.length_append]
    rw [length_rows (f := filled cfgVal_rep0) (k := 5) (fun _ => by kernel_rfl)]
    rw [length_rows (f := filled cfgVal_rep1) (k := 15) (fun _ => by kernel_rfl)]
    rw [length_rows (f := filled cfgVal_rep2) (k := 25) (fun _ => by kernel_rfl)]
    rw [length_rows (f := filled cfgVal_rep3) (k := 61) (fun _ => by kernel_rfl)]
    rw [length_rows (f := filled cfgVal_rep4) (k := 59) (fun _ => by kernel_rfl)]
    rw [length_rows (f := filled cfgVal_rep5) (k := 70) (fun _ => by kernel_rfl)]
    rw [show cfgVal_part0.length = 17 by kernel_rfl, show cfgVal_part1.length = 19 by kernel_rfl, show cfgVal_part2.length = 76 by kernel_rfl, show cfgVal_part3.length = 49 by kernel_rfl, show cfgVal_part4.length = 24 by kernel_rfl, show cfgVal_part5.length = 3 by kernel_rfl, show cfgVal_part6.length = 0 by kernel_rfl]
    omega
  obtain ⟨m, hm⟩ : ∃ m, (made rows).length + 1000 = m + 400 + 217 * rows.length + 188 :=
    ⟨600 + 18 * rows.length, by rw [hl]; omega⟩
  rw [hm]
  simp only [made, List.append_assoc]
  rw [show m + 400 + 217 * rows.length + 188 = (m + 217 * rows.length + 171) + 400 + 17 by omega,
    show ∀ n acc ts, expand macros (n + 400 + 17) acc (cfgVal_part0 ++ ts) =
      expand macros (n + 400) (cfgVal_part0.reverse ++ acc) ts from fun _ _ _ => by kernel_rfl]
  rw [show m + 217 * rows.length + 171 + 400 = (m + 212 * rows.length + 171) + 400 + 5 * rows.length by omega,
    expand_rows (f := filled cfgVal_rep0) (g := filled cfgVal_rep0) (k := 5) (expand_filled (fun _ => by kernel_rfl) (fun _ => by kernel_rfl))]
  rw [show m + 212 * rows.length + 171 + 400 = m + 400 + 212 * rows.length + 171 by omega]
  rw [show m + 400 + 212 * rows.length + 171 = (m + 212 * rows.length + 152) + 400 + 19 by omega,
    show ∀ n acc ts, expand macros (n + 400 + 19) acc (cfgVal_part1 ++ ts) =
      expand macros (n + 400) (cfgVal_part1.reverse ++ acc) ts from fun _ _ _ => by kernel_rfl]
  rw [show m + 212 * rows.length + 152 + 400 = (m + 197 * rows.length + 152) + 400 + 15 * rows.length by omega,
    expand_rows (f := filled cfgVal_rep1) (g := filled cfgVal_rep1) (k := 15) (expand_filled (fun _ => by kernel_rfl) (fun _ => by kernel_rfl))]
  rw [show m + 197 * rows.length + 152 + 400 = m + 400 + 197 * rows.length + 152 by omega]
  rw [show m + 400 + 197 * rows.length + 152 = (m + 197 * rows.length + 76) + 400 + 76 by omega,
    show ∀ n acc ts, expand macros (n + 400 + 76) acc (cfgVal_part2 ++ ts) =
      expand macros (n + 400) (cfgVal_part2.reverse ++ acc) ts from fun _ _ _ => by kernel_rfl]
  rw [show m + 197 * rows.length + 76 + 400 = (m + 184 * rows.length + 76) + 400 + 13 * rows.length by omega,
    expand_rows (f := filled cfgVal_rep2) (g := replaced cfgVal_rep2) (k := 13) expand_parse]
  rw [show m + 184 * rows.length + 76 + 400 = m + 400 + 184 * rows.length + 76 by omega]
  rw [show m + 400 + 184 * rows.length + 76 = (m + 184 * rows.length + 27) + 400 + 49 by omega,
    show ∀ n acc ts, expand macros (n + 400 + 49) acc (cfgVal_part3 ++ ts) =
      expand macros (n + 400) (cfgVal_part3.reverse ++ acc) ts from fun _ _ _ => by kernel_rfl]
  rw [show m + 184 * rows.length + 27 + 400 = (m + 123 * rows.length + 27) + 400 + 61 * rows.length by omega,
    expand_rows (f := filled cfgVal_rep3) (g := filled cfgVal_rep3) (k := 61) (expand_filled (fun _ => by kernel_rfl) (fun _ => by kernel_rfl))]
  rw [show m + 123 * rows.length + 27 + 400 = m + 400 + 123 * rows.length + 27 by omega]
  rw [show m + 400 + 123 * rows.length + 27 = (m + 123 * rows.length + 3) + 400 + 24 by omega,
    show ∀ n acc ts, expand macros (n + 400 + 24) acc (cfgVal_part4 ++ ts) =
      expand macros (n + 400) (cfgVal_part4.reverse ++ acc) ts from fun _ _ _ => by kernel_rfl]
  rw [show m + 123 * rows.length + 3 + 400 = (m + 64 * rows.length + 3) + 400 + 59 * rows.length by omega,
    expand_rows (f := filled cfgVal_rep4) (g := filled cfgVal_rep4) (k := 59) (expand_filled (fun _ => by kernel_rfl) (fun _ => by kernel_rfl))]
  rw [show m + 64 * rows.length + 3 + 400 = m + 400 + 64 * rows.length + 3 by omega]
  rw [show m + 400 + 64 * rows.length + 3 = (m + 64 * rows.length + 0) + 400 + 3 by omega,
    show ∀ n acc ts, expand macros (n + 400 + 3) acc (cfgVal_part5 ++ ts) =
      expand macros (n + 400) (cfgVal_part5.reverse ++ acc) ts from fun _ _ _ => by kernel_rfl]
  rw [show m + 64 * rows.length + 0 + 400 = (m + 0 * rows.length + 0) + 400 + 64 * rows.length by omega,
    expand_rows (f := filled cfgVal_rep5) (g := replaced cfgVal_rep5) (k := 64) expand_impl]
  simp only [cfgVal_part6, expand, tokensOf, List.reverse_append, List.reverse_reverse, List.append_assoc,
    List.append_nil]

end Ublox.Macro
