import Verif.Lemmas.MacroItems
import Verif.Lemmas.SourceText

/-!
# A text with macros that is given in pieces
-/

namespace Ublox.Macro

open Code Gen
open Src (lex lex_append codes codes_join)

/-- The tokens in a text -/
def tokensIn (cs : List Nat) : Option (List Tk) := do tokens (← lex cs)

/-- What comes out of a piece of a text, for macros that are known at its beginning: the macros that are known
at its end, and functions and declarations -/
def stage (ms : List Macro) (cs : List Nat) : Option (List Macro × List Impl × List Decl) := do
  let (ms', its) ← expandItems ms (← cut 0 [] (← tokensIn cs))
  return (ms', ← itemsOf its, ← declList its)

theorem tokensIn_append {a b : List Nat} {x y : List Tk} (ha : tokensIn a = some x) (hb : tokensIn b = some y) :
    tokensIn (a ++ b) = some (x ++ y) := by
  simp only [tokensIn, Option.bind_eq_bind, Option.bind_eq_some_iff] at ha hb ⊢
  obtain ⟨ra, h5, h6⟩ := ha
  obtain ⟨rb, g5, g6⟩ := hb
  exact ⟨ra ++ rb, by rw [lex_append h5, g5]; rfl, tokens_append h6 g6⟩

theorem tokensIn_strings {ss : List String} {ls : List (List CfgItem)}
    (h : List.Forall₂ (fun s l => tokensIn (codes s) = some (l.flatMap fun i => (rowOf i).tokens)) ss ls) :
    tokensIn (codes (String.join ss)) = some (ls.flatten.flatMap fun i => (rowOf i).tokens) := by
  rw [codes_join]
  induction h with
  | nil => rfl
  | cons h _ ih =>
    rw [List.flatMap_cons, List.flatten_cons, List.flatMap_append]
    exact tokensIn_append h ih

theorem expandItems_append {ms ms' : List Macro} {a b x : List (List Tk)} (ha : expandItems ms a = some (ms', x)) :
    expandItems ms (a ++ b) = (expandItems ms' b).map fun r => (r.1, x ++ r.2) := by
  induction a generalizing ms x with
  | nil => cases ha; simp
  | cons i a ih =>
    simp only [expandItems] at ha
    cases h1 : definition i with
    | none => simp [h1] at ha
    | some new =>
      cases h2 : expandItem (new ++ ms) i with
      | none => simp [h1, h2] at ha
      | some its =>
        simp only [h1, h2] at ha
        cases h3 : expandItems (new ++ ms) a with
        | none => simp [h3] at ha
        | some r =>
          rw [h3] at ha
          simp only [Option.map_some, Option.some.injEq, Prod.mk.injEq] at ha
          obtain ⟨rfl, rfl⟩ := ha
          simp only [List.cons_append, expandItems, h1, h2, ih h3, Option.map_map, List.append_assoc]
          rfl

theorem stage_append {ms ms' ms'' : List Macro} {a b : List Nat} {x y : List Impl} {d e : List Decl}
    (ha : stage ms a = some (ms', x, d)) (hb : stage ms' b = some (ms'', y, e)) :
    stage ms (a ++ b) = some (ms'', x ++ y, d ++ e) := by
  simp only [stage, Option.bind_eq_bind, Option.bind_eq_some_iff] at ha hb ⊢
  obtain ⟨ta, h6, la, h4, ra, h5, ia, h2, da, h3, h1⟩ := ha
  obtain ⟨tb, g6, lb, g4, rb, g5, ib, g2, db, g3, g1⟩ := hb
  obtain ⟨ra, la'⟩ := ra
  obtain ⟨rb, lb'⟩ := rb
  cases h1
  cases g1
  exact ⟨ta ++ tb, tokensIn_append h6 g6, la ++ lb, by rw [cut_append h4, g4]; rfl, (rb, la' ++ lb'),
    by rw [expandItems_append h5, g5]; rfl, _, itemsOf_append h2 g2, _, declList_append h3 g3, rfl⟩

theorem programOf_eq (cs : List Nat) : programOf cs = (stage [] cs).map (·.2) := by
  simp only [programOf, stage, tokensIn, Option.bind_eq_bind]
  cases lex cs with
  | none => rfl
  | some l =>
    simp only [Option.bind_some]
    cases tokens l with
    | none => rfl
    | some ts =>
      simp only [Option.bind_some]
      cases cut 0 [] ts with
      | none => rfl
      | some its =>
        simp only [Option.bind_some]
        cases expandItems [] its with
        | none => rfl
        | some r =>
          obtain ⟨ms, r⟩ := r
          simp only [Option.bind_some]
          cases itemsOf r with
          | none => rfl
          | some i => cases declList r <;> rfl

/-- The call of the macro with a table -/
def callItem (rows : List Row) : List Tk := .id c!"cfg_val" :: .p 33 :: .p 123 :: rows.flatMap Row.tokens ++ [.p 125]

theorem cut_call (rows : List Row) : cut 0 [] (callItem rows) = some [callItem rows] := by
  have e : ∀ u, cut 0 [] (.id c!"cfg_val" :: .p 33 :: .p 123 :: u) = cut 1 [.p 123, .p 33, .id c!"cfg_val"] u :=
    fun _ => rfl
  rw [callItem, List.cons_append, List.cons_append, List.cons_append, e, cut_rows (fun _ _ _ => rfl)]
  simp [cut]

theorem group_rows (rows : List Row) : group 0 (rows.flatMap Row.tokens ++ [.p 125]) = some (rows.flatMap Row.tokens, []) := by
  induction rows with
  | nil => rfl
  | cons r rows ih =>
    have e : ∀ u, group 0 (r.tokens ++ u) = (((((((group 0 u).map fun r => (.p 44 :: r.1, r.2)).map
      fun x => (.id (tyCodes r.ty) :: x.1, x.2)).map fun x => (.p 44 :: x.1, x.2)).map
      fun x => (.num r.key :: x.1, x.2)).map fun x => (.p 44 :: x.1, x.2)).map fun x => (.id r.id :: x.1, x.2)) :=
      fun _ => rfl
    rw [List.flatMap_cons, List.append_assoc, e, ih]
    rfl

theorem expand_call (rows : List Row) : expandItems macros [callItem rows] = some (macros, itemsFor rows) := by
  have e : expandItem macros (callItem rows) =
    (match apply (rows.flatMap Row.tokens) [cfgVal0] with
      | some r =>
        match expand macros (r.length + 1000) [] r with
        | some r => cut 0 [] r
        | none => none
      | none => none) := by
    have : expandItem macros (callItem rows) =
      (match group 0 (rows.flatMap Row.tokens ++ [.p 125]) with
        | some (arg, []) =>
          match apply arg [cfgVal0] with
          | some r =>
            match expand macros (r.length + 1000) [] r with
            | some r => cut 0 [] r
            | none => none
          | none => none
        | _ => none) := by kernel_rfl
    rw [this, group_rows]
  rw [apply_rows] at e
  simp only [expand_made, cut_tokensOf] at e
  have d : definition (callItem rows) = some [] := rfl
  simp only [expandItems, d, List.nil_append, e, Option.map_some, List.append_nil]

theorem stage_call {a b c : List Nat} {rows : List Row}
    (ha : tokensIn a = some [.id c!"cfg_val", .p 33, .p 123]) (hb : tokensIn b = some (rows.flatMap Row.tokens))
    (hc : tokensIn c = some [.p 125]) :
    stage macros (a ++ (b ++ c)) = some (macros, cfgValImpl rows :: rows.map Row.impl, cfgValDecl rows :: rows.map Row.decl) := by
  have h := tokensIn_append ha (tokensIn_append hb hc)
  have e : [.id c!"cfg_val", .p 33, .p 123] ++ (rows.flatMap Row.tokens ++ [.p 125]) = callItem rows := by
    simp [callItem]
  rw [e] at h
  simp only [stage, h, Option.bind_eq_bind, Option.bind_some, cut_call, expand_call, itemsOf_table, declList_table]
  rfl

end Ublox.Macro
