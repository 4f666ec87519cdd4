import Lean
import Verif.Model.Code
import Verif.Lemmas.Source

/-!
# The functions of a text that is given in pieces
-/

namespace Ublox.Code

open Src (lex lex_append codes codes_join)

open Lean Elab Tactic Meta in
/-- Closes `a = b` with `rfl`; only the kernel compares the two sides. -/
elab "kernel_rfl" : tactic => liftMetaTactic fun g => do
  let some (α, _, b) := (← instantiateMVars (← g.getType)).eq? | throwError "not an equation"
  let u ← getLevel α
  g.assign (mkApp2 (.const ``Eq.refl [u]) α b)
  return []

theorem mapM_append {a b : List Src.LTok} :
    (a ++ b).mapM tk = (do return (← a.mapM tk) ++ (← b.mapM tk)) := by
  rw [List.mapM_append]

theorem tokens_append {a b : List Src.LTok} {x y : List Tk} (ha : tokens a = some x) (hb : tokens b = some y) :
    tokens (a ++ b) = some (x ++ y) := by
  simp only [tokens] at ha hb ⊢
  rw [List.filter_append, mapM_append, ha, hb]
  rfl

theorem cut_append {d : Nat} {rev ts : List Tk} {l : List (List Tk)} (h : cut d rev ts = some l) (u : List Tk) :
    cut d rev (ts ++ u) = (cut 0 [] u).map (l ++ ·) := by
  fun_induction cut d rev ts generalizing l with
  | case1 => cases h; simp
  | case2 => cases h
  | case8 rev ts ih =>
    cases hc : cut 0 [] ts with
    | none => rw [hc] at h; cases h
    | some l' =>
      rw [hc] at h
      cases h
      simp only [List.cons_append, cut, ih hc, Option.map_map]
      rfl
  | case10 rev ts ih =>
    cases hc : cut 0 [] ts with
    | none => rw [hc] at h; cases h
    | some l' =>
      rw [hc] at h
      cases h
      simp only [List.cons_append, cut, ih hc, Option.map_map]
      rfl
  | case11 =>
    rename_i ih
    rw [List.cons_append, cut]
    · exact ih h
    all_goals assumption
  | _ =>
    rename_i ih
    simp only [List.cons_append, cut]
    exact ih h

theorem itemsOf_append {a b : List (List Tk)} {x y : List Impl} (ha : itemsOf a = some x) (hb : itemsOf b = some y) :
    itemsOf (a ++ b) = some (x ++ y) := by
  induction a generalizing x with
  | nil => cases ha; exact hb
  | cons t a ih =>
    simp only [itemsOf] at ha
    cases h1 : item (8 * t.length) t with
    | none => simp [h1] at ha
    | some i =>
      cases h2 : itemsOf a with
      | none => simp [h1, h2] at ha
      | some r =>
        simp [h1, h2] at ha
        simp [itemsOf, h1, ih h2, ← ha]

theorem implsOf_append {a b : List Nat} {x y : List Impl} (ha : implsOf a = some x) (hb : implsOf b = some y) :
    implsOf (a ++ b) = some (x ++ y) := by
  simp only [implsOf, Option.bind_eq_bind, Option.bind_eq_some_iff] at ha hb ⊢
  obtain ⟨ra, h5, ta, h6, la, h4, h2⟩ := ha
  obtain ⟨rb, g5, tb, g6, lb, g4, g2⟩ := hb
  exact ⟨ra ++ rb, by rw [lex_append h5, g5]; rfl, ta ++ tb, tokens_append h6 g6,
    la ++ lb, by rw [cut_append h4, g4]; rfl, itemsOf_append h2 g2⟩

theorem implsOf_strings {ss : List String} {ls : List (List Impl)}
    (h : List.Forall₂ (fun s l => implsOf (codes s) = some l) ss ls) :
    implsOf (codes (String.join ss)) = some ls.flatten := by
  rw [codes_join]
  induction h with
  | nil => rfl
  | cons h _ ih => exact implsOf_append h ih

theorem declList_append {a b : List (List Tk)} {x y : List Decl} (ha : declList a = some x)
    (hb : declList b = some y) : declList (a ++ b) = some (x ++ y) := by
  induction a generalizing x with
  | nil => cases ha; exact hb
  | cons t a ih =>
    simp only [declList] at ha
    cases h1 : decl (8 * t.length) t with
    | none => simp [h1] at ha
    | some i =>
      cases h2 : declList a with
      | none => simp [h1, h2] at ha
      | some r =>
        simp [h1, h2] at ha
        simp [declList, h1, ih h2, ← ha]

theorem programOf_append {a b : List Nat} {x y : List Impl × List Decl} (ha : programOf a = some x)
    (hb : programOf b = some y) : programOf (a ++ b) = some (x.1 ++ y.1, x.2 ++ y.2) := by
  simp only [programOf, Option.bind_eq_bind, Option.bind_eq_some_iff] at ha hb ⊢
  obtain ⟨ra, h5, ta, h6, la, h4, ia, h2, da, h3, h1⟩ := ha
  obtain ⟨rb, g5, tb, g6, lb, g4, ib, g2, db, g3, g1⟩ := hb
  cases h1
  cases g1
  exact ⟨ra ++ rb, by rw [lex_append h5, g5]; rfl, ta ++ tb, tokens_append h6 g6,
    la ++ lb, by rw [cut_append h4, g4]; rfl, ia ++ ib, itemsOf_append h2 g2, da ++ db, declList_append h3 g3, rfl⟩

theorem programOf_strings {ss : List String} {ls : List (List Impl × List Decl)}
    (h : List.Forall₂ (fun s l => programOf (codes s) = some l) ss ls) :
    programOf (codes (String.join ss)) = some ((ls.map (·.1)).flatten, (ls.map (·.2)).flatten) := by
  rw [codes_join]
  induction h with
  | nil => rfl
  | cons h _ ih => exact programOf_append h ih

end Ublox.Code
