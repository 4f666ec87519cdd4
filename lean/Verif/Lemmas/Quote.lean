import Verif.Lemmas.Code
import Verif.Model.Quote

/-!
# The functions of a text of code generators that is given in pieces
-/

namespace Ublox.Quote

open Src (lex lex_append codes codes_join)
open Code (Tk tokens_append cut_append)

theorem itemsOf_append {a b : List (List Tk)} {x y : List Fn} (ha : itemsOf a = some x) (hb : itemsOf b = some y) :
    itemsOf (a ++ b) = some (x ++ y) := by
  induction a generalizing x with
  | nil => cases ha; exact hb
  | cons t a ih =>
    simp only [itemsOf] at ha
    cases h1 : item t with
    | none => simp [h1] at ha
    | some i =>
      cases h2 : itemsOf a with
      | none => simp [h1, h2] at ha
      | some r =>
        simp [h1, h2] at ha
        simp [itemsOf, h1, ih h2, ← ha]

theorem fnsOf_append {a b : List Nat} {x y : List Fn} (ha : fnsOf a = some x) (hb : fnsOf b = some y) :
    fnsOf (a ++ b) = some (x ++ y) := by
  simp only [fnsOf, Option.bind_eq_bind, Option.bind_eq_some_iff] at ha hb ⊢
  obtain ⟨la, h4, ta, h3, ra, h5, h2⟩ := ha
  obtain ⟨lb, g4, tb, g3, rb, g5, g2⟩ := hb
  exact ⟨la ++ lb, by rw [lex_append h4, g4]; rfl, ta ++ tb, tokens_append h3 g3,
    ra ++ rb, by rw [cut_append h5, g5]; rfl, itemsOf_append h2 g2⟩

theorem fnsOf_strings {ss : List String} {ls : List (List Fn)}
    (h : List.Forall₂ (fun s l => fnsOf (codes s) = some l) ss ls) :
    fnsOf (codes (String.join ss)) = some ls.flatten := by
  rw [codes_join]
  induction h with
  | nil => rfl
  | cons h _ ih => exact fnsOf_append h ih

end Ublox.Quote
