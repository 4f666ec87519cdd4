import Verif.Lemmas.Knf
import Verif.Lemmas.Quote
import Verif.Lemmas.SourceText
import Verif.Model.GenQuote
import Verif.Spec.Emit

/-!
# Evaluating the code generators: names, statements, loops
-/

namespace Ublox.Emit

open Code (Tk)
open Quote (joinToks wordsToks)
open Lean Meta Simp in
/-- `Src.codes` of a literal -/
simproc codesLit (Src.codes _) := fun e => do
  let .lit (.strVal s) := e.appArg! | return .continue
  let char := Lean.mkConst ``Char
  let chars := s.toList.foldr
    (fun ch t => mkApp3 (Lean.mkConst ``List.cons [.zero]) char
      (mkApp (Lean.mkConst ``Char.ofNat) (mkNatLit ch.toNat)) t)
    (mkApp (Lean.mkConst ``List.nil [.zero]) char)
  let r := Code.natsToTerm (s.toList.map Char.toNat)
  let h := mkApp2 (.const ``Eq.refl [1]) (Lean.mkConst ``String) e.appArg!
  let pf := mkApp3 (Lean.mkConst ``Src.codes_eq) e.appArg! chars h
  return .done { expr := r, proof? := some pf }

theorem codes_append (a b : String) : Src.codes (a ++ b) = Src.codes a ++ Src.codes b := by
  simp [Src.codes]

theorem splitPath_name {w : List Nat} (h : w.all (fun c => !sign c) = true) (acc cs : List Nat) :
    splitPath acc (w ++ cs) = splitPath (w.reverse ++ acc) cs := by
  induction w generalizing acc with
  | nil => rfl
  | cons c w ih =>
    simp only [List.all_cons, Bool.and_eq_true] at h
    rw [List.cons_append, splitPath, if_neg (by simpa using h.1), ih h.2]
    simp

theorem flush_name {w : List Nat} (h : w ≠ []) : flush w.reverse = [.id w] := by
  cases hw : w.reverse with
  | nil => exact absurd (by simpa using hw) h
  | cons a l => rw [flush, ← hw, List.reverse_reverse]; simp

/-- A name alone, and a name before further characters of a path -/
theorem path_name {s : String} (h : IsName s) : path s = [.id (Src.codes s)] := by
  have := splitPath_name h.2.1 [] []
  rw [List.append_nil, List.append_nil] at this
  rw [path, this, splitPath, flush_name h.1]

theorem path_name_append {s : String} (h : IsName s) (t : String) :
    path (s ++ t) = splitPath (Src.codes s).reverse (Src.codes t) := by
  rw [path, codes_append, splitPath_name h.2.1, List.append_nil]

theorem splitPath_sign {w : List Nat} (h : w ≠ []) {c : Nat} (hc : sign c = true) (cs : List Nat) :
    splitPath w.reverse (c :: cs) = .id w :: .p c :: splitPath [] cs := by
  rw [splitPath, if_pos hc, flush_name h]; rfl

/-- `name::rest` -/
theorem path_qualified {s : String} (h : IsName s) (t : String) :
    path (s ++ "::" ++ t) = .id (Src.codes s) :: .p 58 :: .p 58 :: path t := by
  rw [path, codes_append, codes_append, List.append_assoc, splitPath_name h.2.1, List.append_nil]
  simp only [codesLit, List.cons_append, List.nil_append]
  rw [splitPath_sign h.1 rfl, splitPath, if_pos (by decide)]
  rfl

/-- A path of words -/
theorem path_words {ws : List Syn.Word} (h : ∀ w ∈ ws, IsName w.text) :
    path (Rust.pathText ws) = wordsToks ws := by
  cases ws with
  | nil => rfl
  | cons w ws =>
    induction ws generalizing w with
    | nil =>
      rw [Rust.pathText, List.map_cons, List.map_nil, String.intercalate_singleton, path_name (h w (by simp))]
      rfl
    | cons v ws ih =>
      have ih := ih v (fun x hx => h x (List.mem_cons_of_mem _ hx))
      rw [Rust.pathText, List.map_cons] at ih
      rw [Rust.pathText, List.map_cons, List.map_cons, String.intercalate_cons_cons,
        path_qualified (h w (by simp)), ih]
      rfl

end Ublox.Emit
