import Lean
import Verif.Model.Lex

/-!
# The characters of a text

`charsOf% text` writes down the characters of a string literal; that they are those of the literal is
checked by the kernel where it is used (`codes_eq`).
-/

namespace Ublox.Src

open Lean Elab Meta in
/-- The characters of the string literal that a constant is defined as. -/
elab "charsOf% " n:ident : term => do
  let c ← realizeGlobalConstNoOverloadWithInfo n
  let some (.defnInfo d) := (← getEnv).find? c | throwError "not a definition"
  let .lit (.strVal s) := d.value | throwError "not a string literal"
  let char := Lean.mkConst ``Char
  return s.toList.foldr
    (fun ch t => mkApp3 (Lean.mkConst ``List.cons [.zero]) char
      (mkApp (Lean.mkConst ``Char.ofNat) (mkRawNatLit ch.toNat)) t)
    (mkApp (Lean.mkConst ``List.nil [.zero]) char)

theorem codes_eq {s : String} {chars : List Char} (h : s = String.ofList chars) :
    codes s = chars.map Char.toNat := by
  rw [h, codes, String.toList_ofList]

end Ublox.Src
