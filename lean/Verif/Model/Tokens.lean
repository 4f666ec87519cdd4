import Lean
import Verif.Model.Code

/-!
# Lists of tokens

`t!"let x = 1;"` is the list of the tokens of a text: a notation for literals.  No code of `/repo`.
-/

namespace Ublox.Code

open Lean Elab Term

/-- A keyword as a term -/
def K.toTerm (k : K) : TermElabM Lean.Expr := do
  let s := ((repr k).pretty.splitOn ".").getLast!
  return Lean.mkConst (``K ++ Lean.Name.mkSimple s)

/-- Numbers as a term -/
def natsToTerm (l : List Nat) : Lean.Expr :=
  l.foldr (fun n t => mkApp3 (Lean.mkConst ``List.cons [.zero]) (Lean.mkConst ``Nat) (mkNatLit n) t)
    (mkApp (Lean.mkConst ``List.nil [.zero]) (Lean.mkConst ``Nat))

/-- A token as a term -/
def Tk.toTerm : Tk → TermElabM Lean.Expr
  | .kw k => return mkApp (Lean.mkConst ``Tk.kw) (← k.toTerm)
  | .id cs => return mkApp (Lean.mkConst ``Tk.id) (natsToTerm cs)
  | .num n => return mkApp (Lean.mkConst ``Tk.num) (mkNatLit n)
  | .tnum n ty => return mkApp2 (Lean.mkConst ``Tk.tnum) (mkNatLit n) (mkNatLit ty)
  | .float a b => return mkApp2 (Lean.mkConst ``Tk.float) (mkNatLit a) (mkNatLit b)
  | .str cs => return mkApp (Lean.mkConst ``Tk.str) (natsToTerm cs)
  | .life => return Lean.mkConst ``Tk.life
  | .p c => return mkApp (Lean.mkConst ``Tk.p) (mkNatLit c)

/-- The tokens of a text -/
elab:max "t!" s:str : term => do
  let some l := Src.lex ((s.getString ++ "\n").toList.map Char.toNat) | throwError "no tokens"
  let some ts := tokens l | throwError "unknown tokens"
  let tk := Lean.mkConst ``Tk
  let mut r := mkApp (Lean.mkConst ``List.nil [.zero]) tk
  for t in ts.reverse do
    r := mkApp3 (Lean.mkConst ``List.cons [.zero]) tk (← t.toTerm) r
  return r

end Ublox.Code
