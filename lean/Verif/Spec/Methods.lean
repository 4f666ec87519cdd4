import Verif.Model.Meth
import Verif.Model.Codegen

/-!
# What the methods of a description mean
-/

namespace Ublox.Spec

/-- The sum of the sizes that are known -/
def knownSize (fs : List Syn.PackField) : Nat := (fs.map fun f => f.sizeBytes.getD 0).sum

/-- The size of several fields: unknown if one of them is unknown -/
def SizeIs (fs : List Syn.PackField) : Option Nat → Prop
  | none => ∃ f ∈ fs, f.sizeBytes = none
  | some n => (∀ f ∈ fs, f.sizeBytes ≠ none) ∧ n = knownSize fs

/-- A value in the execution of `types.rs` and a value in the execution of `output.rs` are the same. -/
inductive SameValue : Meth.V → Quote.V → Prop where
  | bool (b : Bool) : SameValue (.bool b) (.bool b)
  | num (n : Nat) (ty : Code.Name) : SameValue (.num n) (.num n ty)
  | ident (cs : List Nat) : SameValue (.ident cs) (.ident cs)
  | ty (t : Syn.Ty) : SameValue (.ty t) (.ty t)
  | toks (ns : List Quote.Node) : SameValue (.toks (Quote.flatAll ns)) (.toks ns)
  | none : SameValue .none .none
  | some (v : Meth.V) (w : Quote.V) (h : SameValue v w) : SameValue (.some v) (.some w)

end Ublox.Spec
