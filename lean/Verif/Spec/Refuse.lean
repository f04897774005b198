import Verif.Spec.Contract
/-!
# Specification: refusing to pack

A value whose content is clear but has no bytes (a number or a length too big for its field) is refused with
`PackException`, and with nothing else.
-/
namespace Pyof.Spec

/-- The only exception is `PackException`. -/
def OnlyPack {α} (r : Res α) : Prop := ∀ e, r = .error e → e = .pack

/-- There is no exception. -/
def Succeeds {α} (r : Res α) : Prop := ∃ a, r = .ok a

/-- On values with a content, `pack` raises nothing but `PackException` and `get_size` raises nothing. -/
structure Refuse (c : Attr) (f : Fmt) : Prop where
  pack : ∀ v d, f.den v = some d → OnlyPack (c.pack v)
  size : ∀ v d, f.den v = some d → Succeeds (c.size v)
  usize : ∀ v d, v ≠ .none → f.den v = some d → Succeeds (c.usize v)

/-- All fields of a declaration. -/
inductive RefuseAll : Fields → FieldFmts → Prop
  | nil : RefuseAll [] []
  | cons {n m c f cs fs} : Refuse c f → RefuseAll cs fs → RefuseAll ((n, c) :: cs) ((m, f) :: fs)

end Pyof.Spec
