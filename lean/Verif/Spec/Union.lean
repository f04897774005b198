import Verif.Spec.Fmt
/-!
# Specification: alternatives selected by a type number, and length-delimited structures
-/
namespace Pyof.Spec

/-- A family of classes.  `sel t` names the class for type number `t`, if any; `lay c` is the format of class `c`, whose content
must be a record starting with the type number.  The content is tagged with the class. -/
def union (sel : Nat → Option String) (lay : String → Fmt) : Fmt where
  den := fun v =>
    match v with
    | .obj c vs =>
      match (lay c).den (.obj c vs) with
      | some (.record (.num t :: ds)) => if sel t = some c then some (.tag c (.record (.num t :: ds))) else none
      | _ => none
    | _ => none
  enc := fun d =>
    match d with
    | .tag c (.record (.num t :: ds)) => if sel t = some c then (lay c).enc (.record (.num t :: ds)) else none
    | _ => none
  ok := fun d => match d with | .tag c d => (lay c).ok d | _ => False

/-- The same format, but a decoder only accepts contents whose bytes carry their own total length (on two bytes)
at position `k`. -/
def delimited (k : Nat) (f : Fmt) : Fmt where
  den := f.den
  enc := f.enc
  ok := fun d => f.ok d ∧ ∀ b, f.enc d = some b → slice b k (k + 2) = be 2 b.length ∧ b.length < 65536

/-- A list of at most one item that runs to the end of the packet. -/
def atMostOne (f : Fmt) : Fmt :=
  { list f with ok := fun d => match d with | .arr ds => ds.length ≤ 1 ∧ ∀ x ∈ ds, f.ok x | _ => False }

/-- The items a body attribute stands for: one object, a `FixedTypeList` of them, or nothing. -/
def bodyItems : Val → Option (List Val)
  | .obj c vs => some [.obj c vs]
  | .list true xs => some xs
  | .none => some []
  | .bytes [] => some []
  | _ => none

end Pyof.Spec
