import Verif.Model.Struct
import Verif.Spec.Fmt
/-!
# Specification: when an attribute implements a wire format

`Enc c f`: for every value with a content, `pack` produces exactly the bytes the format assigns to that
content (and fails when there are none), and `get_size` is the number of those bytes.

`Dec c f tail`: at any offset in any buffer, decoding the bytes of an acceptable content yields an object
with that content.  With `tail = true` this is only required when nothing follows those bytes.
-/
namespace Pyof.Spec

structure Enc (c : Attr) (f : Fmt) : Prop where
  pack : ∀ v d, f.den v = some d → ∀ b, c.pack v = .ok b ↔ f.enc d = some b
  size : ∀ v d b, f.den v = some d → f.enc d = some b → c.size v = .ok b.length
  usize : ∀ v d b, v ≠ .none → f.den v = some d → f.enc d = some b → c.usize v = .ok b.length

structure Dec (c : Attr) (f : Fmt) (tail : Bool) : Prop where
  unpack : ∀ d b pre post, f.enc d = some b → f.ok d → (tail = true → post = []) →
    pre ++ b ++ post ≠ [] →
    ∃ u, c.unpack (pre ++ b ++ post) pre.length = .ok u ∧ f.den u = some d ∧ u ≠ .none
  /-- A content without bytes is what the copy of the class attribute holds. -/
  empty : ∀ d, f.enc d = some [] → f.den c.proto = some d

/-- Every field implements its format; only the last one may run to the end of the buffer. The field names
of the declaration and of the format agree. -/
inductive Impl : Bool → Fields → FieldFmts → Prop
  | nil {t} : Impl t [] []
  | cons {t n c f cs fs} : Enc c f → Dec c f false → Impl t cs fs → Impl t ((n, c) :: cs) ((n, f) :: fs)
  | last {n c f} : Enc c f → Dec c f true → Impl true [(n, c)] [(n, f)]

/-- A format none of whose encodings is empty. -/
def NonEmpty (f : Fmt) : Prop := ∀ d, f.enc d ≠ some []

end Pyof.Spec
