import Verif.Model.Message
import Verif.Model.Variant
import Verif.Spec.Msg
/-!
# Packing twice

`Idem c`: whenever packing a value succeeds, packing the value as it was left behind (length attributes updated) gives the
same bytes, and the sizes reported before and after are the same.

`Keeps c f`: packing leaves the content of a value unchanged.
-/
namespace Pyof.Spec
open Pyof

structure Idem (c : Attr) : Prop where
  pack : ∀ v b, c.pack v = .ok b → c.pack (c.post v) = .ok b
  size : ∀ v b, c.pack v = .ok b → c.size (c.post v) = c.size v
  usize : ∀ v b, c.pack v = .ok b → c.usize (c.post v) = c.usize v

/-- The same for the classes of a family. -/
structure SubIdem (s : Sub) : Prop where
  pack : ∀ vs b, s.pack vs = .ok b → s.pack (s.post vs) = .ok b
  size : ∀ vs b, s.pack vs = .ok b → s.size (s.post vs) = s.size vs

/-- The same for messages. -/
def MsgIdem (m : MsgCls) : Prop := ∀ v p, m.pack v = .ok p → m.pack (m.post v) = .ok p

/-- Packing leaves the content unchanged. -/
def Keeps (c : Attr) (f : Fmt) : Prop := ∀ v d, f.den v = some d → f.den (c.post v) = some d

inductive KeepsAll : Fields → FieldFmts → Prop
  | nil : KeepsAll [] []
  | cons {n m c f cs fs} : Keeps c f → KeepsAll cs fs → KeepsAll ((n, c) :: cs) ((m, f) :: fs)

def MsgKeeps (m : MsgCls) (s : MsgFmt) : Prop :=
  ∀ vs d, s.fmt.den (.obj s.name vs) = some d → s.fmt.den (.obj s.name (m.after vs)) = some d

end Pyof.Spec
