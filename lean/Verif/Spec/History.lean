import Verif.Spec.Threads
/-!
# Messages that are changed between calls of `pack()`
-/
namespace Pyof.Threads

/-- An item of a changed list: one that was in the list, or a new one. -/
inductive Item
  | old (i : Nat)
  | new (x : Val)

/-- What a program may do at a place of a message: assign something, or change the list that is there (append, insert, delete, reorder, extend). -/
inductive Change
  | assign (x : Val)
  | items (t : List Item)

/-- The items of the changed list. -/
def rearrange (xs : List Val) (t : List Item) : List Val :=
  t.filterMap fun i => match i with | .old i => xs[i]? | .new x => some x

def Change.here : Change → Val → Val
  | .assign x, _ => x
  | .items t, .list f xs => .list f (rearrange xs t)
  | .items _, v => v

/-- The tree after a change at a place. -/
def alter : Val → Path → Change → Val
  | v, [], c => c.here v
  | .obj n vs, i :: p, c => .obj n (vs.modify i fun v => alter v p c)
  | .list f xs, i :: p, c => .list f (xs.modify i fun v => alter v p c)
  | v, _ :: _, _ => v

/-- The life of a message of class `m`: it is made, then changed and packed in any order.  `History m v w`: `w` is the message, `v` is what it
would be if it had only been changed and never packed.

A call of `pack()` may be given up at any moment; several threads may pack at once if no ActionSetField needs padding then. -/
inductive History (m : PMsg) : Val → Val → Prop
  | made (vs : List Val) : vs.length = m.body.length + 1 → History m (.obj m.cls.name vs) (.obj m.cls.name vs)
  | changed {v w : Val} (i : Nat) (p : Path) (c : Change) : History m v w → History m (alter v (i :: p) c) (alter w (i :: p) c)
  | packed {v w w' : Val} {n : Nat} {ts : List (Prog (Res Bytes))} : History m v w → n ≤ 1 ∨ NoPad w →
      Runs (List.replicate n m.steps, w) (ts, w') → History m v w'

/-- The life of a message of the class named `c` if each `pack()` returns: `pyPost` is the message afterwards. -/
inductive Sequel (c : String) : Val → Val → Prop
  | made (vs : List Val) : Sequel c (.obj c vs) (.obj c vs)
  | changed {v w : Val} (i : Nat) (p : Path) (k : Change) : Sequel c v w → Sequel c (alter v (i :: p) k) (alter w (i :: p) k)
  | packed {v w : Val} {b : Bytes} : Sequel c v w → pyPack libs w = .ok b → Sequel c v (pyPost libs w)

end Pyof.Threads
