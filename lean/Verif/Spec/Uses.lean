import Verif.Model.ThreadsSize
import Verif.Spec.History
/-!
# Messages and structures that are packed, measured and changed
-/
namespace Pyof.Threads

/-- At most one of the threads packs (the others ask for the size), or no ActionSetField has to be padded. -/
def Fair (cs : List Call) (w : Val) : Prop := cs.count .pack ≤ 1 ∨ NoPad w

/-- The life of a message of class `m`: it is made, then changed and used in any order.  `Used m v w`: `w` is the message, `v` is what it would
be if it had only been changed.  It is used by any number of threads at once, which may be given up at any moment. -/
inductive Used (m : PMsg) : Val → Val → Prop
  | made (vs : List Val) : vs.length = m.body.length + 1 → Used m (.obj m.cls.name vs) (.obj m.cls.name vs)
  | changed {v w : Val} (i : Nat) (p : Path) (c : Change) : Used m v w → Used m (alter v (i :: p) c) (alter w (i :: p) c)
  | used {v w w' : Val} {cs : List Call} {ts : List (Prog Answer)} : Used m v w → Fair cs w → Runs (cs.map m.call, w) (ts, w') → Used m v w'

/-- What `pack()` and `get_size()` of a message return or raise. -/
def answer (v : Val) : Call → Answer
  | .pack => .bytes (pyPack libs v)
  | .size => .size (pySize libs v)

/-- The same for a structure that is not part of a message. -/
inductive Alone (a : PAttr) : Val → Val → Prop
  | made (c : String) (vs : List Val) : Alone a (.obj c vs) (.obj c vs)
  | changed {v w : Val} (i : Nat) (p : Path) (c : Change) : Alone a v w → Alone a (alter v (i :: p) c) (alter w (i :: p) c)
  | used {v w w' : Val} {cs : List Call} {ts : List (Prog Answer)} : Alone a v w → Fair cs w → Runs (cs.map a.call, w) (ts, w') → Alone a v w'

/-- What `pack()` and `get_size()` of a structure return or raise. -/
def PAttr.answer (a : PAttr) (v : Val) : Call → Answer
  | .pack => .bytes (a.attr.pack v)
  | .size => .size (a.attr.usize v)

end Pyof.Threads
