import Verif.Model.Threads
/-!
# Attributes that are assigned while a message is packed
-/
namespace Pyof.Threads

/-- The code of a thread that reads what it likes and assigns only what `A` allows. -/
def Assigns {α : Type} (A : Path → Val → Prop) : Prog α → Prop
  | .ret _ => True
  | .get _ k => ∀ v, Assigns A (k v)
  | .set p x k => A p x ∧ Assigns A k

/-- A run of several threads, with all states of the message, from the first to the last. -/
inductive Through {α : Type} : List (Prog α) × Val → List Val → List (Prog α) × Val → Prop
  | refl (c : List (Prog α) × Val) : Through c [c.2] c
  | step {a b c : List (Prog α) × Val} {ws : List Val} : Through a ws b → StepAny b c → Through a (ws ++ [c.2]) c

/-- What may be assigned in a message of class `m` with the attributes `vs` after the header: version, type and xid in its header, and every
attribute in whose value `pack()` assigns nothing (so not the matches, instructions, actions, buckets and elements of v0x04), if the size of the
message stays the same and so does the answer of `is_valid`.  The attribute `actions_len` is assigned by `pack()` itself. -/
def Swap (m : PMsg) (vs : List Val) : Path → Val → Prop
  | [0, i], _ => i = 0 ∨ i = 1 ∨ i = 3
  | [j + 1], x => ∃ n a v, m.body[j]? = some (n, leafP a) ∧ n ≠ "actions_len" ∧ vs[j]? = some v ∧ a.size x = a.size v ∧
      m.cls.valid (vs.set j x) = m.cls.valid vs
  | _, _ => False

/-- A message all of whose attributes, and all attributes of whose header, are found in the states `ws`, though not all in the same one. -/
def Mixed (ws : List Val) (us hs : List Val) : Prop :=
  (∀ i x, hs[i]? = some x → ∃ w ∈ ws, at? w [0, i] = some x) ∧ ∀ j x, us[j]? = some x → ∃ w ∈ ws, at? w [j + 1] = some x

end Pyof.Threads
