import Verif.Model.Threads
/-!
# Messages that share objects

A value given to a constructor or assigned to an attribute is stored as it is, not copied (v0x04/controller2switch/flow_mod.py:120-121,
v0x04/controller2switch/packet_out.py:60, v0x04/controller2switch/group_mod.py:93, v0x04/common/flow_instructions.py:142, 164, 225,
foundation/basic_types.py:647-659, 757-775).  The same match, list of
actions or action may therefore be in several messages, or several times in one.  An attribute assigned while one of them is packed is then
changed in all of them.

The messages are the items of a list; the first number of a path says which message it is in.  Which objects are shared is given by pairs of
places.  The instances held by class attributes are not part of the tree, as in Model/Threads.lean.
-/
namespace Pyof.Threads

/-- The steps of `t`, taken in item `i` of a list of messages. -/
def Prog.inside {α : Type} (i : Nat) : Prog α → Prog α
  | .ret a => .ret a
  | .get p k => .get (i :: p) fun v => (k v).inside i
  | .set p x k => .set (i :: p) x (k.inside i)

/-- The object at `p` is the object at `q`: they are a given pair, or parts of the same object reached in the same way. -/
inductive Same (pairs : List (Path × Path)) : Path → Path → Prop
  | refl (p : Path) : Same pairs p p
  | pair {p q : Path} (s : Path) : (p, q) ∈ pairs → Same pairs (p ++ s) (q ++ s)
  | symm {p q : Path} : Same pairs p q → Same pairs q p
  | trans {p q r : Path} : Same pairs p q → Same pairs q r → Same pairs p r

/-- `p` and `q` are the same attribute of the same object. -/
def SameAttr (pairs : List (Path × Path)) (p q : Path) : Prop := ∃ a b i, p = a ++ [i] ∧ q = b ++ [i] ∧ Same pairs a b

/-- One step of a thread.  An assignment is seen at every place where the object is. -/
inductive SStep {α : Type} (pairs : List (Path × Path)) : Prog α × Val → Prog α × Val → Prop
  | get {p : Path} {k : Val → Prog α} {w v : Val} : at? w p = some v → SStep pairs (.get p k, w) (k v, w)
  | set {p : Path} {x : Val} {k : Prog α} {w : Val} {E : Done} (hE : ∀ q y, E q = some y ↔ SameAttr pairs p q ∧ y = x) :
      SStep pairs (.set p x k, w) (k, over w E)

/-- One step of one of several threads. -/
inductive SStepAny {α : Type} (pairs : List (Path × Path)) : List (Prog α) × Val → List (Prog α) × Val → Prop
  | mk {ts : List (Prog α)} {i : Nat} {t t' : Prog α} {w w' : Val} :
      ts[i]? = some t → SStep pairs (t, w) (t', w') → SStepAny pairs (ts, w) (ts.set i t', w')

/-- Any number of steps, in any order. -/
inductive SRuns {α : Type} (pairs : List (Path × Path)) : List (Prog α) × Val → List (Prog α) × Val → Prop
  | refl (c : List (Prog α) × Val) : SRuns pairs c c
  | step {a b c : List (Prog α) × Val} : SRuns pairs a b → SStepAny pairs b c → SRuns pairs a c

/-- Several messages, given by their classes and the values of their attributes. -/
def world (ms : List (PMsg × List Val)) : Val := .list true (ms.map fun e => .obj e.1.cls.name e.2)

/-- The steps of packing message `i`. -/
def packing (ms : List (PMsg × List Val)) (i : Nat) : Prog (Res Bytes) :=
  match ms[i]? with
  | some e => e.1.steps.inside i
  | none => .ret (.error .unmodelled)

/-- One message after the other is packed, each completely or not. -/
inductive Packs (pairs : List (Path × Path)) (ms : List (PMsg × List Val)) : Val → Prop
  | start : Packs pairs ms (world ms)
  | pack {w w' : Val} {ts : List (Prog (Res Bytes))} {i : Nat} : Packs pairs ms w → i < ms.length →
      SRuns pairs ([packing ms i], w) (ts, w') → Packs pairs ms w'

end Pyof.Threads
