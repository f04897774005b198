import Verif.Model.Heap
/-!
# What it means that instances do not share state
-/
namespace Pyof.Mem

/-- The objects a node refers to. -/
def Node.refs (n : Node) : List Addr := n.slots.filterMap fun p => match p.2 with | .ref a => some a | .prim _ => none

/-- `b` can be reached from `a` by attribute accesses and list positions. -/
inductive Reach (h : Heap) : Addr → Addr → Prop
  | refl (a : Addr) : Reach h a a
  | step {a b c : Addr} {n : Node} : Reach h a b → h[b]? = some n → c ∈ n.refs → Reach h a c

/-- The content of an object down to a depth: the tree of values below it, without addresses. -/
inductive Tree
  | leaf (v : Val)
  | cut
  | node (kind : Kind) (slots : List (String × Tree))

def view (h : Heap) : Nat → Addr → Tree
  | 0, _ => .cut
  | d + 1, a =>
    match h[a]? with
    | none => .cut
    | some n => .node n.kind (n.slots.map fun p => (p.1, match p.2 with | .prim v => .leaf v | .ref b => view h d b))

/-- `getattr(a, name)`, where `a` is an object -/
def get (h : Heap) (a : Addr) (name : String) : Option Slot :=
  match h[a]? with
  | none => none
  | some n => (n.slots.find? fun p => p.1 = name).map (·.2)

/-- The heap after importing the library: objects `0 .. k-1` are the class attributes and what belongs to them.  They refer only to each other,
`GenericType` objects hold immutable values, and the class table lists such objects. -/
structure Library (cs : Classes) (k : Nat) (h : Heap) : Prop where
  size : k ≤ h.length
  closed : ∀ a n, a < k → h[a]? = some n → ∀ b ∈ n.refs, b < k
  basic : ∀ a n, a < k → h[a]? = some n → n.kind = .basic → n.refs = []
  attrs : ∀ c attrs, cs c = some attrs → ∀ p ∈ attrs, p.2 < k
  names : ∀ c attrs, cs c = some attrs → (attrs.map (·.1)).Nodup

/-- The operations on the instance `i`:
* decode into an object that can be reached from the instance, whether this succeeds or raises;
* assign an immutable value to an attribute of such an object;
* assign one object of the instance to an attribute of another one, or append it. -/
inductive Op (cs : Classes) (h : Heap) (i : Addr) : Heap → Prop
  | unpack {a : Addr} {fuel : Nat} {d : Dec} : Reach h i a → Op cs h i (unpack cs fuel h a d).1
  | set {a : Addr} {name : String} {v : Val} : Reach h i a → Op cs h i (write h a name (.prim v))
  | link {a b : Addr} {name : String} : Reach h i a → Reach h i b → Op cs h i (write h a name (.ref b))
  | append {a b : Addr} : Reach h i a → Reach h i b → Op cs h i (append h a (.ref b))

/-- The basic objects that can be reached from `a` hold immutable values. -/
def Plain (h : Heap) (a : Addr) : Prop := ∀ b n, Reach h a b → h[b]? = some n → n.kind = .basic → n.refs = []

/-- No chain of attributes and list positions that starts at `a` meets more than `d` objects, so that there are no cycles. -/
def Shallow (h : Heap) : Nat → Addr → Prop
  | 0, _ => False
  | d + 1, a => ∃ n, h[a]? = some n ∧ ∀ b ∈ n.refs, Shallow h d b

instance decShallow (h : Heap) : ∀ d a, Decidable (Shallow h d a)
  | 0, _ => isFalse id
  | d + 1, a =>
    match hn : h[a]? with
    | none => isFalse fun ⟨n, h1, _⟩ => by rw [hn] at h1; cases h1
    | some n =>
      have := decShallow h d
      if hb : ∀ b ∈ n.refs, Shallow h d b then isTrue ⟨n, hn, hb⟩
      else isFalse fun ⟨n', h1, h2⟩ => by rw [hn] at h1; cases h1; exact hb h2

/-- One step of a program that has made the instances `insts`.  The third argument lists the instances which the step names.  The program may
* construct an instance, giving immutable values as arguments; this may also raise;
* perform an operation on an instance;
* make a deep copy of an instance or of a part of it, which is then an instance of its own;
* hand one instance over to another one by assigning it to an attribute or appending it; from then on it is a part of the other instance. -/
inductive Step (cs : Classes) : Heap → List Addr → List Addr → Heap → List Addr → Prop
  | create {h insts fuel cls args h' a} : (∀ p ∈ args, ∃ v, p.2 = .prim v) → create cs fuel h cls args = (h', some a) →
      Step cs h insts [] h' (a :: insts)
  | failed {h insts fuel cls args h'} : (∀ p ∈ args, ∃ v, p.2 = .prim v) → Mem.create cs fuel h cls args = (h', none) →
      Step cs h insts [] h' insts
  | op {h insts i h'} : i ∈ insts → Op cs h i h' → Step cs h insts [i] h' insts
  | copy {h insts i a fuel m h' j} : i ∈ insts → Reach h i a → Plain h a → copyObj fuel [] h a = some (m, h', j) →
      Step cs h insts [] h' (j :: insts)
  | give {h insts i j a name} : i ∈ insts → j ∈ insts → j ≠ i → Reach h i a →
      Step cs h insts [i, j] (write h a name (.ref j)) (insts.filter (· ≠ j))
  | giveItem {h insts i j a} : i ∈ insts → j ∈ insts → j ≠ i → Reach h i a →
      Step cs h insts [i, j] (append h a (.ref j)) (insts.filter (· ≠ j))

/-- The states of a program after importing the library, with the instances it has made. -/
inductive Hist (cs : Classes) (h0 : Heap) : Heap → List Addr → Prop
  | start : Hist cs h0 h0 []
  | step {h insts t h' insts'} : Hist cs h0 h insts → Step cs h insts t h' insts' → Hist cs h0 h' insts'

/-- A continuation of a program in which no step names the instance `j`. -/
inductive Without (cs : Classes) (j : Addr) (h : Heap) (insts : List Addr) : Heap → List Addr → Prop
  | refl : Without cs j h insts h insts
  | step {h1 insts1 t h2 insts2} : Without cs j h insts h1 insts1 → Step cs h1 insts1 t h2 insts2 → j ∉ t → Without cs j h insts h2 insts2

end Pyof.Mem
