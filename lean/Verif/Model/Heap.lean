import Verif.Model.Py
/-!
# Objects and references (`GenericStruct.__init__`, `_unpack_attribute`, `__deepcopy__`)

The rest of the model treats objects as values.  This file models which Python objects are created, shared and changed when
instances are constructed and decoded, so that C50 can say that instances do not share state.  An object is a node of a heap; what an
attribute object holds besides references is an immutable value.  The decoded content itself is an argument here (`Dec`); how it follows
from the bytes is described in the other files.
-/
namespace Pyof.Mem

/-- Addresses of objects. -/
scoped notation "Addr" => Nat

/-- What a name (or a list position) refers to: an immutable Python value, or an object. -/
inductive Slot
  | prim (v : Val)
  | ref (a : Addr)
deriving DecidableEq, Repr

/-- * `basic`: a `GenericType` object; all of them have a `__deepcopy__` that makes a new object around the same value (base.py:61-63,
  basic_types.py:75-77, 189-191, 255-257, 348-350, 456-458, 550-552, 627-629);
* `struct`: a `GenericStruct` object, which `deepcopy` copies attribute by attribute;
* `list item`: a `FixedTypeList` of the class `item`, whose `__deepcopy__` copies the items (basic_types.py:809-812). -/
inductive Kind
  | basic
  | struct (cls : String)
  | list (item : String)
deriving DecidableEq, Repr

structure Node where
  kind : Kind
  slots : List (String × Slot)
deriving DecidableEq, Repr

/-- Objects are numbered in the order of their creation. -/
abbrev Heap := List Node

/-- The class attributes of the struct classes: name and the prototype object, in order (base.py:567-593). -/
abbrev Classes := String → Option (List (String × Addr))

/-- `object.__setattr__`: an existing name keeps its position. -/
def setSlot (ss : List (String × Slot)) (name : String) (s : Slot) : List (String × Slot) :=
  match ss with
  | [] => [(name, s)]
  | (n, t) :: r => if n = name then (n, s) :: r else (n, t) :: setSlot r name s

def write (h : Heap) (a : Addr) (name : String) (s : Slot) : Heap :=
  h.modify a fun n => { n with slots := setSlot n.slots name s }

/-- `list.append(self, item)` -/
def append (h : Heap) (a : Addr) (s : Slot) : Heap :=
  h.modify a fun n => { n with slots := n.slots ++ [("", s)] }

/-- Copy a sequence of slots from left to right; `none` is an exception. -/
def copySlots (cp : Heap → Addr → Heap × Option Addr) : Heap → List (String × Slot) → Heap × Option (List (String × Slot))
  | h, [] => (h, some [])
  | h, (n, .prim v) :: r =>
    match copySlots cp h r with
    | (h, some ss) => (h, some ((n, .prim v) :: ss))
    | (h, none) => (h, none)
  | h, (n, .ref a) :: r =>
    match cp h a with
    | (h, none) => (h, none)
    | (h, some b) =>
      match copySlots cp h r with
      | (h, some ss) => (h, some ((n, .ref b) :: ss))
      | (h, none) => (h, none)

/-- `deepcopy(x)`.  `fuel` is the recursion depth, `RecursionError` if it is exceeded.  Simplification: objects that occur several times
inside `x` are copied several times (the library's class attributes are trees). -/
def deepcopy : Nat → Heap → Addr → Heap × Option Addr
  | 0, h, _ => (h, none)
  | fuel + 1, h, a =>
    match h[a]? with
    | none => (h, none)
    | some n =>
      match n.kind with
      | .basic => (h ++ [n], some h.length)
      | _ =>
        match copySlots (deepcopy fuel) h n.slots with
        | (h, none) => (h, none)
        | (h, some ss) => (h ++ [{ n with slots := ss }], some h.length)

/-- The `memo` of `copy.deepcopy`: which objects have been copied already. -/
abbrev Memo := List (Addr × Addr)

/-- Copy a sequence of slots from left to right. -/
def copyAll (cp : Memo → Heap → Addr → Option (Memo × Heap × Addr)) :
    Memo → Heap → List (String × Slot) → Option (Memo × Heap × List (String × Slot))
  | m, h, [] => some (m, h, [])
  | m, h, (n, .prim v) :: r =>
    match copyAll cp m h r with
    | none => none
    | some (m, h, ss) => some (m, h, (n, .prim v) :: ss)
  | m, h, (n, .ref a) :: r =>
    match cp m h a with
    | none => none
    | some (m, h, b) =>
      match copyAll cp m h r with
      | none => none
      | some (m, h, ss) => some (m, h, (n, .ref b) :: ss)

/-- `copy.deepcopy(x, memo)` for an object of the program.  Basic objects have their own `__deepcopy__`, which does not copy what they hold;
a struct has none, so that `copy._reconstruct` makes the new object, enters it in the memo and then copies the attributes with the
same memo; a list copies its items with a new memo each (basic_types.py:809-812).  `none` is an exception (`RecursionError`); the objects made before it
cannot be reached and are left out.  Simplification: the type check of the items by the new list, which can only raise, is left out. -/
def copyObj : Nat → Memo → Heap → Addr → Option (Memo × Heap × Addr)
  | 0, _, _, _ => none
  | fuel + 1, m, h, a =>
    match m.lookup a with
    | some b => some (m, h, b)
    | none =>
      match h[a]? with
      | none => none
      | some n =>
        match n.kind with
        | .basic => some ((a, h.length) :: m, h ++ [n], h.length)
        | .struct _ =>
          match copyAll (copyObj fuel) ((a, h.length) :: m) (h ++ [{ n with slots := [] }]) n.slots with
          | none => none
          | some (m, h', ss) => some (m, h'.modify h.length fun n => { n with slots := ss }, h.length)
        | .list _ =>
          match copyAll (fun m h a => (copyObj fuel [] h a).map fun r => (m, r.2)) m h n.slots with
          | none => none
          | some (m, h, ss) => some ((a, h.length) :: m, h ++ [{ n with slots := ss }], h.length)

/-- The loop of GenericStruct.__init__ (base.py:502-503) on the object `self`. -/
def initAttrs (fuel : Nat) (self : Addr) : Heap → List (String × Addr) → Heap × Bool
  | h, [] => (h, true)
  | h, (name, c) :: r =>
    match deepcopy fuel h c with
    | (h, none) => (h, false)
    | (h, some b) => initAttrs fuel self (write h self name (.ref b)) r

/-- `cls()`: a new object and GenericStruct.__init__ (base.py:500-503). -/
def construct (cs : Classes) (fuel : Nat) (h : Heap) (cls : String) : Heap × Option Addr :=
  match cs cls with
  | none => (h, none)
  | some attrs =>
    match initAttrs fuel h.length (h ++ [⟨.struct cls, []⟩]) attrs with
    | (h', true) => (h', some h.length)
    | (h', false) => (h', none)

/-- The arguments of a constructor, assigned after GenericStruct.__init__ (for example stats.py `self.match = match`). -/
def assignAll (self : Addr) : Heap → List (String × Slot) → Heap
  | h, [] => h
  | h, (n, s) :: r => assignAll self (write h self n s) r

/-- `cls(**args)`, where the arguments left out are the objects of the parameter defaults. -/
def create (cs : Classes) (fuel : Nat) (h : Heap) (cls : String) (args : List (String × Slot)) : Heap × Option Addr :=
  match construct cs fuel h cls with
  | (h, none) => (h, none)
  | (h, some a) => (assignAll a h args, some a)

/-- What a buffer decodes to. -/
inductive Dec
  | value (v : Val)
  | parts (ds : List Dec)
  | fail

/-- The loop of GenericStruct.unpack (base.py:730-733) with `_unpack_attribute` (645-658): copy the class attribute, assign the copy, decode
into the copy. `un` is `attribute.unpack`; `false` means that an exception was raised. -/
def unpackAttrs (fuel : Nat) (un : Heap → Addr → Dec → Heap × Bool) (self : Addr) : Heap → List (String × Addr) → List Dec → Heap × Bool
  | h, (name, c) :: r, d :: ds =>
    match deepcopy fuel h c with
    | (h, none) => (h, false)
    | (h, some b) =>
      match un (write h self name (.ref b)) b d with
      | (h, false) => (h, false)
      | (h, true) => unpackAttrs fuel un self h r ds
  | h, [], _ => (h, true)
  | h, _ :: _, [] => (h, false)

/-- The loop of TypeList.unpack (basic_types.py:688-703): `item = item_class(); item.unpack(buff, begin); self.append(item)`. -/
def unpackItems (mk : Heap → Heap × Option Addr) (un : Heap → Addr → Dec → Heap × Bool) (self : Addr) : Heap → List Dec → Heap × Bool
  | h, [] => (h, true)
  | h, d :: ds =>
    match mk h with
    | (h, none) => (h, false)
    | (h, some b) =>
      match un h b d with
      | (h, false) => (h, false)
      | (h, true) => unpackItems mk un self (append h self (.ref b)) ds

/-- `x.unpack(...)` in place. -/
def unpack (cs : Classes) : Nat → Heap → Addr → Dec → Heap × Bool
  | 0, h, _, _ => (h, false)
  | fuel + 1, h, a, d =>
    match h[a]?, d with
    | some ⟨.basic, _⟩, .value v => (write h a "_value" (.prim v), true)
    | some ⟨.struct cls, _⟩, .parts ds =>
      (match cs cls with
      | none => (h, false)
      | some attrs => unpackAttrs fuel (unpack cs fuel) a h attrs ds)
    | some ⟨.list item, _⟩, .parts ds => unpackItems (fun h => construct cs fuel h item) (unpack cs fuel) a h ds
    | _, _ => (h, false)

end Pyof.Mem
