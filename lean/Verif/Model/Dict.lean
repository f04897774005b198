import Verif.Model.Struct
/-!
# Instance dictionaries (`pyof/foundation/base.py`)

The values of a struct instance live in its `__dict__`, which keeps insertion order.  The rest of the
model represents an instance positionally (`Val.obj cls vals`); this file models the dictionary and how
`pack`/`get_size` pair it with the class attributes, so that theorem C10 can show the two agree.
-/
namespace Pyof

/-- An instance `__dict__`: keys in insertion order. -/
abbrev Dict := List (String × Val)

/-- `setattr(self, name, value)` on a plain object: an existing key keeps its position, a new key goes last. -/
def Dict.set (d : Dict) (name : String) (v : Val) : Dict :=
  match d with
  | [] => [(name, v)]
  | (k, w) :: r => if k = name then (k, v) :: r else (k, w) :: Dict.set r name v

/-- GenericStruct.__init__ (base.py:500-503): store a copy of every class attribute, in class order, in the
still empty dictionary. -/
def newInstance (fields : Fields) : Dict :=
  fields.foldl (fun d p => d.set p.1 p.2.proto) []

/-- `_get_instance_attributes` (base.py:595-610): the dictionary entries whose key is a class attribute. -/
def instanceAttrs (fields : Fields) (d : Dict) : List (String × Val) :=
  d.filter fun p => p.1 ∈ fields.map (·.1)

/-- `GenericStruct.pack` (base.py:699-714) on a dictionary instance: `_get_named_attributes` (629-643) zips
class attributes with instance attributes, by position. -/
def packInstance (fields : Fields) (d : Dict) : Res Bytes :=
  packAttrs fields ((instanceAttrs fields d).map (·.2))

/-- `GenericStruct.get_size` (base.py:677-679) on a dictionary instance. -/
def sizeInstance (fields : Fields) (d : Dict) : Res Nat :=
  sizeAttrs fields ((instanceAttrs fields d).map (·.2))

/-- A history of `setattr` calls. -/
def runSets (d : Dict) (ops : List (String × Val)) : Dict :=
  ops.foldl (fun d p => d.set p.1 p.2) d

end Pyof
