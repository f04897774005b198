import Verif.Model.Py
/-!
# Specification: which values count as false
-/
namespace Pyof.Spec

/-- A `BinaryData` value without bytes. -/
inductive NoData : Val → Prop
  | none : NoData .none
  | bytes : NoData (.bytes [])
  | list : NoData (.list true [])
  | object {b} : NoData (.foreign b 0)
  | bin {x} : NoData x → NoData (.bin x)

/-- The values that count as false in Python: `None`, zero, and what has no items or bytes.  All other objects are true. -/
inductive Falsy : Val → Prop
  | none : Falsy .none
  | zero : Falsy (.int 0)
  | enumZero : Falsy (.enum 0)
  | str : Falsy (.str [])
  | bytes : Falsy (.bytes [])
  | list {t} : Falsy (.list t [])
  | bin {x} : NoData x → Falsy (.bin x)
  | pad : Falsy (.pad 0)
  | chr {x} : Falsy (.chr x 0)

end Pyof.Spec
