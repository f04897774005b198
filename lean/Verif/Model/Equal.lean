import Verif.Model.Libs
/-!
# Equality of structs and messages (`GenericStruct.__eq__`, base.py:505-519)
-/
namespace Pyof

/-- `a == b` for a message `a` (lines 505-519): `self.pack() == other.pack()`.  Other objects with a `pack` method than messages are not
modelled; objects without one are an `AttributeError`. -/
def pyMsgEq (libs : List Lib) (a b : Val) : Res Bool :=
  match pyPack libs a with
  | .error e => .error e
  | .ok p =>
    match b with
    | .obj _ _ =>
      match pyPack libs b with
      | .error e => .error e
      | .ok q => .ok (p == q)
    | .none | .int _ | .enum _ | .mask _ | .str _ | .bytes _ | .list false _ => .error .attribute
    | _ => .error .unmodelled

/-- `a != b`: Python's default inverts `__eq__`. -/
def pyMsgNe (libs : List Lib) (a b : Val) : Res Bool :=
  match pyMsgEq libs a b with
  | .ok r => .ok (!r)
  | .error e => .error e

end Pyof
