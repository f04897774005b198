import Verif.Model.Variant
/-!
# Structures that store their own size in a `length` attribute before packing
-/
namespace Pyof

/-- `self.length = self.get_size()`; `i` is the position of `length`. -/
def withLength (fields : Fields) (i : Nat) (vs : List Val) : Res (List Val) :=
  match sizeAttrs fields vs with
  | .error e => .error e
  | .ok n => .ok (vs.set i (.int n))

/-- `update_length` followed by `GenericStruct.pack`. -/
def autoPack (fields : Fields) (i : Nat) (vs : List Val) : Res Bytes :=
  match withLength fields i vs with
  | .error e => .error e
  | .ok ws => packAttrs fields ws

/-- The attributes after a successful pack. -/
def autoPost (fields : Fields) (i : Nat) (vs : List Val) : List Val :=
  match withLength fields i vs with
  | .error _ => vs
  | .ok ws => postAttrs fields ws

/-- A class of a family (`Instruction`, `Property`) that updates its length. -/
def autoSub (name : String) (fields : Fields) (i : Nat) : Sub where
  name := name
  fields := fields
  pack := autoPack fields i
  post := autoPost fields i

/-- A single class that updates its length. -/
def autoStruct (cls : String) (fields : Fields) (i : Nat) (init : List Val) : Attr :=
  { structAttr cls fields init with
    pack := fun v =>
      match v with
      | .none => autoPack fields i init
      | .obj c vs => if c = cls then autoPack fields i vs else .error .pack
      | _ => .error .pack
    post := fun v =>
      match v with
      | .obj c vs => if c = cls then .obj c (autoPost fields i vs) else v
      | v => v }

/-- `ceil(n / 8) * 8` -/
def ceil8 (n : Nat) : Nat := (n + 7) / 8 * 8

/-- `packet += Pad(padding_bytes).pack()` if there is anything to fill up. -/
def fill (n : Nat) (p : Bytes) : Bytes := p ++ List.replicate (n - p.length) 0

end Pyof
