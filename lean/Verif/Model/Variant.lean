import Verif.Model.Struct
/-!
# Structures whose class is chosen while decoding

`ActionHeader.unpack` (v0x01 and v0x04), `Instruction.unpack`, `Property.unpack`, `MeterBandHeader.unpack` read a
16-bit type, change the class of the object (`self.__class__ = cls`) and then decode all attributes of that class.
-/
namespace Pyof

/-- A concrete class of such a family: its attributes and its own `pack`, `get_size`, and effect of `pack`. -/
structure Sub where
  name : String
  fields : Fields
  pack : List Val → Res Bytes := packAttrs fields
  size : List Val → Res Nat := sizeAttrs fields
  post : List Val → List Val := postAttrs fields

/-- A class without overridden methods. -/
def plainSub (name : String) (fields : Fields) : Sub := { name := name, fields := fields }

/-- The number held by a just unpacked `UBInt16`. -/
def gotNum : Val → Nat
  | .ub _ (.int i) => i.toNat
  | .ub _ (.enum i) => i.toNat
  | .ub _ (.mask i) => i.toNat
  | _ => 0

/-- Read the type at `offset` (checked against `ref`) and choose the class; with `trunc`, read the length at
`offset + 2` and cut the buffer at `offset + length`; then decode every attribute of the class.  (The two
`ActionHeader` classes read the length before choosing the class; since choosing cannot fail there, the order does not
matter.) -/
def variantUnpack (ref : Ref) (trunc : Bool) (pick : Nat → Res Sub) (buff : Bytes) (offset : Nat) : Res Val :=
  match ubUnpack 2 ref buff offset with
  | .error e => .error e
  | .ok t =>
    match pick (gotNum t) with
    | .error e => .error e
    | .ok s =>
      match (if trunc then ubUnpack 2 .none buff (offset + 2) else .ok (.ub 2 (.int 0))) with
      | .error e => .error e
      | .ok n =>
        match unpackAttrs s.fields (if trunc then buff.take (offset + gotNum n) else buff) offset with
        | .error e => .error e
        | .ok (vs, _) => .ok (.obj s.name vs)

/-- A struct whose `unpack` first reads a two-byte length at `offset + k` and only looks at `buff[:offset+length]`. -/
def lengthCut (k : Nat) (c : Attr) : Attr :=
  { c with
    unpack := fun buff offset =>
      match ubUnpack 2 .none buff (offset + k) with
      | .error e => .error e
      | .ok n => c.unpack (buff.take (offset + gotNum n)) offset }

/-- The class object of an instance. -/
def subOf (subs : List Sub) (c : String) : Option Sub := subs.find? (fun s => s.name == c)

def isSub (subs : List Sub) : Val → Bool
  | .obj c _ => (subOf subs c).isSome
  | _ => false

/-- The items of a list of such objects: each item packs itself by the methods of its own class. -/
def variantAttr (proto : Val) (ref : Ref) (trunc : Bool) (pick : Nat → Res Sub) (subs : List Sub) : Attr where
  proto := proto
  pack := fun v =>
    match v with
    | .obj c vs => (match subOf subs c with | some s => s.pack vs | none => .error .unmodelled)
    | _ => .error .unmodelled
  size := fun v =>
    match v with
    | .obj c vs => (match subOf subs c with | some s => s.size vs | none => .error .unmodelled)
    | _ => .error .unmodelled
  unpack := variantUnpack ref trunc pick
  usize := fun v =>
    match v with
    | .obj c vs => (match subOf subs c with | some s => s.size vs | none => .error .unmodelled)
    | _ => .error .unmodelled
  post := fun v =>
    match v with
    | .obj c vs => (match subOf subs c with | some s => .obj c (s.post vs) | none => v)
    | v => v

end Pyof
