import Verif.Model.Basic
/-!
# `GenericStruct`, `GenericMessage` (`pyof/foundation/base.py`) and `TypeList`/`FixedTypeList`
(`pyof/foundation/basic_types.py`)

A struct class is a list of named attributes in declaration order
(`GenericStruct.get_class_attributes`, base.py:567-593).
-/
namespace Pyof

abbrev Fields := List (String × Attr)

/-- The loop of GenericStruct.pack (base.py:704-714): concatenate `class_value.pack(instance_value)` over the
zip of class attributes and instance values (base.py:629-643).  A `PackException` is re-raised as a
`PackException`; any other exception propagates. -/
def packAttrs : Fields → List Val → Res Bytes
  | (_, c) :: fs, v :: vs =>
    match c.pack v with
    | .error e => .error e
    | .ok b =>
      match packAttrs fs vs with
      | .error e => .error e
      | .ok r => .ok (b ++ r)
  | _, _ => .ok []

/-- GenericStruct.get_size (base.py:677-679): the sum of `cls_val.get_size(obj_val)`. -/
def sizeAttrs : Fields → List Val → Res Nat
  | (_, c) :: fs, v :: vs =>
    match c.size v with
    | .error e => .error e
    | .ok n =>
      match sizeAttrs fs vs with
      | .error e => .error e
      | .ok r => .ok (n + r)
  | _, _ => .ok 0

/-- GenericStruct._unpack_attribute (base.py:645-658): the new attribute and its size.  An empty
buffer leaves the copy of the class attribute. -/
def unpackAttr (c : Attr) (buff : Bytes) (begin : Nat) : Res (Val × Nat) :=
  if buff = [] then .ok (c.proto, 0)
  else
    match c.unpack buff begin with
    | .error e => .error e
    | .ok v =>
      match c.usize v with
      | .error e => .error e
      | .ok n => .ok (v, n)

/-- GenericStruct.unpack (base.py:730-733): the attribute values, and where the struct ends. -/
def unpackAttrs : Fields → Bytes → Nat → Res (List Val × Nat)
  | [], _, begin => .ok ([], begin)
  | (_, c) :: fs, buff, begin =>
    match unpackAttr c buff begin with
    | .error e => .error e
    | .ok (v, n) =>
      match unpackAttrs fs buff (begin + n) with
      | .error e => .error e
      | .ok (vs, e) => .ok (v :: vs, e)

/-- The attributes after a successful pack. -/
def postAttrs : Fields → List Val → List Val
  | (_, c) :: fs, v :: vs => c.post v :: postAttrs fs vs
  | _, vs => vs

/-- A class attribute holding an instance of a plain `GenericStruct` class (no overridden methods).
`isinstance` is an exact class match: instances of subclasses are not modelled here. `init` are the attribute values
set by the constructor call without arguments in the class body.  base.py:677-683, 699-718, 720-733. -/
def structAttr (cls : String) (fields : Fields) (init : List Val) : Attr where
  proto := .obj cls init
  pack := fun v =>
    match v with
    | .none => packAttrs fields init
    | .obj c vs => if c = cls then packAttrs fields vs else .error .pack
    | _ => .error .pack
  size := fun v =>
    match v with
    | .none => sizeAttrs fields init
    | .obj c vs => if c = cls then sizeAttrs fields vs else .error .pack
    | _ => .error .pack
  unpack := fun buff offset =>
    match unpackAttrs fields buff offset with
    | .error e => .error e
    | .ok (vs, _) => .ok (.obj cls vs)
  usize := fun v =>
    match v with
    | .obj c vs => if c = cls then sizeAttrs fields vs else .error .pack
    | _ => .error .pack
  post := fun v =>
    match v with
    | .obj c vs => if c = cls then .obj c (postAttrs fields vs) else v
    | v => v

/-! ## Lists -/

mutual
/-- FixedTypeList.append (basic_types.py:757-775): a list argument is extended item by item. -/
def addItem (isItem : Val → Bool) : Val → Res (List Val)
  | .list _ xs => addItems isItem xs
  | v => if isItem v then .ok [v] else .error .wrongItem
/-- TypeList.extend (basic_types.py:647-659). -/
def addItems (isItem : Val → Bool) : List Val → Res (List Val)
  | [] => .ok []
  | x :: xs =>
    match addItem isItem x with
    | .error e => .error e
    | .ok a =>
      match addItems isItem xs with
      | .error e => .error e
      | .ok r => .ok (a ++ r)
end

/-- `for item in value: bin_message += item.pack()` (basic_types.py:678-685). -/
def packItems (it : Attr) : List Val → Res Bytes
  | [] => .ok []
  | x :: xs =>
    match it.pack x with
    | .error e => .error e
    | .ok b =>
      match packItems it xs with
      | .error e => .error e
      | .ok r => .ok (b ++ r)

/-- `sum(item.get_size() for item in self)` (basic_types.py:727-728). -/
def sizeItems (it : Attr) : List Val → Res Nat
  | [] => .ok 0
  | x :: xs =>
    match it.usize x with
    | .error e => .error e
    | .ok n =>
      match sizeItems it xs with
      | .error e => .error e
      | .ok r => .ok (n + r)

/-- TypeList.unpack (basic_types.py:688-703).  An item of size zero makes the `while` loop repeat
forever: `begin` does not change and the next item decodes the same bytes. -/
def unpackItems (it : Attr) (buff : Bytes) (begin : Nat) : Res (List Val) :=
  if begin < buff.length then
    match it.unpack buff begin with
    | .error e => .error e
    | .ok u =>
      match it.usize u with
      | .error e => .error e
      | .ok n =>
        if n = 0 then .error .diverges
        else
          match unpackItems it buff (begin + n) with
          | .error e => .error e
          | .ok r => .ok (u :: r)
  else .ok []
termination_by buff.length - begin
decreasing_by omega

/-- A class attribute holding an (empty) instance of a `ListOf...` class: a subclass of `FixedTypeList` whose
constructor takes `items=None`.  Items are struct instances.
* pack: basic_types.py:661-685 (`value` is copied into a new container with type checks);
* get_size: lines 706-730 (`type(self)(value).get_size()`; a single item is accepted here, line 644);
* unpack: lines 796-807.
Simplification: a list of the very same class is packed without checking its items again (line 670); here they are checked too.
That differs only for a list into which unchecked `list` operations (`l[i] = x`, C16) put objects of other classes. -/
def listAttr (isItem : Val → Bool) (it : Attr) : Attr where
  proto := .list true []
  pack := fun v =>
    match v with
    | .none => .ok []
    | .list _ xs =>
      match addItems isItem xs with
      | .error e => .error e
      | .ok ys => packItems it ys
    | .bytes [] => .ok []
    | .str [] => .ok []
    | .bytes _ | .str _ => .error .wrongItem
    | _ => .error .type
  size := fun v =>
    match v with
    | .none => .ok 0
    | .list _ xs =>
      match addItems isItem xs with
      | .error e => .error e
      | .ok ys => sizeItems it ys
    | v => if pyTrue v then (if isItem v then it.usize v else .error .wrongItem) else .ok 0
  unpack := fun buff offset =>
    match unpackItems it buff offset with
    | .error e => .error e
    | .ok xs => .ok (.list true xs)
  usize := fun v =>
    match v with
    | .list _ xs => sizeItems it xs
    | _ => .error .unmodelled
  post := fun v =>
    match v with
    | .list f xs => .list f (xs.map it.post)
    | v => v

/-- A class attribute holding a bare `FixedTypeList(X)` (Bucket.actions, MeterMod.bands,
GroupDescStats.buckets).  `type(self)(items=None)` lacks the positional `pyof_class`
(basic_types.py:674: `TypeError`), and `type(self)(value)` (line 730) takes `value` as the class and is
an empty list of size 0. -/
def bareListAttr (isItem : Val → Bool) (it : Attr) : Attr where
  proto := .list true []
  pack := fun v =>
    match v with
    | .none => .ok []
    | .list true xs => packItems it xs
    | _ => .error .type
  size := fun _ => .ok 0
  unpack := (listAttr isItem it).unpack
  usize := (listAttr isItem it).usize
  post := (listAttr isItem it).post

end Pyof
