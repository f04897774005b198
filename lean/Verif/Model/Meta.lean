import Verif.Model.Py
/-!
# Class creation (`MetaStruct`, pyof/foundation/base.py:273-486)

A class body is its ordered dictionary.  What the metaclass looks at in an attribute object is its class and module and, for a header, its
message type; everything else is the opaque `content`.
-/
namespace Pyof.Meta

/-- An instance of `GenericType` or `GenericStruct` found as a class attribute. -/
structure Obj where
  module : Str
  cls : Str
  /-- `obj.message_type` of a header: the name and value of the enum member, or `None`. -/
  messageType : Option (Str × Nat) := none
  /-- `obj.__class__.message_type.enum_ref` of a header: the members. -/
  types : List (Str × Nat) := []
  content : Nat := 0
deriving DecidableEq, Repr

/-- A value in a class dictionary: a pyof attribute (`_is_pyof_attribute`, lines 540-551) or anything else. -/
inductive Item
  | attr (o : Obj)
  | other
deriving DecidableEq, Repr

abbrev ClassDict := List (Str × Item)

/-- `d[name] = x` for an ordered dictionary: a key that is there keeps its place. -/
def assign : ClassDict → Str → Item → ClassDict
  | [], n, x => [(n, x)]
  | (m, y) :: r, n, x => if m = n then (m, x) :: r else (m, y) :: assign r n x

/-- `d.update(e)` -/
def update (d e : ClassDict) : ClassDict := e.foldl (fun d p => assign d p.1 p.2) d

/-- `d.pop(name, None)` -/
def pop (d : ClassDict) (n : Str) : ClassDict := d.filter (fun p => p.1 ≠ n)

/-- GenericStruct.get_class_attributes (lines 564-590). -/
def classAttributes (d : ClassDict) : List (Str × Obj) :=
  d.filterMap fun p => match p.2 with | .attr o => some (p.1, o) | .other => none

/-! ## Module names -/

/-- `re.match(r'(pyof\.)(v0x\d+)(\..*)', name)`, group 2 (get_pyof_version, lines 375-393).  `\d` is restricted to ASCII digits.  The digits
cannot be matched in part, as a dot has to follow. -/
def getPyofVersion (name : Str) : Option Str :=
  match name with
  | 'p' :: 'y' :: 'o' :: 'f' :: '.' :: 'v' :: '0' :: 'x' :: r =>
    let digits := r.takeWhile Char.isDigit
    if digits = [] then none
    else match r.dropWhile Char.isDigit with
      | '.' :: _ => some ('v' :: '0' :: 'x' :: digits)
      | _ => none
  | _ => none

/-- `s.replace(old, new)` for a non-empty `old`: all occurrences, from the left, without overlap. -/
def replaceAll (old new : Str) (s : Str) : Str :=
  match s with
  | [] => []
  | c :: r => if old ≠ [] ∧ old.isPrefixOf (c :: r) then new ++ replaceAll old new ((c :: r).drop old.length) else c :: replaceAll old new r
termination_by s.length
decreasing_by
  · rename_i h
    have : 0 < old.length := List.length_pos_iff.2 h.1
    simp only [List.length_drop, List.length_cons]; omega
  · simp

/-- replace_pyof_version (lines 396-420). -/
def replacePyofVersion (name version : Str) : Option Str :=
  match getPyofVersion name with
  | none => none
  | some v => if v = version then none else some (replaceAll v version name)

/-! ## Attributes -/

/-- `import_module(module)`, `getattr(module, cls)` and the call of the class: an instance or an exception. -/
abbrev Load := Str → Str → Res Obj

/-- get_pyof_obj_new_version (lines 423-486). -/
def newVersion (load : Load) (o : Obj) (version : Option Str) : Res Obj :=
  match version with
  | none => .ok o
  | some v =>
    match replacePyofVersion o.module v with
    | some m => load m o.cls
    | none => .ok o

/-- _header_message_type_update (lines 356-372): `if old_enum` is false for `None` and for the member with value 0. -/
def headerUpdate (old new : Obj) : Res Obj :=
  match old.messageType with
  | none => .ok new
  | some (name, value) =>
    if value = 0 then .ok new
    else match new.types.lookup name with
      | some value' => .ok { new with messageType := some (name, value') }
      | none => .error .key

/-- One pass of the loop of lines 328-338. -/
def inherit (load : Load) (version : Option Str) (name : Str) (o : Obj) : Res Obj :=
  match newVersion load o version with
  | .error e => .error e
  | .ok o' => if name = "header".toList then headerUpdate o o' else .ok o'

/-- The loop of lines 328-338. -/
def inheritAll (load : Load) (version : Option Str) : List (Str × Obj) → ClassDict → Res ClassDict
  | [], d => .ok d
  | (n, o) :: r, d =>
    match inherit load version n o with
    | .error e => .error e
    | .ok o' => inheritAll load version r (assign d n (.attr o'))

/-- MetaStruct.__new__ (lines 287-353): the dictionary of the new class.  A base is the dictionary of a class of this metaclass, or
something else (`none`). -/
def newClass (load : Load) (module : Str) (bases : List (Option ClassDict)) (removed : List Str) (body : ClassDict) : Res ClassDict :=
  match bases.findSome? id with
  | none => .ok body
  | some base =>
    match inheritAll load (getPyofVersion module) (classAttributes base) [] with
    | .error e => .error e
    | .ok d => .ok (update (removed.foldl pop d) body)

end Pyof.Meta
