import Verif.Model.Libs
/-!
# The objects whose `get_size()` is right (C08)

`honest v` excludes exactly the listed exceptions; everything else (wrong types, values that do not pack, wrong `length`
attributes, ...) is allowed.
-/
namespace Pyof.Spec

/-- How many bytes a value given to a `BinaryData` attribute stands for. -/
def binLen : Val → Nat
  | .bytes b => b.length
  | .foreign b _ => b.length
  | .bin x => binLen x
  | _ => 0

/-- The lengths of the `Char` attributes of a class, by position. -/
def charLengths (cls : String) : List (Option Nat) :=
  if cls = "01.PhyPort" then [none, none, some 16]
  else if cls = "04.Port" then [none, none, none, none, some 16]
  else if cls = "01.DescStats" ∨ cls = "04.Desc" then [some 256, some 256, some 256, some 32, some 256]
  else if cls = "01.TableStats" then [none, none, some 32]
  else if cls = "04.TableFeatures" then [none, none, none, some 32]
  else []

/-- A `Char` object assigned to such an attribute has the same length as the attribute. -/
def charsFit : List (Option Nat) → List Val → Bool
  | some n :: ns, v :: vs => (match v with | .chr _ m => m == n | _ => true) && charsFit ns vs
  | none :: ns, _ :: vs => charsFit ns vs
  | _, _ => true

/-- The number of attributes of the classes of OpenFlow 1.3 actions. -/
def actionArity : List (String × Nat) :=
  [("04.ActionExperimenter", 4), ("04.ActionGroup", 3), ("04.ActionDecMPLSTTL", 3), ("04.ActionSetMPLSTTL", 4),
   ("04.ActionCopyTTLIn", 3), ("04.ActionCopyTTLOut", 3), ("04.ActionPopVLAN", 3), ("04.ActionPopPBB", 3),
   ("04.ActionDecNWTTL", 3), ("04.ActionSetNWTTL", 4), ("04.ActionOutput", 5), ("04.ActionPopMPLS", 4), ("04.ActionPush", 4),
   ("04.ActionSetQueue", 3), ("04.ActionSetField", 3)]

/-- No list. -/
def notList : Val → Bool
  | .list _ _ => false
  | _ => true

/-- `None` or the empty list. -/
def nothing : Val → Bool
  | .none => true
  | .list _ [] => true
  | _ => false

/-- What the class of an object demands so that its `get_size()` is right. -/
def fits (cls : String) (vs : List Val) : Bool :=
  charsFit (charLengths cls) vs &&
  -- an action has all the attributes of its class
  (match actionArity.lookup cls with | some n => vs.length == n | none => true) &&
  -- a bare action header is padded by `get_size` but not by `pack`
  (cls != "04.ActionHeader") &&
  -- and so is the body of an experimenter action
  (cls != "04.ActionExperimenter" || (vs.drop 3).all (fun v => binLen v % 8 == 0)) &&
  -- the size of a bucket is its `length` attribute, if that is set; otherwise the actions are not counted
  (cls != "04.Bucket" ||
    match vs with
    | [.none, _, _, _, _, acts] => nothing acts
    | [length, _, _, _, _, acts] =>
      (match cmpNum length, acts with
       | some n, .list _ xs =>
         (match packItems V04.action xs with
          | .ok b => n == 16 + b.length
          | .error _ => true)
       | some n, _ => n == 16
       | none, _ => false)
    | _ => false) &&
  -- lists that are never counted
  ((cls != "04.GroupDescStats" && cls != "04.MeterMod") || (match vs with | [_, _, _, _, items] => nothing items | _ => false)) &&
  -- a plain Python list as body has no `get_size` method, nor has one inside a list
  ((cls != "04.MultipartRequest" && cls != "04.MultipartReply") ||
    match vs.getLast? with
    | some (.list g xs) => (g || xs.isEmpty) && xs.all notList
    | _ => true)

mutual
/-- None of the exceptions occurs anywhere in the value, and the objects of other libraries it contains know their
sizes. -/
def honest : Val → Bool
  | .obj c vs => honestAll vs && fits c vs
  | .list _ xs => honestAll xs
  | .bin x => honest x
  | .foreign b n => n == b.length
  | _ => true
def honestAll : List Val → Bool
  | [] => true
  | v :: vs => honest v && honestAll vs
end

end Pyof.Spec
