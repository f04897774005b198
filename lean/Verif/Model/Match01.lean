import Verif.Model.Compare
import Verif.Model.V01
/-!
# Assigning to the fields of a v0x01 `Match` (`pyof/v0x01/common/flow_match.py:100-203`)

The object is the list of its attribute values in class order, `wildcards` first.  An assignment that raises may already have
stored the new value, so the model returns the object together with the exception.
-/
namespace Pyof.V01

/-- What `__setattr__` and `fill_wildcards` do for a field, decided by its class attribute (lines 70-98, 178-203).  `bit` is
`FlowWildCards.OFPFW_<NAME>` as a bit number, `shift` is `OFPFW_NW_SRC_SHIFT` or `OFPFW_NW_DST_SHIFT` (lines 29-58). -/
inductive Slot
  | wild
  | num (w : Nat) (bit : Nat)
  | hw (bit : Nat)
  | ip (shift : Nat)
  | pad
deriving DecidableEq, Repr

/-- The class attributes in order (lines 70-98), with their position. -/
def slot : String → Option (Nat × Slot)
  | "wildcards" => some (0, .wild)
  | "in_port" => some (1, .num 2 0)
  | "dl_src" => some (2, .hw 2)
  | "dl_dst" => some (3, .hw 3)
  | "dl_vlan" => some (4, .num 2 1)
  | "dl_vlan_pcp" => some (5, .num 1 20)
  | "pad1" => some (6, .pad)
  | "dl_type" => some (7, .num 2 4)
  | "nw_tos" => some (8, .num 1 21)
  | "nw_proto" => some (9, .num 1 5)
  | "pad2" => some (10, .pad)
  | "nw_src" => some (11, .ip 8)
  | "nw_dst" => some (12, .ip 14)
  | "tp_src" => some (13, .num 2 6)
  | "tp_dst" => some (14, .num 2 7)
  | _ => none

/-- `str(x)` (line 131): non-negative ints and strings. -/
def strItem : Val → Res Str
  | .int i => if 0 ≤ i then .ok (decStr i.toNat) else .error .unmodelled
  | .str s => .ok s
  | _ => .error .unmodelled

/-- `"{0:0{1}x}".format(x, 2)` (line 138): non-negative ints. -/
def hexItem : Val → Res Str
  | .int i => if 0 ≤ i then .ok (hexFix 2 i.toNat) else .error .unmodelled
  | _ => .error .unmodelled

/-- `str(x) for x in value` (line 131). -/
def strItems : List Val → Res (List Str)
  | [] => .ok []
  | x :: xs =>
    match strItem x with
    | .error e => .error e
    | .ok s =>
      match strItems xs with
      | .error e => .error e
      | .ok r => .ok (s :: r)

/-- `"{0:0{1}x}".format(x, 2) for x in value` (line 138). -/
def hexItems : List Val → Res (List Str)
  | [] => .ok []
  | x :: xs =>
    match hexItem x with
    | .error e => .error e
    | .ok s =>
      match hexItems xs with
      | .error e => .error e
      | .ok r => .ok (s :: r)

/-- Lines 127-140: the value that is stored. -/
def convert (s : Slot) (v : Val) : Res Val :=
  match s with
  | .ip _ =>
    match v with
    | .ip x m => .ok (.ip x m)
    | .list _ xs =>
      (match strItems xs with
      | .error e => .error e
      | .ok ss => ipInit (joinC '.' ss))
    | .str s => ipInit s
    | _ => .error .type
  | .hw _ =>
    match v with
    | .hw x => .ok (.hw x)
    | .list _ xs =>
      (match hexItems xs with
      | .error e => .error e
      | .ok ss => .ok (.hw (.str (joinC ':' ss))))
    | v => .ok (.hw v)
  | _ => .ok v

/-- The number `self.wildcards & ...` works on: an int or a `UBInt`; a `FlowWildCards` object is a `TypeError`.  Negative
wildcards are not modelled. -/
def wildNum (w : Val) : Res Nat :=
  match builtinNum (if (gclass w).isSome then gval w else w) with
  | some i => if 0 ≤ i then .ok i.toNat else .error .unmodelled
  | none => .error .type

/-- `OFPFW_ALL` (line 58). -/
def allBits : Nat := 2 ^ 22 - 1

/-- `isinstance(value, Pad)` -/
def isPad : Val → Bool
  | .pad _ => true
  | _ => false

/-- fill_wildcards (lines 163-203): the new wildcards, from the old ones and the value just stored. The default value compared with
is the class attribute.  A netmask above 32 (which makes the wildcards negative) is not modelled. -/
def fillWildcards (s : Slot) (w v : Val) : Res Val :=
  if isPad v then .ok w
  else
    match s with
    | .wild => .ok w
    | .pad => .error .key
    | .ip shift =>
      match v with
      | .ip _ m =>
        (match wildNum w with
        | .error e => .error e
        | .ok n =>
          if m ≤ 32 then .ok (.int (((n &&& (allBits ^^^ (63 <<< shift))) ||| ((32 - m).toNat <<< shift) : Nat) : Int))
          else .error .unmodelled)
      | _ => .error .unmodelled
    | .num k bit => toggle bit (.ub k (.int 0)) v
    | .hw bit => toggle bit (.hw (.str hwZero)) v
where
  /-- Lines 201-203: `value == default and not (self.wildcards & wildcard) or value != default and (self.wildcards & wildcard)`. -/
  toggle (bit : Nat) (dflt v : Val) : Res Val :=
    match pyEq v dflt with
    | .error e => .error e
    | .ok eq =>
      match (if eq then wildNum w else .ok 0) with
      | .error e => .error e
      | .ok n1 =>
        if eq && (n1 &&& (1 <<< bit) == 0) then flip bit
        else
          match pyNe v dflt with
          | .error e => .error e
          | .ok ne =>
            if ne then
              match wildNum w with
              | .error e => .error e
              | .ok n => if n &&& (1 <<< bit) == 0 then .ok w else flip bit
            else .ok w
  /-- `self.wildcards ^= wildcard` -/
  flip (bit : Nat) : Res Val :=
    match wildNum w with
    | .error e => .error e
    | .ok n => .ok (.int ((n ^^^ (1 <<< bit) : Nat) : Int))

/-- `m.name = v` (lines 125-142): the attributes afterwards, and the exception if one was raised.  A name that is not declared
is an `AttributeError` (other members of the class, such as methods, are not modelled). -/
def matchSet (vs : List Val) (name : String) (v : Val) : List Val × Option Err :=
  match slot name with
  | none => (vs, some .attribute)
  | some (i, s) =>
    match convert s v with
    | .error e => (vs, some e)
    | .ok u =>
      let vs := vs.set i u
      match fillWildcards s (vs.headD .none) u with
      | .error e => (vs, some e)
      | .ok w => (vs.set 0 w, none)

/-- A sequence of assignments, whose exceptions the user catches. -/
def matchRun (vs : List Val) : List (String × Val) → List Val
  | [] => vs
  | (n, v) :: h => matchRun (matchSet vs n v).1 h

/-- `Match()` (lines 121-123 and GenericStruct.__init__, base.py:500-503): the copies of the class attributes are assigned one
after the other to an object without attributes. -/
def matchNew : List Val :=
  matchRun (List.replicate 15 .none) (matchFields.map fun p => (p.1, p.2.proto))

/-- GenericStruct.unpack on a `Match` (base.py:645-658, 730-733): a copy of each class attribute is assigned, which updates the
wildcards, and then decodes itself in place, which does not.  `i` is the position of the first of the remaining attributes. -/
def unpackSteps : Fields → Nat → List Val → Bytes → Nat → Res (List Val × Nat)
  | [], _, vs, _, begin => .ok (vs, begin)
  | (name, c) :: fs, i, vs, buff, begin =>
    match matchSet vs name c.proto with
    | (_, some e) => .error e
    | (vs, none) =>
      match unpackAttr c buff begin with
      | .error e => .error e
      | .ok (u, n) => unpackSteps fs (i + 1) (vs.set i u) buff (begin + n)

/-- Match.unpack (lines 144-161) on an object with attributes `vs`, assignment by assignment. -/
def matchUnpackSteps (vs : List Val) (buff : Bytes) (offset : Nat) : Res Val :=
  match unpackSteps matchFields 0 vs buff offset with
  | .error e => .error e
  | .ok (vs, _) =>
    match ubUnpack 4 .mask buff offset with
    | .error e => .error e
    | .ok w => .ok (.obj "01.Match" (vs.set 0 w))

end Pyof.V01
