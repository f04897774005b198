import Verif.Model.Libs
/-!
# Bit masks, `int()` of wrapped integers, and making messages from types and headers
-/
namespace Pyof

/-! ## MetaBitMask and GenericBitMask (base.py:855-930) -/

/-- An entry in the body of a bit mask class.  Simplification: members are non-negative integers. -/
inductive BitEntry
  | value (n : Nat)
  | callable
  | property
deriving DecidableEq

/-- A bit mask class: what is left of the class body, and the class attribute `_enum` if it is set. -/
structure BitCls where
  dict : List (String × BitEntry)
  enum : Option (List (String × Nat))

/-- `key[0] == '_'` -/
def underscored (k : String) : Bool := k.toList.head? = some '_'

/-- The members of a class body (lines 869-872): neither underscored nor callable nor a property. -/
def bitEnum (body : List (String × BitEntry)) : List (String × Nat) :=
  body.filterMap fun p =>
    match p.2 with
    | .value n => if underscored p.1 then none else some (p.1, n)
    | _ => none

/-- MetaBitMask.__new__ (lines 867-878). -/
def bitNew (body : List (String × BitEntry)) : BitCls :=
  if (bitEnum body).isEmpty then ⟨body, none⟩
  else
    ⟨body.filter fun p => underscored p.1 || (match p.2 with | .value _ => false | _ => true), some (bitEnum body)⟩

/-- `Class.name`: what is in the class, else MetaBitMask.__getattr__ (lines 880-881): `cls._enum[name]`.  Names inherited from
`GenericBitMask` are not modelled; a class without members recurses forever there. -/
def bitGet (c : BitCls) (name : String) : Res BitEntry :=
  match c.dict.lookup name with
  | some e => .ok e
  | none =>
    match c.enum with
    | none => .error .diverges
    | some es =>
      match es.lookup name with
      | some n => .ok (.value n)
      | none => .error .key

/-- An instance: its `bitmask`, and its own `_enum` attribute if it has one. -/
structure BitMask where
  bitmask : Option Nat
  own : Option (List (String × Nat))

/-- GenericBitMask.__init__ (lines 893-900). -/
def bitInit (bitmask : Option Nat) : BitMask := ⟨bitmask, some []⟩

/-- `del mask._enum` -/
def BitMask.dropEnum (m : BitMask) : BitMask := { m with own := none }

/-- iteritems (lines 922-930): `self._enum` is the instance's attribute, else the class'. -/
def bitItems (c : BitCls) (m : BitMask) : List (String × Nat) :=
  match m.own with
  | some es => es
  | none => match c.enum with | some es => es | none => []

/-- names (lines 908-920). `value & None` is a `TypeError`. -/
def bitNames (c : BitCls) (m : BitMask) : Res (List String) :=
  match bitItems c m, m.bitmask with
  | [], _ => .ok []
  | _, none => .error .type
  | es, some b => .ok ((es.filter fun p => p.2 &&& b ≠ 0).map (·.1))

/-! ## UBIntBase.__int__ (base.py:265-269) -/

/-- `int(self._value)`.  `intEnum` tells whether the `enum_ref` of the object is an `IntEnum`; a member of a plain `Enum` (the flags of
the v0x04 multipart messages, multipart_request.py:29-34 and multipart_reply.py:33-37) has no `__int__`, and neither has a
`GenericBitMask`. -/
def ubInt (intEnum : Bool) : Val → Res Int
  | .ub _ (.int i) => .ok i
  | .ub _ (.enum i) => if intEnum then .ok i else .error .type
  | .ub _ (.mask _) => .error .type
  | .ub _ .none => .error .type
  | .ub _ (.str s) => match pyInt 10 s with | some i => .ok i | none => .error .value
  | _ => .error .unmodelled

/-! ## new_message_from_message_type, new_message_from_header (v0x01/common/utils.py:66-121, v0x04/common/utils.py:110-165) -/

/-- The members of `Type` (v0x01/common/header.py:18-60). -/
def V01.typeNames : List (String × Nat) :=
  [("OFPT_HELLO", 0), ("OFPT_ERROR", 1), ("OFPT_ECHO_REQUEST", 2), ("OFPT_ECHO_REPLY", 3), ("OFPT_VENDOR", 4),
   ("OFPT_FEATURES_REQUEST", 5), ("OFPT_FEATURES_REPLY", 6), ("OFPT_GET_CONFIG_REQUEST", 7), ("OFPT_GET_CONFIG_REPLY", 8),
   ("OFPT_SET_CONFIG", 9), ("OFPT_PACKET_IN", 10), ("OFPT_FLOW_REMOVED", 11), ("OFPT_PORT_STATUS", 12),
   ("OFPT_PACKET_OUT", 13), ("OFPT_FLOW_MOD", 14), ("OFPT_PORT_MOD", 15), ("OFPT_STATS_REQUEST", 16),
   ("OFPT_STATS_REPLY", 17), ("OFPT_BARRIER_REQUEST", 18), ("OFPT_BARRIER_REPLY", 19), ("OFPT_QUEUE_GET_CONFIG_REQUEST", 20),
   ("OFPT_QUEUE_GET_CONFIG_REPLY", 21)]

/-- The members of `Type` (v0x04/common/header.py:18-77). -/
def V04.typeNames : List (String × Nat) :=
  [("OFPT_HELLO", 0), ("OFPT_ERROR", 1), ("OFPT_ECHO_REQUEST", 2), ("OFPT_ECHO_REPLY", 3), ("OFPT_EXPERIMENTER", 4),
   ("OFPT_FEATURES_REQUEST", 5), ("OFPT_FEATURES_REPLY", 6), ("OFPT_GET_CONFIG_REQUEST", 7), ("OFPT_GET_CONFIG_REPLY", 8),
   ("OFPT_SET_CONFIG", 9), ("OFPT_PACKET_IN", 10), ("OFPT_FLOW_REMOVED", 11), ("OFPT_PORT_STATUS", 12),
   ("OFPT_PACKET_OUT", 13), ("OFPT_FLOW_MOD", 14), ("OFPT_GROUP_MOD", 15), ("OFPT_PORT_MOD", 16), ("OFPT_TABLE_MOD", 17),
   ("OFPT_MULTIPART_REQUEST", 18), ("OFPT_MULTIPART_REPLY", 19), ("OFPT_BARRIER_REQUEST", 20), ("OFPT_BARRIER_REPLY", 21),
   ("OFPT_QUEUE_GET_CONFIG_REQUEST", 22), ("OFPT_QUEUE_GET_CONFIG_REPLY", 23), ("OFPT_ROLE_REQUEST", 24),
   ("OFPT_ROLE_REPLY", 25), ("OFPT_GET_ASYNC_REQUEST", 26), ("OFPT_GET_ASYNC_REPLY", 27), ("OFPT_SET_ASYNC", 28),
   ("OFPT_METER_MOD", 29)]

/-- The names of the members of `Type` in the version of `l`. -/
def Lib.typeNames (l : Lib) : List (String × Nat) := if l.ver = 1 then V01.typeNames else V04.typeNames

/-- new_message_from_message_type: the class of the new message.  The keys of `MESSAGE_TYPES` are `str(Type.X)`, which is
`'Type.X'` up to Python 3.10; `str` of a `UBInt8` is that of its value.  `enum t` is a member of `Type`. -/
def newFromType (l : Lib) : Val → Res MsgCls
  | .enum t | .ub _ (.enum t) => match l.find t.toNat with | some m => .ok m | none => .error .value
  | .str s =>
    match l.typeNames.find? (fun p => "Type.".toList ++ p.1.toList == s) with
    | some p => match l.find p.2 with | some m => .ok m | none => .error .value
    | none => .error .value
  | .int _ | .none | .ub _ (.int _) | .ub _ .none => .error .value
  | _ => .error .unmodelled

/-- new_message_from_header: the class of the new message and its header. -/
def newFromHeader (l : Lib) (hdr : Val) : Res (MsgCls × Val) :=
  match hdr with
  | .obj _ [_, t, len, xid] =>
    let r : Res MsgCls :=
      match t with
      | .str s =>
        match l.typeNames.find? (fun p => p.1.toList == s) with
        | some p => newFromType l (.enum p.2)
        | none => .error .key
      | .int i => if 0 ≤ i ∧ i.toNat ∈ l.types then newFromType l (.enum i) else .error .value
      | t => newFromType l t
    match r with
    | .error e => .error e
    | .ok m => .ok (m, .obj (hdrName m.ver) [.ub 1 (.int m.ver), .enum m.code, len, xid])
  | _ => .error .attribute

end Pyof
