import Verif.Model.Decode
import Verif.Model.ReuseNet
/-!
# `unpack` of further classes step by step, for several threads

As in `Model/Decode.lean`, for the methods of `Model/ReuseNet.lean`.
-/
namespace Pyof.Decode

instance : Monad Steps where
  pure a := .ret (.ok a)
  bind := Steps.bind

/-- An exception. -/
def raise {α : Type} (e : Err) : Steps α := .ret (.error e)

/-- OxmTLV.unpack with `_unpack_oxm_field` (v0x04 common/flow_match.py:214-252). -/
def oxmInto (o : Nat) (mid : String → List Val) (junk : Val) (buff : Bytes) (offset : Nat) : Steps Unit := do
  let _ ← unpackLoop o mid junk V04.oxmFields buff offset
  match ← getattr o "oxm_field_and_mask" with
  | .ub 1 (.int fam) =>
    let c ← getattr o "oxm_class"
    let field ← (if cmpNum c = some 0x8000 then
        if fam.toNat / 2 ∈ V04.ofbFields then pure (.enum (fam.toNat / 2 : Nat)) else raise .unpack
      else pure (.int (fam.toNat / 2 : Nat)))
    setattr o "oxm_field" field
    setattr o "oxm_hasmask" (.int (fam % 2))
    match ← getattr o "oxm_length" with
    | .ub 1 (.int len) => setattr o "oxm_value" (.bytes (slice buff (offset + 4) (offset + 4 + len.toNat)))
    | _ => raise .type
  | _ => raise .type

/-- Match.unpack (v0x04 common/flow_match.py:386-394). -/
def matchInto (o : Nat) (mid : String → List Val) (junk : Val) (buff : Bytes) (offset : Nat) : Steps Unit := do
  let begin ← unpackLoop o mid junk [("match_type", ubint 2 (.enum [0, 1])), ("length", ubint 2)] buff offset
  match ← getattr o "length" with
  | .ub 2 (.int n) =>
    let _ ← unpackAttribute o (mid "oxm_match_fields") junk "oxm_match_fields" V04.oxms (buff.take (offset + n.toNat)) begin
    pure ()
  | _ => raise .type

/-- ARP.unpack (network_types.py:115-132) with `is_valid` (lines 111-113). -/
def arpInto (o : Nat) (mid : String → List Val) (junk : Val) (buff : Bytes) (offset : Nat) : Steps Unit := do
  let _ ← unpackLoop o mid junk Net.arpFields buff offset
  let h ← getattr o "htype"
  let p ← getattr o "ptype"
  if ← Steps.ret (Net.arpIsValid [h, p]) then pure () else raise .unpack

/-- VLAN.unpack (lines 193-221). -/
def vlanInto (o : Nat) (mid : String → List Val) (junk : Val) (buff : Bytes) (offset : Nat) : Steps Unit := do
  let _ ← unpackLoop o mid junk Net.vlanFields buff offset
  match gval (← getattr o "tpid") with
  | .int t =>
    if t = 0 then
      setattr o "tpid" (.enum 0x8100)
      setattr o "pcp" .none
      setattr o "cfi" .none
      setattr o "vid" .none
    else if t = 0x8100 ∨ t = 0x88a8 then
      setattr o "tpid" (.int t)
      match gval (← getattr o "_tci") with
      | .int c =>
        setattr o "pcp" (.int (c / 2 ^ 13))
        setattr o "cfi" (.int (c / 2 ^ 12 % 2))
        setattr o "vid" (.int (c % 4096))
      | _ => raise .type
    else raise .unpack
  | _ => raise .unmodelled

/-- The loop of Ethernet.unpack (lines 326-334): an attribute is decoded before the object gets it. -/
def ethernetLoopInto (o : Nat) (mid : String → List Val) (junk : Val) (len : Nat) : Fields → Bytes → Nat → Steps Unit
  | [], _, _ => .ret (.ok ())
  | (name, c) :: fs, buff, begin =>
    .new c.proto fun a =>
      (decodeAt a (mid name) junk (if name = "vlans" then c.unpack (slice buff begin (begin + len)) 0 else c.unpack buff begin)).bind fun _ =>
        .link o name a (.read a fun v => (Steps.ret (c.usize v)).bind fun size => ethernetLoopInto o mid junk len fs buff (begin + size))

/-- Ethernet.unpack (lines 306-334). -/
def ethernetInto (o : Nat) (mid : String → List Val) (junk : Val) (buff : Bytes) (offset : Nat) : Steps Unit :=
  ethernetLoopInto o mid junk (Net.vlanLength (buff.drop 12)) Net.ethernetFields buff offset

/-- GenericTLV.unpack (lines 417-436). -/
def tlvInto (o : Nat) (buff : Bytes) (offset : Nat) : Steps Unit :=
  match unpackFrom 2 (slice buff offset (offset + 2)) 0 with
  | none => raise .unpack
  | some h => do
    setattr o "tlv_type" (.int (h >>> 9 : Nat))
    setattr o "_value" (.bin (.bytes (slice buff (offset + 2) (offset + 2 + (h &&& 511)))))

/-- TLVWithSubType.unpack (lines 748-770). -/
def subTlvInto (o : Nat) (buff : Bytes) (offset : Nat) : Steps Unit :=
  match unpackFrom 2 (slice buff offset (offset + 2)) 0 with
  | none => raise .unpack
  | some h => do
    setattr o "tlv_type" (.int (h >>> 9 : Nat))
    match unpackFrom 1 (slice buff (offset + 2) (offset + 3)) 0 with
    | none => raise .unpack
    | some s =>
      setattr o "sub_type" (.int s)
      setattr o "sub_value" (.bin (.bytes (slice buff (offset + 3) (offset + 2 + (h &&& 511)))))

/-- `self.name.value`, a number. -/
def num (o : Nat) (name : String) : Steps Nat := do
  let v ← getattr o name
  .ret (Net.decNum v)

/-- `self.name.value`, an address. -/
def text (o : Nat) (name : String) : Steps Str := do
  let v ← getattr o name
  .ret (Net.decText v)

/-- `self.name.value`, bytes. -/
def raw (o : Nat) (name : String) : Steps Bytes := do
  let v ← getattr o name
  .ret (Net.decBytes v)

/-- IPv4.unpack (lines 577-612), assignment by assignment. -/
def ipv4Into (o : Nat) (mid : String → List Val) (junk : Val) (buff : Bytes) (offset : Nat) : Steps Unit := do
  let _ ← unpackLoop o mid junk Net.ipv4Fields buff offset
  setattr o "version" (.int ((← num o "_version_ihl") >>> 4 : Nat))
  setattr o "ihl" (.int ((← num o "_version_ihl") &&& 15 : Nat))
  setattr o "dscp" (.int ((← num o "_dscp_ecn") >>> 2 : Nat))
  setattr o "ecn" (.int ((← num o "_dscp_ecn") &&& 3 : Nat))
  setattr o "length" (.int (← num o "length"))
  setattr o "identification" (.int (← num o "identification"))
  setattr o "flags" (.int ((← num o "_flags_offset") >>> 13 : Nat))
  setattr o "offset" (.int ((← num o "_flags_offset") &&& 8191 : Nat))
  setattr o "ttl" (.int (← num o "ttl"))
  setattr o "protocol" (.int (← num o "protocol"))
  setattr o "checksum" (.int (← num o "checksum"))
  setattr o "source" (.str (← text o "source"))
  setattr o "destination" (.str (← text o "destination"))
  match ← getattr o "ihl" with
  | .int ihl =>
    if ihl > 5 then
      let n := ((ihl - 5) * 4).toNat
      setattr o "data" (.bytes ((← raw o "options").drop n))
      setattr o "options" (.bytes ((← raw o "options").take n))
    else
      setattr o "data" (.bytes (← raw o "options"))
      setattr o "options" (.bytes [])
  | _ => raise .unmodelled

/-- IPv6.unpack (lines 689-712). -/
def ipv6Into (o : Nat) (mid : String → List Val) (junk : Val) (buff : Bytes) (offset : Nat) : Steps Unit := do
  let _ ← unpackLoop o mid junk Net.ipv6Fields buff offset
  setattr o "version" (.int ((← num o "_version_tclass_flabel") >>> 28 : Nat))
  setattr o "tclass" (.int ((← num o "_version_tclass_flabel") >>> 20 &&& 255 : Nat))
  setattr o "flabel" (.int ((← num o "_version_tclass_flabel") &&& 1048575 : Nat))
  setattr o "length" (.int (← num o "length"))
  setattr o "next_header" (.int (← num o "next_header"))
  setattr o "hop_limit" (.int (← num o "hop_limit"))
  setattr o "source" (.str (← text o "source"))
  setattr o "destination" (.str (← text o "destination"))
  setattr o "data" (.bytes (← raw o "data"))

/-- `unpack` of the structures that are cut at their own length (`Pyof.cutInto` in `Model/Reuse.lean`).  The v0x01 `FlowStats` (controller2switch/common.py:243-246)
stores a new length in the object, decodes it there, and reads it from the object again; the others have it in a local variable. -/
def cutInto (o : Nat) (mid : String → List Val) (k : Nat) (lenAttr : Option String) (fields : Fields) (junk : Val) (buff : Bytes) (offset : Nat) :
    Steps Unit :=
  match lenAttr with
  | none => (Steps.ret (ubUnpack 2 .none buff (offset + k))).bind fun n =>
      (unpackLoop o mid junk fields (buff.take (offset + gotNum n)) offset).bind fun _ => .ret (.ok ())
  | some name => .new (.ub 2 .none) fun a => .link o name a ((decodeAt a (mid "") junk (ubUnpack 2 .none buff (offset + k))).bind fun _ =>
      (getattr o name).bind fun n => (unpackLoop o mid junk fields (buff.take (offset + gotNum n)) offset).bind fun _ => .ret (.ok ()))

/-- A thread that assigns attributes one after the other (`o.name = value`).  Only the v0x01 `Match` has a `__setattr__`
(flow_match.py:125-141); it is not among the classes here. -/
def assignInto (o : Nat) : List (String × Val) → Steps Unit
  | [] => .ret (.ok ())
  | (n, v) :: ops => (setattr o n v).bind fun _ => assignInto o ops

/-- The same as a method. -/
def assignMethod : List (String × Val) → Meth Unit
  | [] => pure ()
  | (n, v) :: ops => do
    Meth.setattr n v
    assignMethod ops

/-- The classes of objects that are decoded into: the message classes, the structures that inherit `unpack` from `GenericStruct` (any fields), those
cut at their own length, those with an `unpack` of their own here and in `Model/ReuseNet.lean`.  `assign` stands for
a thread that does not decode, but assigns attributes of the object. -/
inductive Cls
  | message (m : MsgCls)
  | struct (fields : Fields)
  | cut (k : Nat) (lenAttr : Option String) (fields : Fields)
  | assign (ops : List (String × Val))
  | oxm
  | flowMatch
  | arp
  | vlan
  | ethernet
  | tlv
  | subTlv
  | ipv4
  | ipv6

/-- The steps of `self.unpack(buff, offset)`. -/
def Cls.steps (o : Nat) (mid : String → List Val) (junk : Val) (buff : Bytes) (offset : Nat) : Cls → Steps Unit
  | .message m => unpackInto o mid m junk buff offset
  | .struct fs => (unpackLoop o mid junk fs buff offset).bind fun _ => .ret (.ok ())
  | .cut k l fs => cutInto o mid k l fs junk buff offset
  | .assign ops => assignInto o ops
  | .oxm => oxmInto o mid junk buff offset
  | .flowMatch => matchInto o mid junk buff offset
  | .arp => arpInto o mid junk buff offset
  | .vlan => vlanInto o mid junk buff offset
  | .ethernet => ethernetInto o mid junk buff offset
  | .tlv => tlvInto o buff offset
  | .subTlv => subTlvInto o buff offset
  | .ipv4 => ipv4Into o mid junk buff offset
  | .ipv6 => ipv6Into o mid junk buff offset

/-- `self.unpack(buff, offset)` as a method (C67). -/
def Cls.method (junk : Val) (buff : Bytes) (offset : Nat) : Cls → Meth Unit
  | .message m => m.unpackInto junk buff offset
  | .struct fs => do
    let _ ← Pyof.unpackLoop junk fs buff offset
    pure ()
  | .cut k l fs => Pyof.cutInto k l fs junk buff offset
  | .assign ops => assignMethod ops
  | .oxm => Pyof.oxmInto junk buff offset
  | .flowMatch => Pyof.matchInto junk buff offset
  | .arp => Net.arpInto junk buff offset
  | .vlan => Net.vlanInto junk buff offset
  | .ethernet => Net.ethernetInto buff offset
  | .tlv => Net.tlvInto buff offset
  | .subTlv => Net.subTlvInto buff offset
  | .ipv4 => Net.ipv4Into junk buff offset
  | .ipv6 => Net.ipv6Into junk buff offset

/-- The attributes `unpack` assigns. -/
def Cls.names : Cls → List String
  | .message m => m.body.map (·.1)
  | .struct fs => fs.map (·.1)
  | .cut _ l fs => l.toList ++ fs.map (·.1)
  | .assign ops => ops.map (·.1)
  | .oxm => V04.oxmFields.map (·.1) ++ ["oxm_field", "oxm_hasmask"]
  | .flowMatch => V04.matchFields.map (·.1)
  | .arp => Net.arpFields.map (·.1)
  | .vlan => Net.vlanFields.map (·.1) ++ ["pcp", "cfi", "vid"]
  | .ethernet => Net.ethernetFields.map (·.1)
  | .tlv => ["tlv_type", "_value"]
  | .subTlv => ["tlv_type", "sub_type", "sub_value"]
  | .ipv4 => Net.ipv4Fields.map (·.1) ++ ["version", "ihl", "dscp", "ecn", "flags", "offset"]
  | .ipv6 => Net.ipv6Fields.map (·.1) ++ ["version", "tclass", "flabel"]

/-- Does `unpack` only store into the object, and never read from it? -/
def Cls.stores : Cls → Prop
  | .message m => inherits m
  | .cut _ l _ => l = none
  | .struct _ | .assign _ | .ethernet | .tlv | .subTlv => True
  | _ => False

instance (c : Cls) : Decidable c.stores := by cases c <;> unfold Cls.stores <;> infer_instance

end Pyof.Decode
