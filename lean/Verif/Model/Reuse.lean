import Verif.Model.Dict
import Verif.Model.Libs
/-!
# `unpack` as a method of an object that exists already

The rest of the model decodes into new objects.  In the code `unpack` writes into the `__dict__` of the object it is called on, which may have
been filled or decoded into before, and an exception leaves what was written so far.  This file models the methods as programs on the
dictionary.  Attributes of attributes need no such treatment: every attribute is decoded into a new copy of the class attribute
(base.py:646) and every list item into a new instance (basic_types.py:700-702).
-/
namespace Pyof

/-- Statements executed on an object: they read and write its `__dict__` and may raise an exception. -/
structure Meth (α : Type) where
  run : Dict → Res α × Dict

instance : Monad Meth where
  pure a := ⟨fun d => (.ok a, d)⟩
  bind p k := ⟨fun d => match p.run d with | (.ok a, d') => (k a).run d' | (.error e, d') => (.error e, d')⟩

namespace Meth

/-- `setattr(self, name, value)`, `self.name = value` -/
def setattr (name : String) (v : Val) : Meth Unit := ⟨fun d => (.ok (), d.set name v)⟩

/-- `self.name`.  (Python would look in the class next; the objects here have all class attributes in their dictionary.) -/
def getattr (name : String) : Meth Val := ⟨fun d =>
  match d.lookup name with
  | some v => (.ok v, d)
  | none => (.error .attribute, d)⟩

def raise {α : Type} (e : Err) : Meth α := ⟨fun d => (.error e, d)⟩

/-- A call that does not touch the object. -/
def call {α : Type} (r : Res α) : Meth α := ⟨fun d => (r, d)⟩

end Meth
open Meth

/-- _unpack_attribute (base.py:645-658).  The new attribute is stored before it is decoded; `junk` is what it has become when decoding
it raises (any value, it is not followed). -/
def unpackAttribute (junk : Val) (name : String) (c : Attr) (buff : Bytes) (begin : Nat) : Meth Nat :=
  if buff = [] then do
    setattr name c.proto
    pure 0
  else
    match c.unpack buff begin with
    | .error e => do
      setattr name junk
      raise e
    | .ok v => do
      setattr name v
      call (c.usize v)

/-- GenericStruct.unpack (base.py:730-733).  GenericMessage.unpack (base.py:840-844) is the same without the header. -/
def unpackLoop (junk : Val) : Fields → Bytes → Nat → Meth Nat
  | [], _, begin => pure begin
  | (name, c) :: fs, buff, begin => do
    let size ← unpackAttribute junk name c buff begin
    unpackLoop junk fs buff (begin + size)

/-- ErrorMsg.unpack (v0x01 asynchronous/error_msg.py:231-249, v0x04 asynchronous/error_msg.py:474-478). -/
def errorInto (fields : Fields) (codes : List (Nat × List Nat)) (junk : Val) (buff : Bytes) (offset : Nat) : Meth Unit := do
  let _ ← unpackLoop junk fields buff offset
  match ← getattr "error_type" with
  | .ub 2 (.enum t) =>
    match codes.lookup t.toNat with
    | none => raise .value
    | some ms =>
      match ← getattr "code" with
      | .ub 2 (.int c) => if c.toNat ∈ ms then setattr "code" (.enum c) else raise .value
      | _ => raise .value
  | _ => raise .value

/-- PacketOut.unpack (v0x01 controller2switch/packet_out.py:93-105, v0x04 controller2switch/packet_out.py:103-113): the attribute is stored when
it has been decoded.  `self.actions_len` is the `UBInt16` decoded just before. -/
def packetOutInto : Fields → Bytes → Nat → Meth Unit
  | [], _, _ => pure ()
  | (name, c) :: fs, buff, begin => do
    let v ← (if name = "actions" then do
        let l ← getattr "actions_len"
        call (c.unpack (slice buff begin (begin + gotNum l)) 0)
      else call (c.unpack buff begin))
    setattr name v
    let size ← call (c.usize v)
    packetOutInto fs buff (begin + size)

/-- StatsRequest.unpack (stats_request.py:58-79).  `offset` is not used. -/
def statsRequestInto (junk : Val) (buff : Bytes) (_offset : Nat) : Meth Unit := do
  let _ ← unpackLoop junk V01.statsFields buff 0
  match ← getattr "body_type" with
  | .ub 2 (.enum t) =>
    setattr "body_type" (.enum t)
    let body ← getattr "body"
    match V01.requestClass t.toNat with
    | none =>
      setattr "body" (.list true [])
      if rawBody body = [] then pure () else raise .type
    | some c =>
      match unpackItems c (rawBody body) 0 with
      | .error e => do
        setattr "body" junk
        raise e
      | .ok xs => setattr "body" (.list true xs)
  | _ => raise .value

/-- StatsReply.unpack (stats_reply.py:56-104). -/
def statsReplyInto (junk : Val) (buff : Bytes) (offset : Nat) : Meth Unit := do
  let _ ← unpackLoop junk V01.statsFields (buff.drop offset) 0
  match ← getattr "body_type" with
  | .ub 2 (.enum t) =>
    setattr "body_type" (.enum t)
    let body ← getattr "body"
    if t = 0 then
      let u ← call (V01.descStats.unpack (rawBody body) 0)
      setattr "body" u
    else
      match V01.replyClass t.toNat with
      | none => setattr "body" (.bin (.bytes (rawBody body)))
      | some c =>
        let xs ← call (unpackItems c (rawBody body) 0)
        setattr "body" (.list true xs)
  | _ => raise .value

/-- MultipartRequest.unpack and MultipartReply.unpack (multipart_request.py:106-156, multipart_reply.py:116-182). -/
def multipartInto (fields : Fields) (simple : Nat → Option Attr) (array : Nat → Option (String × Attr)) (junk : Val) (buff : Bytes)
    (offset : Nat) : Meth Unit := do
  let _ ← unpackLoop junk fields (buff.drop offset) 0
  match ← getattr "multipart_type" with
  | .ub 2 (.enum t) =>
    setattr "multipart_type" (.enum t)
    let body ← getattr "body"
    match simple t.toNat with
    | some c =>
      let u ← call (c.unpack (rawBody body) 0)
      setattr "body" u
    | none =>
      match array t.toNat with
      | some (_, a) =>
        let xs ← call (unpackItems a (rawBody body) 0)
        setattr "body" (.list true xs)
      | none => setattr "body" (.bin (.bytes (rawBody body)))
  | _ => raise .value

/-- `message.unpack(buff, offset)` for every message class. -/
def MsgCls.unpackInto (m : MsgCls) (junk : Val) (buff : Bytes) (offset : Nat) : Meth Unit :=
  if m.name = "01.PacketOut" ∨ m.name = "04.PacketOut" then packetOutInto m.body buff offset
  else if m.name = "01.ErrorMsg" then errorInto m.body V01.errorCodes junk buff offset
  else if m.name = "04.ErrorMsg" then errorInto m.body V04.errorCodes junk buff offset
  else if m.name = "01.StatsRequest" then statsRequestInto junk buff offset
  else if m.name = "01.StatsReply" then statsReplyInto junk buff offset
  else if m.name = "04.MultipartRequest" then multipartInto m.body V04.requestSimple V04.requestArray junk buff offset
  else if m.name = "04.MultipartReply" then multipartInto m.body V04.replySimple V04.replyArray junk buff offset
  else do
    let _ ← unpackLoop junk m.body buff offset
    pure ()

/-! ## Objects that change their class -/

/-- An object of a family of classes whose `unpack` assigns `self.__class__`. -/
structure Obj where
  cls : Sub
  dict : Dict

/-- One of those families.  `typeAttr` and `lenAttr` are the attributes of `self` the type and the length are read into, if they are not
local variables; `pick` is the class chosen for a type, given the class the object has. -/
structure Family where
  ref : Ref
  trunc : Bool
  typeAttr : Option String
  lenAttr : Option String
  pick : Sub → Nat → Res Sub

/-- `self.name = v`, or nothing for a local variable. -/
def keepIn (name : Option String) (v : Val) (d : Dict) : Dict :=
  match name with
  | some n => d.set n v
  | none => d

/-- The loop of `GenericStruct.unpack` over the attributes of the class the object has by now. -/
def loopAs (junk : Val) (s : Sub) (buff : Bytes) (offset : Nat) (d : Dict) : Res Unit × Obj :=
  (((unpackLoop junk s.fields buff offset).run d).1.map fun _ => (), ⟨s, ((unpackLoop junk s.fields buff offset).run d).2⟩)

/-- ActionHeader.unpack (v0x01 common/action.py:92-101, v0x04 common/action.py:134-145), Instruction.unpack (flow_instructions.py:112-119),
MeterBandHeader.unpack (meter_mod.py:110-117), Property.unpack (controller2switch/common.py:473-479).  The v0x04 `ActionHeader` reads the
length before it changes the class, the other three after. -/
def Family.unpackInto (F : Family) (junk : Val) (buff : Bytes) (offset : Nat) (o : Obj) : Res Unit × Obj :=
  match ubUnpack 2 F.ref buff offset with
  | .error e => (.error e, ⟨o.cls, keepIn F.typeAttr junk o.dict⟩)
  | .ok t =>
    match F.pick o.cls (gotNum t) with
    | .error e => (.error e, ⟨o.cls, keepIn F.typeAttr t o.dict⟩)
    | .ok s =>
      if F.trunc then
        match ubUnpack 2 .none buff (offset + 2) with
        | .error e => (.error e, ⟨if F.lenAttr = none then s else o.cls, keepIn F.lenAttr junk (keepIn F.typeAttr t o.dict)⟩)
        | .ok n => loopAs junk s (buff.take (offset + gotNum n)) offset (keepIn F.lenAttr n (keepIn F.typeAttr t o.dict))
      else loopAs junk s buff offset (keepIn F.typeAttr t o.dict)

/-- v0x01 ActionHeader: a type no subclass allows leaves the class as it is. -/
def actions01 : Family where
  ref := .mask
  trunc := false
  typeAttr := some "action_type"
  lenAttr := none
  pick := fun c t => match V01.actionClasses.find? (fun p => p.1.contains t) with | some p => .ok p.2 | none => .ok c

/-- v0x04 ActionHeader: the same. -/
def actions04 : Family where
  ref := .enum V04.actionTypes
  trunc := true
  typeAttr := some "action_type"
  lenAttr := some "length"
  pick := fun c t => match V04.actionClasses.find? (fun p => p.1.contains t) with | some p => .ok p.2 | none => .ok c

def instructions04 : Family where
  ref := .enum V04.instructionTypes
  trunc := true
  typeAttr := none
  lenAttr := none
  pick := fun _ => V04.pickInstruction

def bands04 : Family where
  ref := .enum V04.bandTypes
  trunc := true
  typeAttr := none
  lenAttr := none
  pick := fun _ => V04.pickBand

def properties04 : Family where
  ref := .enum V04.propertyTypes
  trunc := true
  typeAttr := none
  lenAttr := none
  pick := fun _ => V04.pickProperty

/-! ## Structures that are cut at their own length -/

/-- FlowStats.unpack (v0x01 controller2switch/common.py:243-246, v0x04 multipart_reply.py:311-313), Bucket.unpack and TableFeatures.unpack
(v0x04 controller2switch/common.py:236-238, 704-706), MeterStats.unpack (multipart_reply.py:715-719), HelloElemHeader.unpack
(hello.py:85-88): read the length `k` bytes after `offset`, then `GenericStruct.unpack` on `buff[:offset+length]`.  Only the v0x01 class
reads the length into an attribute of `self`. -/
def cutInto (k : Nat) (lenAttr : Option String) (fields : Fields) (junk : Val) (buff : Bytes) (offset : Nat) : Meth Unit :=
  match ubUnpack 2 .none buff (offset + k) with
  | .error e => ⟨fun d => (.error e, keepIn lenAttr junk d)⟩
  | .ok n => do
    (⟨fun d => (.ok (), keepIn lenAttr n d)⟩ : Meth Unit)
    let _ ← unpackLoop junk fields (buff.take (offset + gotNum n)) offset
    pure ()

end Pyof
