import Verif.Model.Reuse
/-!
# `unpack` step by step, for several threads

`Model/Reuse.lean` has the methods as functions on the `__dict__` of the object.  Here their steps on the memory are modelled one at a time, so that
threads may decode into different objects, or into the same one, at once.  Unlike the assignments of `Model/Threads.lean` the steps are about
references: `_unpack_attribute` (base.py:645-658) stores a new attribute in the object and decodes into the attribute afterwards, by the reference
it has kept, which by then need not be the one in the object.
-/
namespace Pyof.Decode

/-- The memory: for every object that is decoded into, the addresses its `__dict__` holds, and the values at all addresses.  The parts of a value
(attributes of attributes, list items) have no addresses of their own: they are made anew by `deepcopy` (base.py:646) or by calling the class
(basic_types.py:700-702), and only the decoding thread has them. -/
structure Mem where
  objs : List (List (String × Nat))
  heap : List Val

/-- What a call does from here on. -/
inductive Steps (α : Type)
  /-- It has returned or raised. -/
  | ret (r : Res α)
  /-- A new value is made. -/
  | new (v : Val) (k : Nat → Steps α)
  /-- `setattr(self, name, attribute)` for the object `o` -/
  | link (o : Nat) (name : String) (a : Nat) (k : Steps α)
  /-- The value at `a` becomes `v`. -/
  | put (a : Nat) (v : Val) (k : Steps α)
  /-- The value at `a` is read. -/
  | read (a : Nat) (k : Val → Steps α)
  /-- `self.name` -/
  | look (o : Nat) (name : String) (k : Nat → Steps α)

def Steps.bind {α β : Type} : Steps α → (α → Steps β) → Steps β
  | .ret (.ok a), f => f a
  | .ret (.error e), _ => .ret (.error e)
  | .new v k, f => .new v fun a => (k a).bind f
  | .link o n a k, f => .link o n a (k.bind f)
  | .put a v k, f => .put a v (k.bind f)
  | .read a k, f => .read a fun v => (k v).bind f
  | .look o n k, f => .look o n fun a => (k a).bind f

/-- As `Dict.set`, for references. -/
def setRef : List (String × Nat) → String → Nat → List (String × Nat)
  | [], n, a => [(n, a)]
  | (k, b) :: r, n, a => if k = n then (k, a) :: r else (k, b) :: setRef r n a

/-- One step of one call. -/
inductive Step {α : Type} : Steps α × Mem → Steps α × Mem → Prop
  | new (v : Val) (k : Nat → Steps α) (w : Mem) : Step (.new v k, w) (k w.heap.length, { w with heap := w.heap ++ [v] })
  | link {o : Nat} {n : String} {a : Nat} {k : Steps α} {w : Mem} {d : List (String × Nat)} : w.objs[o]? = some d →
      Step (.link o n a k, w) (k, { w with objs := w.objs.set o (setRef d n a) })
  | put {a : Nat} {v : Val} {k : Steps α} {w : Mem} : a < w.heap.length → Step (.put a v k, w) (k, { w with heap := w.heap.set a v })
  | read {a : Nat} {v : Val} {k : Val → Steps α} {w : Mem} : w.heap[a]? = some v → Step (.read a k, w) (k v, w)
  | look {o : Nat} {n : String} {a : Nat} {k : Nat → Steps α} {w : Mem} {d : List (String × Nat)} : w.objs[o]? = some d → d.lookup n = some a →
      Step (.look o n k, w) (k a, w)
  | missing {o : Nat} {n : String} {k : Nat → Steps α} {w : Mem} {d : List (String × Nat)} : w.objs[o]? = some d → d.lookup n = none →
      Step (.look o n k, w) (.ret (.error .attribute), w)

/-- One step of one of the threads. -/
inductive StepAny {α : Type} : List (Steps α) × Mem → List (Steps α) × Mem → Prop
  | mk {ts : List (Steps α)} {i : Nat} {t t' : Steps α} {w w' : Mem} : ts[i]? = some t → Step (t, w) (t', w') → StepAny (ts, w) (ts.set i t', w')

/-- Any number of steps. -/
inductive Runs {α : Type} : List (Steps α) × Mem → List (Steps α) × Mem → Prop
  | refl (c : List (Steps α) × Mem) : Runs c c
  | step {a b c : List (Steps α) × Mem} : Runs a b → StepAny b c → Runs a c

/-! ## The methods, as in `Model/Reuse.lean` -/

/-- `self.name = v` for a new value. -/
def setattr (o : Nat) (name : String) (v : Val) : Steps Unit := .new v fun a => .link o name a (.ret (.ok ()))

/-- The value of `self.name`.  Where the code reads an attribute several times in a row, it is read once. -/
def getattr (o : Nat) (name : String) : Steps Val := .look o name fun a => .read a fun v => .ret (.ok v)

/-- `attribute.unpack(..)` of the attribute at `a`: it goes through the values `mid` (any values, they are not followed), then is `r`, or `junk`
when an exception is raised. -/
def decodeAt (a : Nat) (mid : List Val) (junk : Val) (r : Res Val) : Steps Unit :=
  match mid with
  | v :: mid => .put a v (decodeAt a mid junk r)
  | [] =>
    match r with
    | .ok v => .put a v (.ret (.ok ()))
    | .error e => .put a junk (.ret (.error e))

/-- _unpack_attribute (base.py:645-658). -/
def unpackAttribute (o : Nat) (mid : List Val) (junk : Val) (name : String) (c : Attr) (buff : Bytes) (begin : Nat) : Steps Nat :=
  .new c.proto fun a => .link o name a (
    if buff = [] then .ret (.ok 0)
    else (decodeAt a mid junk (c.unpack buff begin)).bind fun _ => .read a fun v => .ret (c.usize v))

/-- GenericStruct.unpack (base.py:730-733), GenericMessage.unpack (base.py:840-844). -/
def unpackLoop (o : Nat) (mid : String → List Val) (junk : Val) : Fields → Bytes → Nat → Steps Nat
  | [], _, begin => .ret (.ok begin)
  | (name, c) :: fs, buff, begin =>
    (unpackAttribute o (mid name) junk name c buff begin).bind fun size => unpackLoop o mid junk fs buff (begin + size)

/-- ErrorMsg.unpack (v0x01 asynchronous/error_msg.py:231-249, v0x04 asynchronous/error_msg.py:474-478). -/
def errorInto (o : Nat) (mid : String → List Val) (fields : Fields) (codes : List (Nat × List Nat)) (junk : Val) (buff : Bytes) (offset : Nat) :
    Steps Unit :=
  (unpackLoop o mid junk fields buff offset).bind fun _ => (getattr o "error_type").bind fun t =>
    match t with
    | .ub 2 (.enum t) =>
      match codes.lookup t.toNat with
      | none => .ret (.error .value)
      | some ms => (getattr o "code").bind fun c =>
        match c with
        | .ub 2 (.int c) => if c.toNat ∈ ms then setattr o "code" (.enum c) else .ret (.error .value)
        | _ => .ret (.error .value)
    | _ => .ret (.error .value)

/-- PacketOut.unpack (v0x01 controller2switch/packet_out.py:93-105, v0x04 controller2switch/packet_out.py:103-113): the attribute is decoded before
the object gets it. -/
def packetOutInto (o : Nat) (mid : String → List Val) (junk : Val) : Fields → Bytes → Nat → Steps Unit
  | [], _, _ => .ret (.ok ())
  | (name, c) :: fs, buff, begin =>
    .new c.proto fun a =>
      Steps.bind (if name = "actions" then (getattr o "actions_len").bind fun l =>
          decodeAt a (mid name) junk (c.unpack (slice buff begin (begin + gotNum l)) 0)
        else decodeAt a (mid name) junk (c.unpack buff begin)) fun _ =>
      .link o name a (.read a fun v => (Steps.ret (c.usize v)).bind fun size => packetOutInto o mid junk fs buff (begin + size))

/-- StatsRequest.unpack (stats_request.py:58-79). -/
def statsRequestInto (o : Nat) (mid : String → List Val) (junk : Val) (buff : Bytes) (_offset : Nat) : Steps Unit :=
  (unpackLoop o mid junk V01.statsFields buff 0).bind fun _ => (getattr o "body_type").bind fun t =>
    match t with
    | .ub 2 (.enum t) =>
      (setattr o "body_type" (.enum t)).bind fun _ => (getattr o "body").bind fun body =>
        .new (.list true []) fun a => .link o "body" a (
          match V01.requestClass t.toNat with
          | none => if rawBody body = [] then .ret (.ok ()) else .ret (.error .type)
          | some c => decodeAt a (mid "") junk ((unpackItems c (rawBody body) 0).map (.list true)))
    | _ => .ret (.error .value)

/-- `obj.unpack(self.body.value)` for a new `obj` with the value `v0`, then `self.body = obj` (stats_reply.py:74-78, multipart_request.py:124-128,
multipart_reply.py:135-139). -/
def replaceBody (o : Nat) (mid : List Val) (junk : Val) (v0 : Val) (r : Res Val) : Steps Unit :=
  .new v0 fun a => (decodeAt a mid junk r).bind fun _ => .link o "body" a (.ret (.ok ()))

/-- StatsReply.unpack (stats_reply.py:56-104). -/
def statsReplyInto (o : Nat) (mid : String → List Val) (junk : Val) (buff : Bytes) (offset : Nat) : Steps Unit :=
  (unpackLoop o mid junk V01.statsFields (buff.drop offset) 0).bind fun _ => (getattr o "body_type").bind fun t =>
    match t with
    | .ub 2 (.enum t) =>
      (setattr o "body_type" (.enum t)).bind fun _ => (getattr o "body").bind fun body =>
        if t = 0 then replaceBody o (mid "") junk V01.descStats.proto (V01.descStats.unpack (rawBody body) 0)
        else
          match V01.replyClass t.toNat with
          | none => replaceBody o (mid "") junk (.bin (.bytes [])) (.ok (.bin (.bytes (rawBody body))))
          | some c => replaceBody o (mid "") junk (.list true []) ((unpackItems c (rawBody body) 0).map (.list true))
    | _ => .ret (.error .value)

/-- MultipartRequest.unpack and MultipartReply.unpack (multipart_request.py:106-156, multipart_reply.py:116-182). -/
def multipartInto (o : Nat) (mid : String → List Val) (fields : Fields) (simple : Nat → Option Attr) (array : Nat → Option (String × Attr)) (junk : Val)
    (buff : Bytes) (offset : Nat) : Steps Unit :=
  (unpackLoop o mid junk fields (buff.drop offset) 0).bind fun _ => (getattr o "multipart_type").bind fun t =>
    match t with
    | .ub 2 (.enum t) =>
      (setattr o "multipart_type" (.enum t)).bind fun _ => (getattr o "body").bind fun body =>
        match simple t.toNat with
        | some c => replaceBody o (mid "") junk c.proto (c.unpack (rawBody body) 0)
        | none =>
          match array t.toNat with
          | some (_, a) => replaceBody o (mid "") junk (.list true []) ((unpackItems a (rawBody body) 0).map (.list true))
          | none => replaceBody o (mid "") junk (.bin (.bytes [])) (.ok (.bin (.bytes (rawBody body))))
    | _ => .ret (.error .value)

/-- Does the class have the inherited `unpack`? -/
def inherits (m : MsgCls) : Prop :=
  ¬ (m.name = "01.PacketOut" ∨ m.name = "04.PacketOut") ∧ m.name ≠ "01.ErrorMsg" ∧ m.name ≠ "04.ErrorMsg" ∧ m.name ≠ "01.StatsRequest" ∧
    m.name ≠ "01.StatsReply" ∧ m.name ≠ "04.MultipartRequest" ∧ m.name ≠ "04.MultipartReply"

instance (m : MsgCls) : Decidable (inherits m) := by unfold inherits; infer_instance

/-- `message.unpack(buff, offset)` for every message class. -/
def unpackInto (o : Nat) (mid : String → List Val) (m : MsgCls) (junk : Val) (buff : Bytes) (offset : Nat) : Steps Unit :=
  if m.name = "01.PacketOut" ∨ m.name = "04.PacketOut" then packetOutInto o mid junk m.body buff offset
  else if m.name = "01.ErrorMsg" then errorInto o mid m.body V01.errorCodes junk buff offset
  else if m.name = "04.ErrorMsg" then errorInto o mid m.body V04.errorCodes junk buff offset
  else if m.name = "01.StatsRequest" then statsRequestInto o mid junk buff offset
  else if m.name = "01.StatsReply" then statsReplyInto o mid junk buff offset
  else if m.name = "04.MultipartRequest" then multipartInto o mid m.body V04.requestSimple V04.requestArray junk buff offset
  else if m.name = "04.MultipartReply" then multipartInto o mid m.body V04.replySimple V04.replyArray junk buff offset
  else (unpackLoop o mid junk m.body buff offset).bind fun _ => .ret (.ok ())

end Pyof.Decode
