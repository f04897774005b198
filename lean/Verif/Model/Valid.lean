import Verif.Model.Libs
/-!
# `is_valid()` of messages and `pack(value)` with an argument
-/
namespace Pyof

/-- `m.is_valid()` for a message object: `True` for every class (`GenericMessage.is_valid`, base.py:784-798) but `PacketOut`, which
answers `False` when its `validate` raises `ValidationError` and lets other exceptions escape (v0x01 packet_out.py:53-65, v0x04
packet_out.py:63-75).  `MsgCls.valid` is `validate`. -/
def pyIsValid (libs : List Lib) (v : Val) : Res Bool :=
  match v with
  | .obj c (_ :: vs) =>
    match libs.findSome? (fun l => l.named c) with
    | some m =>
      match m.valid vs with
      | .ok () => .ok true
      | .error .validation => .ok false
      | .error e => .error e
    | none => .error .unmodelled
  | _ => .error .unmodelled

/-- The message classes whose `pack` takes its argument for a body (stats_request.py:41-57, stats_reply.py:35-55,
multipart_request.py:74-104, multipart_reply.py:88-114). -/
def bodyMsgs : List String := ["01.StatsRequest", "01.StatsReply", "04.MultipartRequest", "04.MultipartReply"]

/-- The attributes these classes have when they call `super().pack()` in `self.pack(value)`, for a `value` that is true.  A message is
packed like any other object with a `pack` method.  In the `Stats` classes a value without one is ignored, and so is the packing of the
body that is there. -/
def givenBody (libs : List Lib) (m : MsgCls) (vs : List Val) (value : Val) : Res (List Val) :=
  match value with
  | .obj c _ =>
    if (libs.findSome? (fun l => l.named c)).isSome then
      match pyPack libs value with
      | .error e => .error e
      | .ok b => .ok (vs.dropLast ++ [if m.name = "01.StatsReply" then .bin (.bytes b) else .bytes b])
    else m.prep (vs.dropLast ++ [value])
  | _ =>
    if m.ver = 1 ∧ (selfPack V01.statsClasses value).isNone then .ok vs
    else m.prep (vs.dropLast ++ [value])

/-- `self.pack(value)` for a message object `self` (base.py:820-826 and the classes that override it).  No message class of the
library is a subclass of another one, so `isinstance(value, type(self))` compares the classes. -/
def pyPackWith (libs : List Lib) (self value : Val) : Res Bytes :=
  match self with
  | .obj c (hdr :: vs) =>
    match libs.findSome? (fun l => l.named c) with
    | none => .error .unmodelled
    | some m =>
      if c ∈ bodyMsgs then
        if pyTrue value then
          match givenBody libs m vs value with
          | .error e => .error e
          | .ok ws => genericPack m hdr ws
        else m.pack self
      else
        match value with
        | .none => m.pack self
        | .obj c' _ => if c' = c then pyPack libs value else .error .pack
        | _ => .error .pack
  | _ => .error .unmodelled

end Pyof
