import Verif.Model.Libs
/-!
# Structures and messages that no other class of the library refers to
-/
namespace Pyof

/-! ## UBInt128 (basic_types.py:116-122): `_fmt` is `"!8H"`, eight numbers of two bytes -/

/-- `UBInt128(dflt).pack(v)` (base.py:178-193). -/
def ub128Pack (dflt v : Val) : Res Bytes :=
  match (match v with | .none => unwrap dflt | v => dotValue v) with
  | .int i =>
    match structPack 2 8 [i] with
    | some b => .ok b
    | none => .error .pack
  | _ => .error .pack

/-- `UBInt128().unpack(buff, offset)` (base.py:195-217): the first of the eight numbers. -/
def ub128Unpack (buff : Bytes) (offset : Nat) : Res Val :=
  if offset + 16 ≤ buff.length then
    match structUnpack 2 8 (slice buff offset (offset + 16)) with
    | some (x :: _) => .ok (.ub 16 (.int x))
    | _ => .error .unpack
  else .error .unpack

namespace V01
/-- QueuePropMinRate, v0x01/common/queue.py:94-110.  It is not a subclass of `QueuePropHeader`. -/
def queuePropMinRate : Attr := structAttr "01.QueuePropMinRate" queuePropMinRateFields
  [.obj "01.QueuePropHeader" [.enum 1, .int 16, .pad 4], .none, .pad 6]
end V01

namespace V04
/-- `prop_header = QueuePropHeader(queue_property=..., length=16)` as a class attribute (v0x04/common/queue.py:127-128, 152-153,
173-174). -/
def propHeader (p : Nat) : Attr := structAttr "04.QueuePropHeader" queuePropHeaderFields [.enum p, .int 16, .pad 4]
/-- QueuePropExperimenter, common/queue.py:124-146. -/
def queuePropExperimenterFields : Fields :=
  [("prop_header", propHeader 0xffff), ("experimenter", ubint 4), ("pad", padAttr 4), ("data", binAttr)]
def queuePropExperimenter : Attr := structAttr "04.QueuePropExperimenter" queuePropExperimenterFields
  [.obj "04.QueuePropHeader" [.enum 0xffff, .int 16, .pad 4], .none, .pad 4, .none]
/-- QueuePropMaxRate, common/queue.py:149-167. -/
def queuePropMaxRateFields : Fields := [("prop_header", propHeader 2), ("rate", ubint 2), ("pad", padAttr 6)]
def queuePropMaxRate : Attr := structAttr "04.QueuePropMaxRate" queuePropMaxRateFields
  [.obj "04.QueuePropHeader" [.enum 2, .int 16, .pad 4], .none, .pad 6]
/-- QueuePropMinRate, common/queue.py:170-188. -/
def queuePropMinRateFields : Fields := [("prop_header", propHeader 1), ("rate", ubint 2), ("pad", padAttr 6)]
def queuePropMinRate : Attr := structAttr "04.QueuePropMinRate" queuePropMinRateFields
  [.obj "04.QueuePropHeader" [.enum 1, .int 16, .pad 4], .none, .pad 6]
/-- ListOfPorts, common/port.py:236-253. -/
def ports : Attr := listAttr (isObj "04.Port") port
/-- OxmExperimenterHeader, common/flow_match.py:416-435. -/
def oxmExperimenterFields : Fields :=
  [("oxm_header", ubint 4 (.enum [0, 1, 0x8000, 0xffff]) (.enum 0xffff)), ("experimenter", ubint 4)]
def oxmExperimenter : Attr := structAttr "04.OxmExperimenterHeader" oxmExperimenterFields [.ub 4 (.enum 0xffff), .none]

/-- ErrorExperimenterMsg, asynchronous/error_msg.py:488-499. -/
def errorExperimenterFields : Fields :=
  [("error_type", ubint 2 (.enum (errorCodes.map (·.1))) (.enum 0xffff)), ("exp_type", ubint 2), ("experimenter", ubint 4),
   ("data", binAttr)]
/-- ErrorExperimenterMsg; its `unpack` raises (lines 517-520).  The class is not in `MESSAGE_TYPES`. -/
def errorExperimenter : MsgCls :=
  { msg "04.ErrorExperimenterMsg" 1 errorExperimenterFields with unpack := fun _ => .error .notImplemented }
end V04

end Pyof
