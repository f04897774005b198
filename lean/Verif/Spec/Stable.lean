import Verif.Spec.V01
import Verif.Spec.V04
/-!
# Which accepted packets have a content (C46)

`pyof.utils.unpack` also accepts packets that no instance is encoded to.  The definitions here say for which of them the
result has a content at all.
-/
namespace Pyof.Spec

/-- The messages that may consist of the header alone. -/
def bareMsgs : List String :=
  ["01.Hello", "01.EchoRequest", "01.EchoReply", "01.FeaturesRequest", "01.GetConfigRequest", "01.BarrierRequest", "01.BarrierReply",
   "04.Hello", "04.EchoRequest", "04.EchoReply", "04.FeaturesRequest", "04.GetConfigRequest", "04.BarrierRequest", "04.BarrierReply",
   "04.GetAsyncRequest"]

/-- What a class demands of its attributes besides that they are set: the body of an `ActionExperimenter` has to fill up
eight bytes, a `Bucket` has to announce its length (16 bytes and its actions), and the lists that are not counted by
`get_size` have to be empty. -/
def sound (cls : String) (vs : List Val) : Bool :=
  if cls = "04.ActionExperimenter" then
    match vs with
    | [_, _, _, .bin (.bytes b)] => b.length % 8 == 0
    | _ => false
  else if cls = "04.Bucket" then
    match vs with
    | [length, _, _, _, _, actions] =>
      match numOf length, (V04.actions.den actions).bind V04.actions.enc with
      | some n, some b => n == 16 + b.length
      | _, _ => false
    | _ => false
  else if cls = "04.GroupDescStats" ∨ cls = "04.MeterMod" then
    match vs.getLast? with
    | some (.list true []) => true
    | _ => false
  else true

mutual
/-- A decoded value all of whose attributes are set, and which its class is able to encode.  Attributes stay unset in a
structure that announces a length of zero, or when a body is empty. -/
def clean : Val → Bool
  | .obj c vs => cleanAll vs && sound c vs
  | .list _ xs => cleanAll xs
  | .ub _ .none => false
  | .chr .none _ => false
  | _ => true
def cleanAll : List Val → Bool
  | [] => true
  | v :: vs => clean v && cleanAll vs
end

/-- The classes of messages that may carry structures which are not `clean`. -/
def openMsgs : List String :=
  ["01.StatsReply", "04.Hello", "04.FlowMod", "04.GroupMod", "04.MeterMod", "04.PacketOut", "04.MultipartRequest", "04.MultipartReply"]

/-- The instances of message classes, decoded from packets, that have a content. -/
def complete (cls : String) (vs : List Val) : Prop := cls ∈ openMsgs → clean (.obj cls vs) = true

/-- What `pack` accepts: a packet-out must name a permitted input port. -/
def packable (cls : String) (d : Data) : Prop :=
  (cls = "01.PacketOut" → ∃ b p r, d = .record (b :: .num p :: r) ∧ V01.inPortOk p) ∧
  (cls = "04.PacketOut" → ∃ b p r, d = .record (b :: .num p :: r) ∧ V04.inPortOk p)

end Pyof.Spec
