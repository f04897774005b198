import Verif.Model.Threads
/-!
# `get_size()` step by step

`pack()` and `get_size()` called by several threads on one message, or on one structure that is not part of a message.
-/
namespace Pyof.Threads

/-- `message.get_size()` (GenericStruct.get_size, base.py:660-683, which no message of the table `messages` overrides): the sizes of the
attributes, one after the other.  How many attributes there are is looked at in the first step. -/
def PMsg.sizeSteps (m : PMsg) : Prog (Res Nat) :=
  .get [] fun v =>
    match v with
    | .obj _ (_ :: vs) => sizeFields [] (("header", headerP m.cls) :: m.body) 0 (vs.length + 1)
    | _ => .ret (.error .unmodelled)

/-- What a thread calls. -/
inductive Call
  | pack
  | size
  deriving DecidableEq

/-- What it gets. -/
inductive Answer
  | bytes (r : Res Bytes)
  | size (r : Res Nat)
  deriving DecidableEq

/-- `message.pack()` or `message.get_size()`. -/
def PMsg.call (m : PMsg) : Call → Prog Answer
  | .pack => m.steps.bind fun r => .ret (.bytes r)
  | .size => m.sizeSteps.bind fun r => .ret (.size r)

/-- Property (v0x04/controller2switch/common.py:429-595; pack: lines 449-457, update_length: lines 481-483). -/
def propertyClss : List PCls :=
  V04.propertySubs.map fun s =>
    autoCls s.name (leavesBut [("instruction_ids", instructionsP), ("next_table_ids", instructionsP), ("action_ids", actionsP), ("oxm_ids", oxmsP)] s.fields) 1

def propertyP : PAttr := oneOf V04.property propertyClss

/-- TableFeatures (common.py:614-706; pack: lines 676-684, update_length: lines 686-688). -/
def tableFeaturesP : PAttr :=
  oneOf V04.tableFeatures
    [autoCls "04.TableFeatures" (leavesBut [("properties", listP (isSub V04.propertySubs) propertyP)] V04.tableFeaturesFields) 0]

/-- AggregateStatsRequest and FlowStatsRequest (multipart_request.py:163-247). -/
def aggregateStatsRequestP : PAttr :=
  oneOf V04.aggregateStatsRequest [plainCls "04.AggregateStatsRequest" (leavesBut [("match", matchP)] V04.flowStatsRequestFields)]
def flowStatsRequestP : PAttr :=
  oneOf V04.flowStatsRequest [plainCls "04.FlowStatsRequest" (leavesBut [("match", matchP)] V04.flowStatsRequestFields)]

/-- FlowStats (multipart_reply.py:243-313). -/
def flowStatsP : PAttr :=
  oneOf V04.flowStats [plainCls "04.FlowStats" (leavesBut [("match", matchP), ("instructions", instructionsP)] V04.flowStatsFields)]

/-- GroupDescStats (multipart_reply.py:426-452). -/
def groupDescFieldsP : PFields :=
  leaves [("length", ubint 2), ("group_type", ubint 1), ("pad", padAttr 1), ("group_id", ubint 4)] ++
    [("buckets", bareListP (isObj "04.Bucket") (oneOf V04.bucket [bucketCls]))]
def groupDescStatsP : PAttr := oneOf V04.groupDescStats [plainCls "04.GroupDescStats" groupDescFieldsP]

/-- MeterStats (multipart_reply.py:645-719; pack: lines 691-699, update_length: lines 687-689). -/
def meterStatsP : PAttr := oneOf V04.meterStats [autoCls "04.MeterStats" (leaves V04.meterStatsFields) 1]

/-- The structures in which `pack()` assigns something, all of v0x04: OxmTLV, Match, the actions, the instructions, Bucket, the elements of
Hello, the properties of table features, and the structures that hold such: TableFeatures, AggregateStatsRequest, FlowStatsRequest, FlowStats,
GroupDescStats, and MeterStats. -/
def structures : List PAttr :=
  [oxmP, matchP, actionP, oneOf V04.instruction instructionClss, oneOf V04.bucket [bucketCls], oneOf V04.helloElem [helloElemCls],
   propertyP, tableFeaturesP, aggregateStatsRequestP, flowStatsRequestP, flowStatsP, groupDescStatsP, meterStatsP]

/-- `structure.pack()` or `structure.get_size()` for a structure that is not part of a message. -/
def PAttr.call (a : PAttr) : Call → Prog Answer
  | .pack => (a.packP []).bind fun r => .ret (.bytes r)
  | .size => (a.sizeP []).bind fun r => .ret (.size r)

end Pyof.Threads
