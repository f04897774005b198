import Verif.Model.Body
import Verif.Model.AutoLen
/-!
# OpenFlow 1.3 (`/repo/pyof/v0x04`)

Class names carry the prefix `04.`; enum classes are given by the values of their members.
-/
namespace Pyof.V04

/-! ## Enums -/

/-- Type, common/header.py:18-80. -/
def types : List Nat := List.range 30
/-- PortNo, common/port.py:18-47. -/
def portEnum : List Nat :=
  [0xffffff00, 0xfffffff8, 0xfffffff9, 0xfffffffa, 0xfffffffb, 0xfffffffc, 0xfffffffd, 0xfffffffe, 0xffffffff]
/-- MultipartType, controller2switch/common.py:108-188. -/
def multipartTypes : List Nat := [0, 1, 2, 3, 4, 5, 6, 7, 8, 9, 10, 11, 12, 13, 0xffff]
/-- OxmOfbMatchField, common/flow_match.py:44-132. -/
def ofbFields : List Nat := List.range 40
/-- OxmClass, common/flow_match.py:151-167. -/
def oxmClasses : List Nat := [0, 1, 0x8000, 0xffff]

/-! ## Match (common/flow_match.py) -/

/-- OxmTLV, lines 188-191. -/
def oxmFields : Fields :=
  [("oxm_class", ubint 2 (.enum oxmClasses)), ("oxm_field_and_mask", ubint 1), ("oxm_length", ubint 1), ("oxm_value", binAttr)]

/-- `OxmTLV()` (lines 193-212).  The last two attributes, `oxm_field` and `oxm_hasmask`, are not packed; `True` and
`False` are the numbers 1 and 0. -/
def oxmInit : List Val := [.enum 0x8000, .none, .none, .none, .none, .int 0]

/-- _get_oxm_field_int (lines 283-301), with the `ValueError` turned into a `PackException` as in lines 270-273.
`OxmOfbMatchField(x)` finds a member equal to `x`. -/
def oxmFieldInt (cls field : Val) : Res Int :=
  if cmpNum cls = some 0x8000 then
    match cmpNum field with
    | some i => if 0 ≤ i ∧ i.toNat ∈ ofbFields then .ok i else .error .pack
    | none => .error .pack
  else
    match field with
    | .int i => if i > 127 then .error .pack else .ok i
    | .enum i => if i > 127 then .error .pack else .ok i
    | _ => .error .pack

/-- The attributes OxmTLV.pack packs (lines 263-281, 254-261). -/
def oxmPrep : List Val → Res (List Val)
  | [c, _, _, v, f, m] =>
    match oxmFieldInt c f with
    | .error e => .error e
    | .ok i =>
      match cmpNum m with
      | none => .error .type
      | some k =>
        match (binAttr).pack v with
        | .error e => .error e
        | .ok payload => .ok [c, .int (i * 2 + k % 2), .int payload.length, v, f, m]
  | _ => .error .unmodelled

def oxmPack (vs : List Val) : Res Bytes :=
  match oxmPrep vs with
  | .error e => .error e
  | .ok ws => packAttrs oxmFields ws

/-- OxmTLV.unpack (lines 214-235).  On an empty buffer the numbers are `None` and the arithmetic fails. -/
def oxmUnpack (buff : Bytes) (offset : Nat) : Res Val :=
  match unpackAttrs oxmFields buff offset with
  | .error e => .error e
  | .ok ([c, .ub 1 (.int fam), .ub 1 (.int len), _], _) =>
    let f := fam.toNat / 2
    let value := Val.bytes (slice buff (offset + 4) (offset + 4 + len.toNat))
    if cmpNum c = some 0x8000 then
      if f ∈ ofbFields then
        .ok (.obj "04.OxmTLV" [c, .ub 1 (.int fam), .ub 1 (.int len), value, .enum f, .int (fam % 2)])
      else .error .unpack
    else .ok (.obj "04.OxmTLV" [c, .ub 1 (.int fam), .ub 1 (.int len), value, .int f, .int (fam % 2)])
  | .ok _ => .error .type

/-- OxmTLV (lines 185-301).  `pack(value)` calls `value.pack()` whatever `value` is; only `OxmTLV` instances are
modelled. -/
def oxm : Attr where
  proto := .obj "04.OxmTLV" oxmInit
  pack := fun v =>
    match v with
    | .none => oxmPack oxmInit
    | .obj c vs => if c = "04.OxmTLV" then oxmPack vs else .error .unmodelled
    | .int _ | .enum _ | .str _ | .bytes _ | .list false _ => .error .attribute
    | _ => .error .unmodelled
  size := fun v =>
    match v with
    | .none => sizeAttrs oxmFields oxmInit
    | .obj c vs => if c = "04.OxmTLV" then sizeAttrs oxmFields vs else .error .pack
    | _ => .error .pack
  unpack := oxmUnpack
  usize := fun v =>
    match v with
    | .obj c vs => if c = "04.OxmTLV" then sizeAttrs oxmFields vs else .error .pack
    | _ => .error .pack
  post := fun v =>
    match v with
    | .obj c vs => if c = "04.OxmTLV" then (match oxmPrep vs with | .ok ws => .obj c ws | .error _ => v) else v
    | v => v

/-- OxmMatchFields (lines 304-317) and ListOfOxmHeader (438-452). -/
def oxms : Attr := listAttr (isObj "04.OxmTLV") oxm

/-- Match, lines 333-336. -/
def matchFields : Fields := [("match_type", ubint 2 (.enum [0, 1])), ("length", ubint 2), ("oxm_match_fields", oxms)]

/-- `Match()` (lines 338-355). -/
def matchInit : List Val := [.enum 1, .int 4, .list true []]

/-- Match.pack of an instance (lines 364-368, 370-376): the length is the size without padding. -/
def matchPack (vs : List Val) : Res Bytes :=
  match withLength matchFields 1 vs with
  | .error e => .error e
  | .ok ws =>
    match packAttrs matchFields ws with
    | .error e => .error e
    | .ok p =>
      match sizeAttrs matchFields ws with
      | .error e => .error e
      | .ok n => .ok (fill (ceil8 n) p)

/-- Match.get_size of an instance (lines 382-384). -/
def matchSize (vs : List Val) : Res Nat :=
  match sizeAttrs matchFields vs with
  | .error e => .error e
  | .ok n => .ok (ceil8 n)

/-- Match.unpack (lines 387-394). -/
def matchUnpack (buff : Bytes) (offset : Nat) : Res Val :=
  match unpackAttrs [("match_type", ubint 2 (.enum [0, 1])), ("length", ubint 2)] buff offset with
  | .error e => .error e
  | .ok ([t, .ub 2 (.int n)], e) =>
    match unpackAttr oxms (buff.take (offset + n.toNat)) e with
    | .error e => .error e
    | .ok (xs, _) => .ok (.obj "04.Match" [t, .ub 2 (.int n), xs])
  | .ok _ => .error .type

/-- Match as a class attribute (lines 320-413). -/
def «match» : Attr where
  proto := .obj "04.Match" matchInit
  pack := fun v =>
    match v with
    | .none => matchPack matchInit
    | .obj c vs => if c = "04.Match" then matchPack vs else .error .pack
    | _ => .error .pack
  size := fun v =>
    match v with
    | .none => matchSize matchInit
    | .obj c vs => if c = "04.Match" then matchSize vs else .error .value
    | _ => .error .value
  unpack := matchUnpack
  usize := fun v =>
    match v with
    | .obj c vs => if c = "04.Match" then matchSize vs else .error .value
    | _ => .error .value
  post := fun v =>
    match v with
    | .obj c vs => if c = "04.Match" then .obj c (autoPost matchFields 1 vs) else v
    | v => v

/-- `field.oxm_field == field_type`; both sides are numbers (or enum members). -/
def fieldIs (x : Val) (t : Nat) : Bool := decide (cmpNum x = some (t : Int))

/-- Match.get_field (lines 396-413): the value of the first TLV whose field is `t`. -/
def getField (t : Nat) : List Val → Option Val
  | [] => none
  | .obj _ [_, _, _, v, f, _] :: r => if fieldIs f t then some v else getField t r
  | _ :: r => getField t r

/-- `PacketIn.in_port` (asynchronous/packet_in.py:87-101) of a packet-in whose match holds these TLVs:
`int.from_bytes(None, 'big')` is a `TypeError`.  Values that are not `bytes` are not modelled. -/
def inPort (tlvs : List Val) : Res Nat :=
  match getField 0 tlvs with
  | some (.bytes b) => .ok (beVal b)
  | some _ => .error .unmodelled
  | none => .error .type

/-! ## Actions (common/action.py) -/

/-- ActionType, lines 24-60. -/
def actionTypes : List Nat := [0, 11, 12, 15, 16, 17, 18, 19, 20, 21, 22, 23, 24, 25, 26, 27, 0xffff]

/-- ActionHeader, lines 89-92. -/
def actionHead : Fields := [("action_type", ubint 2 (.enum actionTypes)), ("length", ubint 2)]

/-- ActionHeader.get_size (lines 111-118) of an instance. -/
def actionSize (fields : Fields) (vs : List Val) : Res Nat :=
  match sizeAttrs fields vs with
  | .error e => .error e
  | .ok n => .ok (ceil8 n)

/-- An action class that overrides nothing. -/
def actionSub (name : String) (tail : Fields) : Sub where
  name := name
  fields := actionHead ++ tail
  size := actionSize (actionHead ++ tail)

/-- Lines 153-173. -/
def actionExperimenter : Sub := actionSub "04.ActionExperimenter" [("experimenter", ubint 4), ("body", binAttr)]
/-- Lines 176-192. -/
def actionGroup : Sub := actionSub "04.ActionGroup" [("group_id", ubint 4)]
/-- Lines 195-204. -/
def actionDecMPLSTTL : Sub := actionSub "04.ActionDecMPLSTTL" [("pad", padAttr 4)]
/-- Lines 207-222. -/
def actionSetMPLSTTL : Sub := actionSub "04.ActionSetMPLSTTL" [("mpls_ttl", ubint 1), ("pad", padAttr 3)]
/-- Lines 225-234. -/
def actionCopyTTLIn : Sub := actionSub "04.ActionCopyTTLIn" [("pad", padAttr 4)]
/-- Lines 237-246. -/
def actionCopyTTLOut : Sub := actionSub "04.ActionCopyTTLOut" [("pad", padAttr 4)]
/-- Lines 249-258. -/
def actionPopVLAN : Sub := actionSub "04.ActionPopVLAN" [("pad", padAttr 4)]
/-- Lines 261-270. -/
def actionPopPBB : Sub := actionSub "04.ActionPopPBB" [("pad", padAttr 4)]
/-- Lines 273-282. -/
def actionDecNWTTL : Sub := actionSub "04.ActionDecNWTTL" [("pad", padAttr 4)]
/-- Lines 285-300. -/
def actionSetNWTTL : Sub := actionSub "04.ActionSetNWTTL" [("nw_ttl", ubint 1), ("pad", padAttr 3)]
/-- Lines 303-332. -/
def actionOutput : Sub := actionSub "04.ActionOutput" [("port", ubint 4), ("max_length", ubint 2), ("pad", padAttr 6)]
/-- Lines 335-350. -/
def actionPopMPLS : Sub := actionSub "04.ActionPopMPLS" [("ethertype", ubint 2), ("pad", padAttr 2)]
/-- Lines 353-371. -/
def actionPush : Sub := actionSub "04.ActionPush" [("ethertype", ubint 2), ("pad", padAttr 2)]
/-- Lines 421-435. -/
def actionSetQueue : Sub := actionSub "04.ActionSetQueue" [("queue_id", ubint 4)]
/-- The base class, lines 80-150. -/
def actionHeader : Sub := actionSub "04.ActionHeader" []

/-- ActionSetField, line 377. -/
def setFieldFields : Fields := actionHead ++ [("field", oxm)]

/-- ActionSetField._update_length (lines 404-410): `self.field.pack()`, padded to a multiple of 8. -/
def setFieldPrep : List Val → Res (List Val)
  | [t, _, .obj c vs] =>
    match oxm.pack (.obj c vs) with
    | .error e => .error e
    | .ok p => .ok [t, .int (ceil8 (4 + p.length)), .obj c vs]
  | _ => .error .unmodelled

/-- ActionSetField.pack (lines 398-402, 412-418). -/
def setFieldPack (vs : List Val) : Res Bytes :=
  match setFieldPrep vs with
  | .error e => .error e
  | .ok ws =>
    match packAttrs setFieldFields ws, ws with
    | .ok p, [_, .int n, _] => .ok (fill n.toNat p)
    | .error e, _ => .error e
    | _, _ => .error .unmodelled

/-- Lines 374-418. -/
def actionSetField : Sub where
  name := "04.ActionSetField"
  fields := setFieldFields
  pack := setFieldPack
  size := actionSize setFieldFields
  post := fun vs => match setFieldPrep vs with | .ok ws => postAttrs setFieldFields ws | .error _ => vs

/-- `ActionHeader.__subclasses__()` in definition order, with `_allowed_types`. -/
def actionClasses : List (List Nat × Sub) :=
  [([0xffff], actionExperimenter), ([22], actionGroup), ([16], actionDecMPLSTTL), ([15], actionSetMPLSTTL),
   ([12], actionCopyTTLIn), ([11], actionCopyTTLOut), ([18], actionPopVLAN), ([27], actionPopPBB), ([24], actionDecNWTTL),
   ([23], actionSetNWTTL), ([0], actionOutput), ([20], actionPopMPLS), ([17, 19, 26], actionPush), ([25], actionSetField),
   ([21], actionSetQueue)]

/-- Lines 140-143. -/
def pickAction (t : Nat) : Res Sub :=
  match actionClasses.find? (fun p => p.1.contains t) with
  | some p => .ok p.2
  | none => .ok actionHeader

def actionSubs : List Sub := actionHeader :: actionClasses.map (·.2)

/-- ActionHeader as list item; unpack: lines 120-145. -/
def action : Attr :=
  variantAttr (.obj "04.ActionHeader" [.none, .none]) (.enum actionTypes) true pickAction actionSubs

/-- ListOfActions (lines 438-451). -/
def actions : Attr := listAttr (isSub actionSubs) action

/-! ## Instructions (common/flow_instructions.py) -/

/-- InstructionType, lines 28-44. -/
def instructionTypes : List Nat := [1, 2, 3, 4, 5, 6, 0xffff]
/-- Lines 64-65. -/
def instructionHead : Fields := [("instruction_type", ubint 2 (.enum instructionTypes)), ("length", ubint 2)]

def instructionSub (name : String) (tail : Fields) : Sub := autoSub name (instructionHead ++ tail) 1

/-- Lines 122-142. -/
def instructionApplyAction : Sub := instructionSub "04.InstructionApplyAction" [("pad", padAttr 4), ("actions", actions)]
/-- Lines 145-164. -/
def instructionClearAction : Sub := instructionSub "04.InstructionClearAction" [("pad", padAttr 4), ("actions", actions)]
/-- Lines 167-183. -/
def instructionGotoTable : Sub := instructionSub "04.InstructionGotoTable" [("table_id", ubint 1), ("pad", padAttr 3)]
/-- Lines 186-202. -/
def instructionMeter : Sub := instructionSub "04.InstructionMeter" [("meter_id", ubint 4)]
/-- Lines 205-225. -/
def instructionWriteAction : Sub := instructionSub "04.InstructionWriteAction" [("pad", padAttr 4), ("actions", actions)]
/-- Lines 228-247. -/
def instructionWriteMetadata : Sub :=
  instructionSub "04.InstructionWriteMetadata" [("pad", padAttr 4), ("metadata", ubint 8), ("metadata_mask", ubint 8)]
/-- Lines 56-119. -/
def instructionBase : Sub := instructionSub "04.Instruction" []

/-- find_class (lines 46-52); `self.__class__ = None` is a `TypeError` (line 114). -/
def pickInstruction : Nat → Res Sub
  | 1 => .ok instructionGotoTable
  | 2 => .ok instructionWriteMetadata
  | 3 => .ok instructionWriteAction
  | 4 => .ok instructionApplyAction
  | 5 => .ok instructionClearAction
  | 6 => .ok instructionMeter
  | _ => .error .type

def instructionSubs : List Sub :=
  [instructionBase, instructionApplyAction, instructionClearAction, instructionGotoTable, instructionMeter,
   instructionWriteAction, instructionWriteMetadata]

/-- Instruction as list item; pack: lines 76-92; unpack: lines 98-119. -/
def instruction : Attr :=
  variantAttr (.obj "04.Instruction" [.none, .ub 2 .none]) (.enum instructionTypes) true pickInstruction instructionSubs

/-- ListOfInstruction (lines 250-263). -/
def instructions : Attr := listAttr (isSub instructionSubs) instruction

/-! ## Ports and queues -/

/-- Port, common/port.py:186-198. -/
def portFields : Fields :=
  [("port_no", ubint 4), ("pad", padAttr 4), ("hw_addr", hwAttr), ("pad2", padAttr 2), ("name", charAttr 16),
   ("config", ubint 4 .mask), ("state", ubint 4 .mask), ("curr", ubint 4 .mask), ("advertised", ubint 4 .mask),
   ("supported", ubint 4 .mask), ("peer", ubint 4 .mask), ("curr_speed", ubint 4), ("max_speed", ubint 4)]
/-- `Port()` (lines 200-233). -/
def port : Attr := structAttr "04.Port" portFields
  [.none, .pad 4, .none, .pad 2, .none, .none, .none, .none, .none, .none, .none, .none, .none]

/-- QueuePropHeader, common/queue.py:34-54. -/
def queuePropHeaderFields : Fields :=
  [("queue_property", ubint 2 (.enum [1, 2, 0xffff])), ("length", ubint 2), ("pad", padAttr 4)]
def queuePropHeader : Attr := structAttr "04.QueuePropHeader" queuePropHeaderFields [.none, .none, .pad 4]
/-- ListOfProperties (lines 57-72). -/
def queueProps : Attr := listAttr (isObj "04.QueuePropHeader") queuePropHeader
/-- PacketQueue (lines 78-88). -/
def packetQueueFields : Fields :=
  [("queue_id", ubint 4), ("port", ubint 4), ("length", ubint 2), ("pad", padAttr 6), ("properties", queueProps)]
def packetQueue : Attr := structAttr "04.PacketQueue" packetQueueFields [.none, .none, .none, .pad 6, .list false []]
/-- ListOfQueues (lines 106-121). -/
def queues : Attr := listAttr (isObj "04.PacketQueue") packetQueue

/-! ## Groups -/

/-- Bucket, controller2switch/common.py:196-201. -/
def bucketFields : Fields :=
  [("length", ubint 2), ("weight", ubint 2), ("watch_port", ubint 4), ("watch_group", ubint 4), ("pad", padAttr 4),
   ("actions", bareListAttr (isSub actionSubs) action)]

/-- Bucket.get_size (lines 240-249): whatever the `length` attribute holds.  Using a `UBInt16` holding `None` or a
negative number as size is not modelled further. -/
def bucketSize : List Val → Res Nat
  | l :: vs =>
    match l with
    | .none => sizeAttrs bucketFields (l :: vs)
    | _ =>
      match cmpNum l with
      | some i => if 0 ≤ i then .ok i.toNat else .error .unmodelled
      | none => .error .type
  | [] => .error .unmodelled

/-- Bucket (lines 193-249); unpack: lines 230-238. -/
def bucket : Attr :=
  lengthCut 0
    { structAttr "04.Bucket" bucketFields [.none, .none, .none, .none, .pad 4, .none] with
      size := fun v =>
        match v with
        | .obj c vs => if c = "04.Bucket" then bucketSize vs else .error .unmodelled
        | _ => .error .unmodelled
      usize := fun v =>
        match v with
        | .obj c vs => if c = "04.Bucket" then bucketSize vs else .error .unmodelled
        | _ => .error .unmodelled }
/-- ListOfBuckets, controller2switch/group_mod.py:51-63. -/
def buckets : Attr := listAttr (isObj "04.Bucket") bucket

/-- BucketCounter, controller2switch/common.py:252-270. -/
def bucketCounter : Attr := structAttr "04.BucketCounter" [("packet_count", ubint 8), ("byte_count", ubint 8)] [.none, .none]
/-- ListOfBucketCounter (lines 273-286). -/
def bucketCounters : Attr := listAttr (isObj "04.BucketCounter") bucketCounter

/-! ## Meters (controller2switch/meter_mod.py) -/

/-- MeterBandType, lines 53-61. -/
def bandTypes : List Nat := [1, 2, 0xffff]
/-- Lines 73-76. -/
def bandHead : Fields := [("band_type", ubint 2 (.enum bandTypes)), ("length", ubint 2), ("rate", ubint 4), ("burst_size", ubint 4)]
/-- Lines 148-160. -/
def bandDrop : Sub := plainSub "04.MeterBandDrop" (bandHead ++ [("pad", padAttr 4)])
/-- Lines 163-178. -/
def bandDscpRemark : Sub := plainSub "04.MeterBandDscpRemark" (bandHead ++ [("prec_level", ubint 1), ("pad", padAttr 3)])
/-- Lines 181-196. -/
def bandExperimenter : Sub := plainSub "04.MeterBandExperimenter" (bandHead ++ [("experimenter", ubint 4)])
/-- Lines 70-117. -/
def bandBase : Sub := plainSub "04.MeterBandHeader" bandHead

/-- find_class (lines 63-67): `types[0xffff]` is a `KeyError`. -/
def pickBand : Nat → Res Sub
  | 1 => .ok bandDrop
  | 2 => .ok bandDscpRemark
  | 3 => .ok bandExperimenter
  | _ => .error .key

def bandSubs : List Sub := [bandBase, bandDrop, bandDscpRemark, bandExperimenter]

/-- MeterBandHeader as list item; unpack: lines 96-117. -/
def band : Attr :=
  variantAttr (.obj "04.MeterBandHeader" [.none, .int 12, .none, .none]) (.enum bandTypes) true pickBand bandSubs
/-- ListOfMeterBandHeader (lines 199-212). -/
def bands : Attr := listAttr (isSub bandSubs) band

/-! ## Table features (controller2switch/common.py) -/

/-- TableFeaturePropType, lines 55-93. -/
def propertyTypes : List Nat := [0, 1, 2, 3, 4, 5, 6, 7, 8, 10, 12, 13, 14, 15, 0xfffe, 0xffff]
/-- Lines 435-436. -/
def propertyHead : Fields := [("property_type", ubint 2 (.enum propertyTypes)), ("length", ubint 2 .none (.int 4))]

def propertySub (name : String) (tail : Fields) : Sub := autoSub name (propertyHead ++ tail) 1

/-- Lines 486-509. -/
def instructionsProperty : Sub := propertySub "04.InstructionsProperty" [("instruction_ids", instructions)]
/-- Lines 512-536. -/
def nextTablesProperty : Sub := propertySub "04.NextTablesProperty" [("next_table_ids", instructions)]
/-- Lines 539-565. -/
def actionsProperty : Sub := propertySub "04.ActionsProperty" [("action_ids", actions)]
/-- Lines 568-595. -/
def oxmProperty : Sub := propertySub "04.OxmProperty" [("oxm_ids", oxms)]
/-- Lines 429-483. -/
def propertyBase : Sub := propertySub "04.Property" []

/-- find_class (lines 95-105). -/
def pickProperty (t : Nat) : Res Sub :=
  if t ≤ 1 then .ok instructionsProperty
  else if t ≤ 3 then .ok nextTablesProperty
  else if t ≤ 7 then .ok actionsProperty
  else .ok oxmProperty

def propertySubs : List Sub := [propertyBase, instructionsProperty, nextTablesProperty, actionsProperty, oxmProperty]

/-- Property as list item; pack: lines 449-457; unpack: lines 459-479. -/
def property : Attr :=
  variantAttr (.obj "04.Property" [.none, .ub 2 (.int 4)]) (.enum propertyTypes) true pickProperty propertySubs
/-- ListOfProperty (lines 598-611). -/
def properties : Attr := listAttr (isSub propertySubs) property

/-- TableFeatures, lines 621-636. -/
def tableFeaturesFields : Fields :=
  [("length", ubint 2), ("table_id", ubint 1), ("pad", padAttr 5), ("name", charAttr 32), ("metadata_match", ubint 8),
   ("metadata_write", ubint 8), ("config", ubint 4), ("max_entries", ubint 4), ("properties", properties)]
/-- TableFeatures (lines 614-706); pack: lines 676-684; unpack: lines 690-706. -/
def tableFeatures : Attr := lengthCut 0 (autoStruct "04.TableFeatures" tableFeaturesFields 0
  [.int 64, .enum 0xff, .pad 5, .str [], .int 0xffffffffffffffff, .int 0xffffffffffffffff, .int 0, .int 0, .list true []])

/-! ## Multipart bodies -/

/-- ExperimenterMultipartHeader, controller2switch/common.py:407-426. -/
def experimenterMultipart : Attr :=
  structAttr "04.ExperimenterMultipartHeader" [("experimenter", ubint 4), ("exp_type", ubint 4)] [.none, .none]

/-- FlowStatsRequest (controller2switch/multipart_request.py:212-220) and AggregateStatsRequest (163-180). -/
def flowStatsRequestFields : Fields :=
  [("table_id", ubint 1), ("pad", padAttr 3), ("out_port", ubint 4), ("out_group", ubint 4), ("pad2", padAttr 4),
   ("cookie", ubint 8), ("cookie_mask", ubint 8), ("match", «match»)]
/-- Their constructor defaults (lines 182-206, 222-247). -/
def flowStatsRequestInit : List Val :=
  [.enum 0xff, .pad 3, .enum 0xffffffff, .enum 0xffffffff, .pad 4, .int 0, .int 0, .obj "04.Match" matchInit]
def aggregateStatsRequest : Attr := structAttr "04.AggregateStatsRequest" flowStatsRequestFields flowStatsRequestInit
def flowStatsRequest : Attr := structAttr "04.FlowStatsRequest" flowStatsRequestFields flowStatsRequestInit
/-- PortStatsRequest, lines 250-267. -/
def portStatsRequest : Attr := structAttr "04.PortStatsRequest" [("port_no", ubint 4), ("pad", padAttr 4)] [.enum 0xffffffff, .pad 4]
/-- QueueStatsRequest, lines 270-286. -/
def queueStatsRequest : Attr :=
  structAttr "04.QueueStatsRequest" [("port_no", ubint 4), ("queue_id", ubint 4)] [.enum 0xffffffff, .int 0xffffffff]
/-- GroupStatsRequest, lines 289-305. -/
def groupStatsRequest : Attr := structAttr "04.GroupStatsRequest" [("group_id", ubint 4), ("pad", padAttr 4)] [.enum 0xfffffffc, .pad 4]
/-- MeterMultipartRequest, lines 308-329. -/
def meterMultipartRequest : Attr :=
  structAttr "04.MeterMultipartRequest" [("meter_id", ubint 4), ("pad", padAttr 4)] [.enum 0xffffffff, .pad 4]

/-- AggregateStatsReply, controller2switch/multipart_reply.py:182-188. -/
def aggregateStatsReply : Attr := structAttr "04.AggregateStatsReply"
  [("packet_count", ubint 8), ("byte_count", ubint 8), ("flow_count", ubint 4), ("pad", padAttr 4)] [.none, .none, .none, .pad 4]
/-- Desc, lines 213-221. -/
def desc : Attr := structAttr "04.Desc"
  [("mfr_desc", charAttr 256), ("hw_desc", charAttr 256), ("sw_desc", charAttr 256), ("serial_num", charAttr 32),
   ("dp_desc", charAttr 256)]
  [.none, .none, .none, .none, .none]
/-- FlowStats, lines 246-262. -/
def flowStatsFields : Fields :=
  [("length", ubint 2), ("table_id", ubint 1), ("pad", padAttr 1), ("duration_sec", ubint 4), ("duration_nsec", ubint 4),
   ("priority", ubint 2), ("idle_timeout", ubint 2), ("hard_timeout", ubint 2), ("flags", ubint 2), ("pad2", padAttr 4),
   ("cookie", ubint 8), ("packet_count", ubint 8), ("byte_count", ubint 8), ("match", «match»), ("instructions", instructions)]
/-- FlowStats; unpack: lines 301-313. -/
def flowStats : Attr := lengthCut 0 (structAttr "04.FlowStats" flowStatsFields
  [.none, .none, .pad 1, .none, .none, .none, .none, .none, .none, .pad 4, .none, .none, .none, .none, .list false []])
/-- PortStats, lines 322-338. -/
def portStats : Attr := structAttr "04.PortStats"
  [("port_no", ubint 4), ("pad", padAttr 4), ("rx_packets", ubint 8), ("tx_packets", ubint 8), ("rx_bytes", ubint 8),
   ("tx_bytes", ubint 8), ("rx_dropped", ubint 8), ("tx_dropped", ubint 8), ("rx_errors", ubint 8), ("tx_errors", ubint 8),
   ("rx_frame_err", ubint 8), ("rx_over_err", ubint 8), ("rx_crc_err", ubint 8), ("collisions", ubint 8),
   ("duration_sec", ubint 4), ("duration_nsec", ubint 4)]
  [.none, .pad 4, .none, .none, .none, .none, .none, .none, .none, .none, .none, .none, .none, .none, .none, .none]
/-- QueueStats, lines 394-400. -/
def queueStats : Attr := structAttr "04.QueueStats"
  [("port_no", ubint 4), ("queue_id", ubint 4), ("tx_bytes", ubint 8), ("tx_packets", ubint 8), ("tx_errors", ubint 8),
   ("duration_sec", ubint 4), ("duration_nsec", ubint 4)]
  [.none, .none, .none, .none, .none, .none, .none]
/-- GroupDescStats, lines 432-437. -/
def groupDescStats : Attr := structAttr "04.GroupDescStats"
  [("length", ubint 2), ("group_type", ubint 1), ("pad", padAttr 1), ("group_id", ubint 4),
   ("buckets", bareListAttr (isObj "04.Bucket") bucket)]
  [.none, .none, .pad 1, .none, .none]
/-- GroupFeatures, lines 460-469. -/
def groupFeatures : Attr := structAttr "04.GroupFeatures"
  [("types", ubint 4), ("capabilities", ubint 4 .mask), ("max_groups1", ubint 4), ("max_groups2", ubint 4),
   ("max_groups3", ubint 4), ("max_groups4", ubint 4), ("actions1", ubint 4), ("actions2", ubint 4), ("actions3", ubint 4),
   ("actions4", ubint 4)]
  [.none, .none, .none, .none, .none, .none, .none, .none, .none, .none]
/-- GroupStats, lines 500-511. -/
def groupStats : Attr := structAttr "04.GroupStats"
  [("length", ubint 2), ("pad", padAttr 2), ("group_id", ubint 4), ("ref_count", ubint 4), ("pad2", padAttr 4),
   ("packet_count", ubint 8), ("byte_count", ubint 8), ("duration_sec", ubint 4), ("duration_nsec", ubint 4),
   ("bucket_stats", bucketCounters)]
  [.none, .pad 2, .none, .none, .pad 4, .none, .none, .none, .none, .none]
/-- MeterConfig, lines 548-554. -/
def meterConfig : Attr := structAttr "04.MeterConfig"
  [("length", ubint 2), ("flags", ubint 2 .mask), ("meter_id", ubint 4), ("bands", bands)]
  [.ub 2 .none, .int 8, .none, .list false []]
/-- MeterFeatures, lines 579-584. -/
def meterFeatures : Attr := structAttr "04.MeterFeatures"
  [("max_meter", ubint 4), ("band_types", ubint 4 (.enum bandTypes)), ("capabilities", ubint 4 .mask), ("max_bands", ubint 1),
   ("max_color", ubint 1), ("pad", padAttr 2)]
  [.none, .none, .none, .none, .none, .pad 2]
/-- BandStats, lines 607-626. -/
def bandStats : Attr :=
  structAttr "04.BandStats" [("packet_band_count", ubint 8), ("byte_band_count", ubint 8)] [.none, .none]
/-- ListOfBandStats (lines 629-642). -/
def bandStatsList : Attr := listAttr (isObj "04.BandStats") bandStats
/-- MeterStats, lines 651-659. -/
def meterStatsFields : Fields :=
  [("meter_id", ubint 4), ("length", ubint 2), ("pad", padAttr 6), ("flow_count", ubint 4), ("packet_in_count", ubint 8),
   ("byte_in_count", ubint 8), ("duration_sec", ubint 4), ("duration_nsec", ubint 4), ("band_stats", bandStatsList)]
/-- MeterStats; pack: lines 691-699; unpack: lines 701-719.  The first of the two reads of `length` there cannot fail if
the second one does not, and its result is not used. -/
def meterStats : Attr := lengthCut 4 (autoStruct "04.MeterStats" meterStatsFields 1
  [.none, .int 40, .pad 6, .none, .none, .none, .none, .none, .list false []])
/-- TableStats, lines 725-730. -/
def tableStats : Attr := structAttr "04.TableStats"
  [("table_id", ubint 1), ("pad", padAttr 3), ("active_count", ubint 4), ("lookup_count", ubint 8), ("matched_count", ubint 8)]
  [.none, .pad 3, .none, .none, .none]

/-- The classes whose instances may be the body of a multipart message. -/
def bodyClasses : List (String × Attr) :=
  [("04.AggregateStatsRequest", aggregateStatsRequest), ("04.FlowStatsRequest", flowStatsRequest),
   ("04.PortStatsRequest", portStatsRequest), ("04.QueueStatsRequest", queueStatsRequest),
   ("04.GroupStatsRequest", groupStatsRequest), ("04.MeterMultipartRequest", meterMultipartRequest),
   ("04.ExperimenterMultipartHeader", experimenterMultipart), ("04.TableFeatures", tableFeatures),
   ("04.AggregateStatsReply", aggregateStatsReply), ("04.Desc", desc), ("04.FlowStats", flowStats),
   ("04.PortStats", portStats), ("04.QueueStats", queueStats), ("04.GroupDescStats", groupDescStats),
   ("04.GroupFeatures", groupFeatures), ("04.GroupStats", groupStats), ("04.MeterConfig", meterConfig),
   ("04.MeterFeatures", meterFeatures), ("04.MeterStats", meterStats), ("04.TableStats", tableStats), ("04.Port", port)]

/-! ## Messages -/

def msg (name : String) (code : Nat) (body : Fields) : MsgCls where
  name := name
  ver := 4
  types := types
  code := code
  body := body

/-- HelloElemHeader, symmetric/hello.py:32-34. -/
def helloElemFields : Fields := [("element_type", ubint 2), ("length", ubint 2), ("content", binAttr)]
/-- HelloElemHeader (lines 29-88); pack: lines 49-65; unpack: lines 71-88. -/
def helloElem : Attr := lengthCut 2 (autoStruct "04.HelloElemHeader" helloElemFields 1 [.none, .none, .bytes []])
/-- ListOfHelloElements (lines 91-104). -/
def helloElems : Attr := listAttr (isObj "04.HelloElemHeader") helloElem
/-- symmetric/hello.py:115-117 -/
def hello := msg "04.Hello" 0 [("elements", helloElems)]
/-- symmetric/echo_request.py:22-23 -/
def echoRequest := msg "04.EchoRequest" 2 [("data", binAttr)]
/-- symmetric/echo_reply.py:22-23 -/
def echoReply := msg "04.EchoReply" 3 [("data", binAttr)]
/-- symmetric/experimenter.py:34-37 -/
def experimenter := msg "04.ExperimenterHeader" 4 [("experimenter", ubint 4), ("exp_type", ubint 4), ("data", binAttr)]
/-- controller2switch/features_request.py:17 -/
def featuresRequest := msg "04.FeaturesRequest" 5 []
/-- controller2switch/features_reply.py:44-56, 83 -/
def featuresReply := msg "04.FeaturesReply" 6
  [("datapath_id", dpidAttr), ("n_buffers", ubint 4), ("n_tables", ubint 1), ("auxiliary_id", ubint 1), ("pad", padAttr 2),
   ("capabilities", ubint 4 .mask), ("reserved", ubint 4)]
/-- controller2switch/get_config_request.py:14 -/
def getConfigRequest := msg "04.GetConfigRequest" 7 []
/-- SwitchConfig, controller2switch/common.py:386-387; ConfigFlag lines 30-39 -/
def switchConfigFields : Fields := [("flags", ubint 2 (.enum [0, 1, 2, 3])), ("miss_send_len", ubint 2)]
/-- controller2switch/get_config_reply.py -/
def getConfigReply := msg "04.GetConfigReply" 8 switchConfigFields
/-- controller2switch/set_config.py -/
def setConfig := msg "04.SetConfig" 9 switchConfigFields
/-- asynchronous/packet_in.py:37-57; PacketInReason lines 20-29 -/
def packetIn := msg "04.PacketIn" 10
  [("buffer_id", ubint 4), ("total_len", ubint 2), ("reason", ubint 1 (.enum [0, 1, 2])), ("table_id", ubint 1),
   ("cookie", ubint 8), ("match", «match»), ("pad", padAttr 2), ("data", binAttr)]
/-- asynchronous/flow_removed.py:39-60; FlowRemovedReason lines 16-27 -/
def flowRemoved := msg "04.FlowRemoved" 11
  [("cookie", ubint 8), ("priority", ubint 2), ("reason", ubint 1 (.enum [0, 1, 2, 3])), ("table_id", ubint 1),
   ("duration_sec", ubint 4), ("duration_nsec", ubint 4), ("idle_timeout", ubint 2), ("hard_timeout", ubint 2),
   ("packet_count", ubint 8), ("byte_count", ubint 8), ("match", «match»)]
/-- asynchronous/port_status.py:35-41; PortReason lines 18-26 -/
def portStatus := msg "04.PortStatus" 12 [("reason", ubint 1 (.enum [0, 1, 2])), ("pad", padAttr 7), ("desc", port)]
/-- controller2switch/flow_mod.py:52-71; FlowModCommand lines 21-33 -/
def flowMod := msg "04.FlowMod" 14
  [("cookie", ubint 8), ("cookie_mask", ubint 8), ("table_id", ubint 1), ("command", ubint 1 (.enum [0, 1, 2, 3, 4])),
   ("idle_timeout", ubint 2), ("hard_timeout", ubint 2), ("priority", ubint 2), ("buffer_id", ubint 4), ("out_port", ubint 4),
   ("out_group", ubint 4), ("flags", ubint 2 .mask), ("pad", padAttr 2), ("match", «match»), ("instructions", instructions)]
/-- controller2switch/group_mod.py:69-75; GroupModCommand lines 27-35 -/
def groupMod := msg "04.GroupMod" 15
  [("command", ubint 2 (.enum [0, 1, 2])), ("group_type", ubint 1), ("pad", padAttr 1), ("group_id", ubint 4), ("buckets", buckets)]
/-- controller2switch/port_mod.py:21-30 -/
def portMod := msg "04.PortMod" 16
  [("port_no", ubint 4), ("pad", padAttr 4), ("hw_addr", hwAttr), ("pad2", padAttr 2), ("config", ubint 4 .mask),
   ("mask", ubint 4 .mask), ("advertise", ubint 4 .mask), ("pad3", padAttr 4)]
/-- controller2switch/table_mod.py:24-28 -/
def tableMod := msg "04.TableMod" 17 [("table_id", ubint 1), ("pad", padAttr 3), ("config", ubint 4)]
/-- controller2switch/barrier_request.py:21 -/
def barrierRequest := msg "04.BarrierRequest" 20 []
/-- controller2switch/barrier_reply.py:21 -/
def barrierReply := msg "04.BarrierReply" 21 []
/-- controller2switch/queue_get_config_request.py:19-24: the header says `OFPT_GET_CONFIG_REQUEST` (7). -/
def queueGetConfigRequest := msg "04.QueueGetConfigRequest" 7 [("port", ubint 4 (.enum portEnum)), ("pad", padAttr 4)]
/-- controller2switch/queue_get_config_reply.py:20-28: the header says `OFPT_GET_CONFIG_REPLY` (8). -/
def queueGetConfigReply := msg "04.QueueGetConfigReply" 8
  [("port", ubint 4 (.enum portEnum)), ("pad", padAttr 4), ("queues", queues)]
/-- RoleBaseMessage, controller2switch/common.py:354-365; ControllerRole lines 42-52 -/
def roleFields : Fields := [("role", ubint 4 (.enum [0, 1, 2, 3])), ("pad", padAttr 4), ("generation_id", ubint 8)]
/-- controller2switch/role_request.py -/
def roleRequest := msg "04.RoleRequest" 24 roleFields
/-- controller2switch/role_reply.py -/
def roleReply := msg "04.RoleReply" 25 roleFields
/-- controller2switch/get_async_request.py:21 -/
def getAsyncRequest := msg "04.GetAsyncRequest" 26 []
/-- AsyncConfig, controller2switch/common.py:311-316 -/
def asyncFields : Fields :=
  [("packet_in_mask1", ubint 4 (.enum [0, 1, 2])), ("packet_in_mask2", ubint 4 (.enum [0, 1, 2])),
   ("port_status_mask1", ubint 4 (.enum [0, 1, 2])), ("port_status_mask2", ubint 4 (.enum [0, 1, 2])),
   ("flow_removed_mask1", ubint 4 (.enum [0, 1, 2, 3])), ("flow_removed_mask2", ubint 4 (.enum [0, 1, 2, 3]))]
/-- controller2switch/get_async_reply.py -/
def getAsyncReply := msg "04.GetAsyncReply" 27 asyncFields
/-- controller2switch/set_async.py -/
def setAsync := msg "04.SetAsync" 28 asyncFields
/-- controller2switch/meter_mod.py:123-127; MeterModCommand lines 29-37 -/
def meterMod := msg "04.MeterMod" 29
  [("command", ubint 2 (.enum [0, 1, 2])), ("flags", ubint 2 .mask), ("meter_id", ubint 4),
   ("bands", bareListAttr (isSub bandSubs) band)]

/-! ### PacketOut (controller2switch/packet_out.py) -/

/-- Lines 26-37. -/
def packetOutFields : Fields :=
  [("buffer_id", ubint 4), ("in_port", ubint 4), ("actions_len", ubint 2), ("pad", padAttr 6), ("actions", actions),
   ("data", binAttr)]

/-- _update_actions_len (lines 115-120). -/
def packetOutPrep : List Val → Res (List Val)
  | [b, p, _, pad, acts, d] =>
    match actions.size acts with
    | .error e => .error e
    | .ok n => .ok [b, p, .int n, pad, acts, d]
  | _ => .error .unmodelled

/-- validate, is_valid, _validate_in_port (lines 62-75, 122-127). -/
def packetOutValid : List Val → Res Unit
  | _ :: p :: _ =>
    match cmpNum p with
    | none => .error .type
    | some i =>
      if (0 < i ∧ i ≤ 0xffffff00) ∨ i = 0xfffffffe ∨ i = 0xfffffffd ∨ i = 0xffffffff then .ok () else .error .validation
  | _ => .error .unmodelled

/-- PacketOut.unpack (lines 87-113): like `GenericMessage.unpack` but without the test for an empty buffer, and the
actions only see `buff[begin:begin+actions_len]`. -/
def packetOutUnpack (buff : Bytes) : Res (List Val) :=
  match ubUnpack 4 .none buff 0 with
  | .error e => .error e
  | .ok b =>
    match ubUnpack 4 .none buff 4 with
    | .error e => .error e
    | .ok p =>
      match ubUnpack 2 .none buff 8 with
      | .error e => .error e
      | .ok l =>
        match actions.unpack (slice buff 16 (16 + gotNum l)) 0 with
        | .error e => .error e
        | .ok acts =>
          match actions.usize acts with
          | .error e => .error e
          | .ok n =>
            match (binAttr).unpack buff (16 + n) with
            | .error e => .error e
            | .ok d => .ok [b, p, l, .pad 6, acts, d]

def packetOut : MsgCls :=
  { msg "04.PacketOut" 13 packetOutFields with
    prep := packetOutPrep
    valid := packetOutValid
    after := fun vs => match packetOutPrep vs with | .ok ws => postAttrs packetOutFields ws | .error _ => vs
    unpack := packetOutUnpack }

/-! ### ErrorMsg (asynchronous/error_msg.py) -/

/-- ErrorType and get_class (lines 173-232): code class of each error type (values of its members, lines 24-438). -/
def errorCodes : List (Nat × List Nat) :=
  [(0, List.range 2), (1, List.range 14), (2, List.range 16), (3, List.range 9), (4, List.range 12), (5, List.range 8),
   (6, List.range 15), (7, List.range 5), (8, List.range 3), (9, List.range 3), (10, List.range 3), (11, List.range 3),
   (12, List.range 12), (13, List.range 6), (0xffff, List.range 1)]

/-- Lines 450-454. -/
def errorFields : Fields := [("error_type", ubint 2 (.enum (errorCodes.map (·.1)))), ("code", ubint 2), ("data", binAttr)]

/-- ErrorMsg.unpack (lines 474-478): the code must be a member of the class that belongs to the error type. -/
def errorUnpack (buff : Bytes) : Res (List Val) :=
  match unpackAttrs errorFields buff 0 with
  | .error e => .error e
  | .ok ([.ub 2 (.enum t), .ub 2 (.int c), d], _) =>
    match errorCodes.lookup t.toNat with
    | none => .error .value
    | some ms => if c.toNat ∈ ms then .ok [.ub 2 (.enum t), .enum c, d] else .error .value
  | .ok _ => .error .value

def errorMsg : MsgCls := { msg "04.ErrorMsg" 1 errorFields with unpack := errorUnpack }

/-! ### MultipartRequest, MultipartReply (controller2switch/multipart_request.py, multipart_reply.py) -/

/-- MultipartRequest, lines 52-58; MultipartRequestFlags lines 29-37. -/
def multipartRequestFields : Fields :=
  [("multipart_type", ubint 2 (.enum multipartTypes)), ("flags", ubint 2 (.enum [0, 1])), ("pad", padAttr 4), ("body", binAttr)]
/-- MultipartReply, lines 65-71. -/
def multipartReplyFields : Fields :=
  [("multipart_type", ubint 2 (.enum multipartTypes)), ("flags", ubint 2), ("pad", padAttr 4), ("body", binAttr)]

/-- `simple_body` of MultipartRequest._get_body_instance (lines 132-140). -/
def requestSimple : Nat → Option Attr
  | 1 => some flowStatsRequest
  | 2 => some aggregateStatsRequest
  | 4 => some portStatsRequest
  | 5 => some queueStatsRequest
  | 6 => some groupStatsRequest
  | 9 => some meterMultipartRequest
  | 0xffff => some experimenterMultipart
  | _ => none
/-- `array_of_bodies` (line 142), with the name of the class. -/
def requestArray : Nat → Option (String × Attr)
  | 12 => some ("04.TableFeatures", tableFeatures)
  | _ => none
/-- `simple_body` of MultipartReply._get_body_instance (multipart_reply.py:144-147). -/
def replySimple : Nat → Option Attr
  | 0 => some desc
  | 8 => some groupFeatures
  | 11 => some meterFeatures
  | 0xffff => some experimenterMultipart
  | _ => none
/-- `array_of_bodies` (lines 149-159). -/
def replyArray : Nat → Option (String × Attr)
  | 1 => some ("04.FlowStats", flowStats)
  | 2 => some ("04.AggregateStatsReply", aggregateStatsReply)
  | 3 => some ("04.TableStats", tableStats)
  | 4 => some ("04.PortStats", portStats)
  | 5 => some ("04.QueueStats", queueStats)
  | 6 => some ("04.GroupStats", groupStats)
  | 7 => some ("04.GroupDescStats", groupDescStats)
  | 9 => some ("04.MeterStats", meterStats)
  | 10 => some ("04.MeterConfig", meterConfig)
  | 12 => some ("04.TableFeatures", tableFeatures)
  | 13 => some ("04.Port", port)
  | _ => none

/-- `self.multipart_type` as key of the two dictionaries: a number, an enum member, or a decoded `UBInt16` (lines
144-146; one without an enum class is not modelled).  Lists, structures and objects of the basic classes define `__eq__` without
`__hash__` and cannot be keys. -/
def bodyKey : Val → Res Int
  | .int i => .ok i
  | .enum i => .ok i
  | .ub _ (.enum i) => .ok i
  | .ub _ _ => .error .unmodelled
  | .list _ _ | .obj _ _ | .hw _ | .ip _ _ | .ip6 _ _ | .dpid _ | .chr _ _ | .bin _ | .pad _ => .error .type
  | _ => .ok (-1)

/-- The `pack` methods (multipart_request.py:74-104, multipart_reply.py:88-114) up to `super().pack()`.  A list is first
copied into the instance made by `_get_body_instance`; only a `FixedTypeList` has `extend`.  If the body is neither a
list nor has a `pack` method, `obj` is unbound. -/
def multipartPrep (simple : Nat → Option Attr) (array : Nat → Option (String × Attr)) : List Val → Res (List Val)
  | [t, f, p, body] =>
    if pyTrue body then
      match body with
      | .list _ xs =>
        match bodyKey t with
        | .error e => .error e
        | .ok k =>
          match (if 0 ≤ k ∧ (simple k.toNat).isNone then array k.toNat else none) with
          | none => .error .attribute
          | some (c, a) =>
            match addItems (isObj c) xs with
            | .error e => .error e
            | .ok ys =>
              match packItems a ys with
              | .error e => .error e
              | .ok b => .ok [t, f, p, .bytes b]
      | _ =>
        match selfPack bodyClasses body with
        | none => .error .unboundLocal
        | some (.error e) => .error e
        | some (.ok b) => .ok [t, f, p, .bytes b]
    else .ok [t, f, p, body]
  | _ => .error .unmodelled

/-- The `unpack` methods (multipart_request.py:106-128, multipart_reply.py:116-139).  On an empty buffer the type is
`None`, which is no member of the enum. -/
def multipartUnpack (fields : Fields) (simple : Nat → Option Attr) (array : Nat → Option (String × Attr)) (buff : Bytes) :
    Res (List Val) :=
  match unpackAttrs fields buff 0 with
  | .error e => .error e
  | .ok ([.ub 2 (.enum t), f, p, body], _) =>
    match simple t.toNat with
    | some c =>
      match c.unpack (rawBody body) 0 with
      | .error e => .error e
      | .ok u => .ok [.enum t, f, p, u]
    | none =>
      match array t.toNat with
      | some (_, a) =>
        match unpackItems a (rawBody body) 0 with
        | .error e => .error e
        | .ok xs => .ok [.enum t, f, p, .list true xs]
      | none => .ok [.enum t, f, p, .bin (.bytes (rawBody body))]
  | .ok _ => .error .value

/-- What packing does to an object held in the body: length attributes are updated. -/
def bodyPost : Val → Val
  | .obj c vs => (match bodyClasses.lookup c with | some a => a.post (.obj c vs) | none => .obj c vs)
  | v => v

/-- The attributes after a successful `pack`: `body` is restored, the objects in it have been packed, and for a list
`_get_body_instance` has replaced a `UBInt16` type by the enum member.  (Lists inside lists are not followed.) -/
def multipartAfter : List Val → List Val
  | [t, f, p, body] =>
    if pyTrue body then
      match body with
      | .list g xs => [(match t with | .ub _ (.enum i) => .enum i | t => t), f, p, .list g (xs.map bodyPost)]
      | body => [t, f, p, bodyPost body]
    else [t, f, p, body]
  | vs => vs

def multipartRequest : MsgCls :=
  { msg "04.MultipartRequest" 18 multipartRequestFields with
    prep := multipartPrep requestSimple requestArray
    size := sizeWithBody bodyClasses multipartRequestFields
    after := multipartAfter
    unpack := multipartUnpack multipartRequestFields requestSimple requestArray }
def multipartReply : MsgCls :=
  { msg "04.MultipartReply" 19 multipartReplyFields with
    prep := multipartPrep replySimple replyArray
    size := sizeWithBody bodyClasses multipartReplyFields
    after := multipartAfter
    unpack := multipartUnpack multipartReplyFields replySimple replyArray }

/-! ## MESSAGE_TYPES (common/utils.py:48-107) -/

def lib : Lib where
  ver := 4
  types := types
  classes :=
    [(0, hello), (1, errorMsg), (2, echoRequest), (3, echoReply), (4, experimenter), (5, featuresRequest),
     (6, featuresReply), (7, getConfigRequest), (8, getConfigReply), (9, setConfig), (10, packetIn), (11, flowRemoved),
     (12, portStatus), (13, packetOut), (14, flowMod), (15, groupMod), (16, portMod), (17, tableMod), (18, multipartRequest),
     (19, multipartReply), (20, barrierRequest), (21, barrierReply), (22, queueGetConfigRequest), (23, queueGetConfigReply),
     (24, roleRequest), (25, roleReply), (26, getAsyncRequest), (27, getAsyncReply), (28, setAsync), (29, meterMod)]

end Pyof.V04
