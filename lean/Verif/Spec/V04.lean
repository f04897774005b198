import Verif.Spec.Layout
import Verif.Spec.Msg
/-!
# Specification: the OpenFlow 1.3 wire formats

Transcribed from the C structures of the OpenFlow Switch Specification 1.3, with the attribute names of
the library.  `members` lists what a decoder accepts in an enumerated field.  Which class may appear inside a
table-feature property is taken from the library (it uses whole instructions, actions and OXM fields there).
-/
namespace Pyof.Spec.V04

abbrev u8 := uint 1
abbrev u16 := uint 2
abbrev u32 := uint 4
abbrev u64 := uint 8

/-! ## ofp_match -/

/-- The number in `oxm_field`: an int or an enum member. -/
def fieldNum : Val → Option Nat
  | .int i => if 0 ≤ i then some i.toNat else none
  | .enum i => if 0 ≤ i then some i.toNat else none
  | _ => none

/-- `oxm_hasmask`. -/
def maskNum : Val → Option Nat
  | .int 0 => some 0
  | .int 1 => some 1
  | _ => none

/-- An OXM field: 16-bit class, 7-bit field, 1-bit mask flag, 8-bit payload length, payload.  Class 0x8000 (basic) defines the
fields 0 to 39. -/
def oxm : Fmt where
  den := fun v =>
    match v with
    | .obj cls [c, _, _, v, f, m] =>
      if cls = "04.OxmTLV" then
        match numOf c, fieldNum f, maskNum m, rest.den v with
        | some c, some f, some m, some d => some (.record [.num c, .num f, .num m, d])
        | _, _, _, _ => none
      else none
    | _ => none
  enc := fun d =>
    match d with
    | .record [.num c, .num f, .num m, .raw v] =>
      if c < 65536 ∧ f < 128 ∧ (c = 0x8000 → f < 40) ∧ m < 2 ∧ v.length < 256 then
        some (be 2 c ++ be 1 (f * 2 + m) ++ be 1 v.length ++ v)
      else none
    | _ => none
  ok := fun d => match d with | .record (.num c :: _) => c = 0 ∨ c = 1 ∨ c = 0x8000 ∨ c = 0xffff | _ => False

def oxms : Fmt := list oxm

/-- `struct ofp_match`: the length does not count the padding that follows.  A `match` attribute left at `None` is the empty
match. -/
def «match» : Fmt :=
  orDefault (.record [.num 1, .arr []])
    (pad8 (ownLen "04.Match" [("match_type", uint 2 (some [0, 1]))] [("oxm_match_fields", oxms)]))

/-! ## Actions -/

/-- `enum ofp_action_type` -/
def actionMembers : List Nat := [0, 11, 12, 15, 16, 17, 18, 19, 20, 21, 22, 23, 24, 25, 26, 27, 0xffff]

/-- The action structure for each `enum ofp_action_type`. -/
def actionSel (t : Nat) : Option String :=
  if t = 0 then some "04.ActionOutput"
  else if t = 11 then some "04.ActionCopyTTLOut"
  else if t = 12 then some "04.ActionCopyTTLIn"
  else if t = 15 then some "04.ActionSetMPLSTTL"
  else if t = 16 then some "04.ActionDecMPLSTTL"
  else if t = 17 ∨ t = 19 ∨ t = 26 then some "04.ActionPush"
  else if t = 18 then some "04.ActionPopVLAN"
  else if t = 20 then some "04.ActionPopMPLS"
  else if t = 21 then some "04.ActionSetQueue"
  else if t = 22 then some "04.ActionGroup"
  else if t = 23 then some "04.ActionSetNWTTL"
  else if t = 24 then some "04.ActionDecNWTTL"
  else if t = 25 then some "04.ActionSetField"
  else if t = 27 then some "04.ActionPopPBB"
  else if t = 0xffff then some "04.ActionExperimenter"
  else none

def actionTail : String → FieldFmts
  | "04.ActionOutput" => [("port", u32), ("max_length", u16), ("pad", pad 6)]
  | "04.ActionSetMPLSTTL" => [("mpls_ttl", u8), ("pad", pad 3)]
  | "04.ActionPush" => [("ethertype", u16), ("pad", pad 2)]
  | "04.ActionPopMPLS" => [("ethertype", u16), ("pad", pad 2)]
  | "04.ActionSetQueue" => [("queue_id", u32)]
  | "04.ActionGroup" => [("group_id", u32)]
  | "04.ActionSetNWTTL" => [("nw_ttl", u8), ("pad", pad 3)]
  | "04.ActionExperimenter" => [("experimenter", u32), ("body", rest8)]
  | _ => [("pad", pad 4)]

/-- `struct ofp_action_set_field`: the length counts the zeros that complete the last 8 bytes, and is computed. -/
def setField : Fmt where
  den := fun v =>
    match v with
    | .obj c [t, _, x] =>
      if c = "04.ActionSetField" then
        match numOf t, oxm.den x with
        | some t, some d => some (.record [.num t, d])
        | _, _ => none
      else none
    | _ => none
  enc := fun d =>
    match d with
    | .record [.num t, x] =>
      match oxm.enc x with
      | some b =>
        if t < 65536 then
          some (be 2 t ++ be 2 (4 + b.length + (zeros8 (4 + b.length)).length) ++ b ++ zeros8 (4 + b.length))
        else none
      | none => none
    | _ => none
  ok := fun d => match d with | .record [.num t, x] => t ∈ actionMembers ∧ oxm.ok x | _ => False

def actionLay (c : String) : Fmt :=
  if c = "04.ActionSetField" then setField
  else struct c (("action_type", uint 2 (some actionMembers)) :: ("length", u16) :: actionTail c)

/-- Every action announces its total length, which the user has to give for all but set-field. -/
def action : Fmt := delimited 2 (union actionSel actionLay)
def actions : Fmt := list action

/-! ## Instructions -/

/-- `enum ofp_instruction_type` -/
def instructionMembers : List Nat := [1, 2, 3, 4, 5, 6, 0xffff]

def instructionSel (t : Nat) : Option String :=
  if t = 1 then some "04.InstructionGotoTable"
  else if t = 2 then some "04.InstructionWriteMetadata"
  else if t = 3 then some "04.InstructionWriteAction"
  else if t = 4 then some "04.InstructionApplyAction"
  else if t = 5 then some "04.InstructionClearAction"
  else if t = 6 then some "04.InstructionMeter"
  else none

def instructionTail : String → FieldFmts
  | "04.InstructionGotoTable" => [("table_id", u8), ("pad", pad 3)]
  | "04.InstructionWriteMetadata" => [("pad", pad 4), ("metadata", u64), ("metadata_mask", u64)]
  | "04.InstructionMeter" => [("meter_id", u32)]
  | _ => [("pad", pad 4), ("actions", actions)]

def instruction : Fmt := union instructionSel fun c => ownLen c [("instruction_type", uint 2 (some instructionMembers))] (instructionTail c)
def instructions : Fmt := list instruction

/-! ## Ports, groups, meters -/

def port : Fmt := struct "04.Port"
  [("port_no", u32), ("pad", pad 4), ("hw_addr", hw), ("pad2", pad 2), ("name", text 16), ("config", u32), ("state", u32),
   ("curr", u32), ("advertised", u32), ("supported", u32), ("peer", u32), ("curr_speed", u32), ("max_speed", u32)]

/-- `struct ofp_bucket`; the user gives the length. -/
def bucketRaw (acts : Fmt) : Fmt := struct "04.Bucket"
  [("length", u16), ("weight", u16), ("watch_port", u32), ("watch_group", u32), ("pad", pad 4), ("actions", acts)]
def bucket : Fmt := exact 0 (bucketRaw (bareList action))

def bucketCounter : Fmt := struct "04.BucketCounter" [("packet_count", u64), ("byte_count", u64)]

def bandSel (t : Nat) : Option String :=
  if t = 1 then some "04.MeterBandDrop" else if t = 2 then some "04.MeterBandDscpRemark" else none
def bandTail : String → FieldFmts
  | "04.MeterBandDrop" => [("pad", pad 4)]
  | _ => [("prec_level", u8), ("pad", pad 3)]
/-- `struct ofp_meter_band_drop`, `struct ofp_meter_band_dscp_remark`. -/
def band : Fmt := delimited 2 (union bandSel fun c =>
  struct c (("band_type", uint 2 (some [1, 2, 0xffff])) :: ("length", u16) :: ("rate", u32) :: ("burst_size", u32) :: bandTail c))

/-! ## Table features -/

def propertyMembers : List Nat := [0, 1, 2, 3, 4, 5, 6, 7, 8, 10, 12, 13, 14, 15, 0xfffe, 0xffff]

def propertySel (t : Nat) : Option String :=
  if t = 0 ∨ t = 1 then some "04.InstructionsProperty"
  else if t = 2 ∨ t = 3 then some "04.NextTablesProperty"
  else if t = 4 ∨ t = 5 ∨ t = 6 ∨ t = 7 then some "04.ActionsProperty"
  else if t ∈ propertyMembers then some "04.OxmProperty"
  else none

def propertyTail : String → FieldFmts
  | "04.InstructionsProperty" => [("instruction_ids", instructions)]
  | "04.NextTablesProperty" => [("next_table_ids", instructions)]
  | "04.ActionsProperty" => [("action_ids", actions)]
  | _ => [("oxm_ids", oxms)]

def property : Fmt := union propertySel fun c => ownLen c [("property_type", uint 2 (some propertyMembers))] (propertyTail c)

/-- `struct ofp_table_features` -/
def tableFeatures : Fmt := ownLen "04.TableFeatures" []
  [("table_id", u8), ("pad", pad 5), ("name", text 32), ("metadata_match", u64), ("metadata_write", u64), ("config", u32),
   ("max_entries", u32), ("properties", list property)]

/-! ## Multipart bodies -/

def experimenterMultipart : Fmt := struct "04.ExperimenterMultipartHeader" [("experimenter", u32), ("exp_type", u32)]
def flowStatsRequestFields : FieldFmts :=
  [("table_id", u8), ("pad", pad 3), ("out_port", u32), ("out_group", u32), ("pad2", pad 4), ("cookie", u64), ("cookie_mask", u64),
   ("match", «match»)]
def flowStatsRequest : Fmt := struct "04.FlowStatsRequest" flowStatsRequestFields
def aggregateStatsRequest : Fmt := struct "04.AggregateStatsRequest" flowStatsRequestFields
def portStatsRequest : Fmt := struct "04.PortStatsRequest" [("port_no", u32), ("pad", pad 4)]
def queuePropHeader : Fmt := struct "04.QueuePropHeader"
  [("queue_property", uint 2 (some [1, 2, 0xffff])), ("length", u16), ("pad", pad 4)]
def packetQueue : Fmt := struct "04.PacketQueue"
  [("queue_id", u32), ("port", u32), ("length", u16), ("pad", pad 6), ("properties", list queuePropHeader)]
def queueStatsRequest : Fmt := struct "04.QueueStatsRequest" [("port_no", u32), ("queue_id", u32)]
def groupStatsRequest : Fmt := struct "04.GroupStatsRequest" [("group_id", u32), ("pad", pad 4)]
def meterMultipartRequest : Fmt := struct "04.MeterMultipartRequest" [("meter_id", u32), ("pad", pad 4)]

def aggregateStatsReply : Fmt := struct "04.AggregateStatsReply"
  [("packet_count", u64), ("byte_count", u64), ("flow_count", u32), ("pad", pad 4)]
def desc : Fmt := struct "04.Desc"
  [("mfr_desc", text 256), ("hw_desc", text 256), ("sw_desc", text 256), ("serial_num", text 32), ("dp_desc", text 256)]
/-- `struct ofp_flow_stats`; the user gives the length. -/
def flowStats : Fmt := delimited 0 (struct "04.FlowStats"
  [("length", u16), ("table_id", u8), ("pad", pad 1), ("duration_sec", u32), ("duration_nsec", u32), ("priority", u16),
   ("idle_timeout", u16), ("hard_timeout", u16), ("flags", u16), ("pad2", pad 4), ("cookie", u64), ("packet_count", u64),
   ("byte_count", u64), ("match", «match»), ("instructions", instructions)])
def portStats : Fmt := struct "04.PortStats"
  [("port_no", u32), ("pad", pad 4), ("rx_packets", u64), ("tx_packets", u64), ("rx_bytes", u64), ("tx_bytes", u64),
   ("rx_dropped", u64), ("tx_dropped", u64), ("rx_errors", u64), ("tx_errors", u64), ("rx_frame_err", u64), ("rx_over_err", u64),
   ("rx_crc_err", u64), ("collisions", u64), ("duration_sec", u32), ("duration_nsec", u32)]
def queueStats : Fmt := struct "04.QueueStats"
  [("port_no", u32), ("queue_id", u32), ("tx_bytes", u64), ("tx_packets", u64), ("tx_errors", u64), ("duration_sec", u32),
   ("duration_nsec", u32)]
/-- The library neither counts nor converts the buckets: they have to be absent. -/
def groupDescStats : Fmt := struct "04.GroupDescStats"
  [("length", u16), ("group_type", u8), ("pad", pad 1), ("group_id", u32), ("buckets", noItems)]
def groupFeatures : Fmt := struct "04.GroupFeatures"
  [("types", u32), ("capabilities", u32), ("max_groups1", u32), ("max_groups2", u32), ("max_groups3", u32), ("max_groups4", u32),
   ("actions1", u32), ("actions2", u32), ("actions3", u32), ("actions4", u32)]
def groupStats : Fmt := struct "04.GroupStats"
  [("length", u16), ("pad", pad 2), ("group_id", u32), ("ref_count", u32), ("pad2", pad 4), ("packet_count", u64),
   ("byte_count", u64), ("duration_sec", u32), ("duration_nsec", u32), ("bucket_stats", list bucketCounter)]
def meterConfig : Fmt := struct "04.MeterConfig" [("length", u16), ("flags", u16), ("meter_id", u32), ("bands", list band)]
def meterFeatures : Fmt := struct "04.MeterFeatures"
  [("max_meter", u32), ("band_types", uint 4 (some [1, 2, 0xffff])), ("capabilities", u32), ("max_bands", u8), ("max_color", u8),
   ("pad", pad 2)]
def bandStats : Fmt := struct "04.BandStats" [("packet_band_count", u64), ("byte_band_count", u64)]
def meterStats : Fmt := ownLen "04.MeterStats" [("meter_id", u32)]
  [("pad", pad 6), ("flow_count", u32), ("packet_in_count", u64), ("byte_in_count", u64), ("duration_sec", u32),
   ("duration_nsec", u32), ("band_stats", list bandStats)]
def tableStats : Fmt := struct "04.TableStats"
  [("table_id", u8), ("pad", pad 3), ("active_count", u32), ("lookup_count", u64), ("matched_count", u64)]

/-- What the body of a multipart message is: one structure, an array of structures, or uninterpreted bytes.  `single` marks
structures that run to the end of the packet in this library, so that only one fits. -/
inductive Body
  | one (f : Fmt)
  | many (f : Fmt) (single : Bool)
  | opaque

def requestBody : Nat → Body
  | 1 => .one flowStatsRequest
  | 2 => .one aggregateStatsRequest
  | 4 => .one portStatsRequest
  | 5 => .one queueStatsRequest
  | 6 => .one groupStatsRequest
  | 9 => .one meterMultipartRequest
  | 12 => .many tableFeatures false
  | 0xffff => .one experimenterMultipart
  | _ => .opaque

def replyBody : Nat → Body
  | 0 => .one desc
  | 1 => .many flowStats false
  | 2 => .many aggregateStatsReply false
  | 3 => .many tableStats false
  | 4 => .many portStats false
  | 5 => .many queueStats false
  | 6 => .many groupStats true
  | 7 => .many groupDescStats true
  | 8 => .one groupFeatures
  | 9 => .many meterStats false
  | 10 => .many meterConfig true
  | 11 => .one meterFeatures
  | 12 => .many tableFeatures false
  | 13 => .many port false
  | 0xffff => .one experimenterMultipart
  | _ => .opaque

/-- The objects in a body: a list or `FixedTypeList` of them, a single one, or nothing. -/
def arrayItems : Val → Option (List Val)
  | .list false (x :: xs) => some (x :: xs)
  | v => bodyItems v

def Body.den : Body → Val → Option Data
  | .one f, v => (match v with | .obj c vs => f.den (.obj c vs) | _ => none)
  | .many f _, v => (match arrayItems v with | some xs => (optMap f.den xs).map .arr | none => none)
  | .opaque, v => (match v with | .bytes (_ :: _) => none | v => rest.den v)

def Body.enc : Body → Data → Option Bytes
  | .one f, d => f.enc d
  | .many f _, d => (list f).enc d
  | .opaque, d => rest.enc d

def Body.ok : Body → Data → Prop
  | .one f, d => f.ok d
  | .many f single, d => (match d with | .arr ds => (single = true → ds.length ≤ 1) ∧ ∀ x ∈ ds, f.ok x | _ => False)
  | .opaque, _ => True

def multipartTypes : List Nat := [0, 1, 2, 3, 4, 5, 6, 7, 8, 9, 10, 11, 12, 13, 0xffff]

/-- `type`, `flags`, four zero bytes, body. -/
def multipart (cls : String) (kind : Nat → Body) (flags : Option (List Nat)) : Fmt where
  den := fun v =>
    match v with
    | .obj c [t, f, _, body] =>
      if c = cls then
        match fieldNum t, numOf f with
        | some t, some f => ((kind t).den body).map fun d => .record [.num t, .num f, d]
        | _, _ => none
      else none
    | _ => none
  enc := fun d =>
    match d with
    | .record [.num t, .num f, d] =>
      if t < 65536 ∧ f < 65536 then ((kind t).enc d).map fun b => be 2 t ++ be 2 f ++ [0, 0, 0, 0] ++ b else none
    | _ => none
  ok := fun d =>
    match d with
    | .record [.num t, .num f, d] => t ∈ multipartTypes ∧ (∀ ms, flags = some ms → f ∈ ms) ∧ (kind t).ok d
    | _ => False

/-! ## PacketOut, ErrorMsg -/

/-- Input ports a packet-out may name: physical ports, CONTROLLER, LOCAL, ANY. -/
def inPortOk (p : Nat) : Prop := (0 < p ∧ p ≤ 0xffffff00) ∨ p = 0xfffffffd ∨ p = 0xfffffffe ∨ p = 0xffffffff

instance (p : Nat) : Decidable (inPortOk p) := by unfold inPortOk; infer_instance

/-- `struct ofp_packet_out`: the actions are preceded by their total length in bytes. -/
def packetOut : Fmt where
  den := fun v =>
    match v with
    | .obj c [b, p, _, _, acts, d] =>
      if c = "04.PacketOut" then
        match numOf b, numOf p, actions.den acts, rest.den d with
        | some b, some p, some as, some d => some (.record [.num b, .num p, as, d])
        | _, _, _, _ => none
      else none
    | _ => none
  enc := fun d =>
    match d with
    | .record [.num b, .num p, as, .raw data] =>
      match actions.enc as with
      | some ab =>
        if b < 4294967296 ∧ inPortOk p ∧ ab.length < 65536 then
          some (be 4 b ++ be 4 p ++ be 2 ab.length ++ [0, 0, 0, 0, 0, 0] ++ ab ++ data)
        else none
      | none => none
    | _ => none
  ok := fun d => match d with | .record [_, _, as, _] => actions.ok as | _ => False

/-- The codes defined for each error type are `0` up to (excluding) this number. -/
def errorCodes : Nat → Nat
  | 0 => 2 | 1 => 14 | 2 => 16 | 3 => 9 | 4 => 12 | 5 => 8 | 6 => 15 | 7 => 5 | 8 => 3 | 9 => 3 | 10 => 3 | 11 => 3
  | 12 => 12 | 13 => 6
  | 0xffff => 1
  | _ => 0

def errorMsg : Fmt :=
  { struct "04.ErrorMsg" [("error_type", u16), ("code", u16), ("data", rest)] with
    ok := fun d => match d with | .record [.num t, .num c, _] => c < errorCodes t | _ => False }

/-! ## Messages -/

def plain (name : String) (code : Nat) (fs : FieldFmts) : MsgFmt := ⟨name, 4, code, "04.Header", struct name fs⟩

def helloElem : Fmt := ownLen "04.HelloElemHeader" [("element_type", u16)] [("content", rest)]
def switchConfig : FieldFmts := [("flags", uint 2 (some [0, 1, 2, 3])), ("miss_send_len", u16)]
def role : FieldFmts := [("role", uint 4 (some [0, 1, 2, 3])), ("pad", pad 4), ("generation_id", u64)]
def async : FieldFmts :=
  [("packet_in_mask1", uint 4 (some [0, 1, 2])), ("packet_in_mask2", uint 4 (some [0, 1, 2])),
   ("port_status_mask1", uint 4 (some [0, 1, 2])), ("port_status_mask2", uint 4 (some [0, 1, 2])),
   ("flow_removed_mask1", uint 4 (some [0, 1, 2, 3])), ("flow_removed_mask2", uint 4 (some [0, 1, 2, 3]))]

/-- The messages other than PacketOut, ErrorMsg, MultipartRequest, MultipartReply and the two queue configuration messages. -/
def plainMsgs : List (String × Nat × FieldFmts) :=
  [("04.Hello", 0, [("elements", list helloElem)]),
   ("04.EchoRequest", 2, [("data", rest)]),
   ("04.EchoReply", 3, [("data", rest)]),
   ("04.ExperimenterHeader", 4, [("experimenter", u32), ("exp_type", u32), ("data", rest)]),
   ("04.FeaturesRequest", 5, []),
   ("04.FeaturesReply", 6, [("datapath_id", dpid), ("n_buffers", u32), ("n_tables", u8), ("auxiliary_id", u8), ("pad", pad 2),
      ("capabilities", u32), ("reserved", u32)]),
   ("04.GetConfigRequest", 7, []),
   ("04.GetConfigReply", 8, switchConfig),
   ("04.SetConfig", 9, switchConfig),
   ("04.PacketIn", 10, [("buffer_id", u32), ("total_len", u16), ("reason", uint 1 (some [0, 1, 2])), ("table_id", u8), ("cookie", u64),
      ("match", «match»), ("pad", pad 2), ("data", rest)]),
   ("04.FlowRemoved", 11, [("cookie", u64), ("priority", u16), ("reason", uint 1 (some [0, 1, 2, 3])), ("table_id", u8),
      ("duration_sec", u32), ("duration_nsec", u32), ("idle_timeout", u16), ("hard_timeout", u16), ("packet_count", u64),
      ("byte_count", u64), ("match", «match»)]),
   ("04.PortStatus", 12, [("reason", uint 1 (some [0, 1, 2])), ("pad", pad 7), ("desc", port)]),
   ("04.FlowMod", 14, [("cookie", u64), ("cookie_mask", u64), ("table_id", u8), ("command", uint 1 (some [0, 1, 2, 3, 4])),
      ("idle_timeout", u16), ("hard_timeout", u16), ("priority", u16), ("buffer_id", u32), ("out_port", u32), ("out_group", u32),
      ("flags", u16), ("pad", pad 2), ("match", «match»), ("instructions", instructions)]),
   ("04.GroupMod", 15, [("command", uint 2 (some [0, 1, 2])), ("group_type", u8), ("pad", pad 1), ("group_id", u32),
      ("buckets", list bucket)]),
   ("04.PortMod", 16, [("port_no", u32), ("pad", pad 4), ("hw_addr", hw), ("pad2", pad 2), ("config", u32), ("mask", u32),
      ("advertise", u32), ("pad3", pad 4)]),
   ("04.TableMod", 17, [("table_id", u8), ("pad", pad 3), ("config", u32)]),
   ("04.BarrierRequest", 20, []),
   ("04.BarrierReply", 21, []),
   ("04.RoleRequest", 24, role),
   ("04.RoleReply", 25, role),
   ("04.GetAsyncRequest", 26, []),
   ("04.GetAsyncReply", 27, async),
   ("04.SetAsync", 28, async),
   ("04.MeterMod", 29, [("command", uint 2 (some [0, 1, 2])), ("flags", u16), ("meter_id", u32), ("bands", noItems)])]

/-- The 28 messages of OpenFlow 1.3 that the library identifies correctly. -/
def messages : List MsgFmt :=
  plainMsgs.map (fun m => plain m.1 m.2.1 m.2.2) ++
  [⟨"04.ErrorMsg", 4, 1, "04.Header", errorMsg⟩,
   ⟨"04.PacketOut", 4, 13, "04.Header", packetOut⟩,
   ⟨"04.MultipartRequest", 4, 18, "04.Header", multipart "04.MultipartRequest" requestBody (some [0, 1])⟩,
   ⟨"04.MultipartReply", 4, 19, "04.Header", multipart "04.MultipartReply" replyBody none⟩]

end Pyof.Spec.V04
