import Verif.Spec.Union
import Verif.Spec.Msg
/-!
# Specification: the OpenFlow 1.0 wire formats

Transcribed from the C structures of the OpenFlow Switch Specification 1.0.0, with the attribute names of the library.
`members` lists what a decoder accepts in an enumerated field.
-/
namespace Pyof.Spec.V01

abbrev u8 := uint 1
abbrev u16 := uint 2
abbrev u32 := uint 4
abbrev u64 := uint 8

/-! ## ofp_match, ofp_phy_port -/

/-- `struct ofp_match` (40 bytes).  Attributes left at `None` count as zero; wildcards as all ones. -/
def «match» : Fmt := struct "01.Match"
  [("wildcards", uint 4 none (some 4194303)), ("in_port", uint 2 none (some 0)), ("dl_src", hw), ("dl_dst", hw),
   ("dl_vlan", uint 2 none (some 0)), ("dl_vlan_pcp", uint 1 none (some 0)), ("pad1", pad 1), ("dl_type", uint 2 none (some 0)),
   ("nw_tos", uint 1 none (some 0)), ("nw_proto", uint 1 none (some 0)), ("pad2", pad 2), ("nw_src", ip), ("nw_dst", ip),
   ("tp_src", uint 2 none (some 0)), ("tp_dst", uint 2 none (some 0))]

/-- `struct ofp_phy_port` (48 bytes). -/
def phyPort : Fmt := struct "01.PhyPort"
  [("port_no", u16), ("hw_addr", hw), ("name", text 16), ("config", u32), ("state", u32), ("curr", u32),
   ("advertised", u32), ("supported", u32), ("peer", u32)]

/-! ## ofp_action_* -/

/-- The action structure for each `enum ofp_action_type`. -/
def actionSel (t : Nat) : Option String :=
  if t = 0 then some "01.ActionOutput"
  else if t = 1 then some "01.ActionVlanVid"
  else if t = 2 then some "01.ActionVlanPCP"
  else if t = 3 then some "01.ActionStripVlan"
  else if t = 4 ∨ t = 5 then some "01.ActionDLAddr"
  else if t = 6 ∨ t = 7 then some "01.ActionNWAddr"
  else if t = 8 then some "01.ActionNWTos"
  else if t = 9 ∨ t = 10 then some "01.ActionTPPort"
  else if t = 11 then some "01.ActionEnqueue"
  else if t = 0xffff then some "01.ActionVendorHeader"
  else some "01.ActionHeader"

def actionTail : String → FieldFmts
  | "01.ActionOutput" => [("port", u16), ("max_length", u16)]
  | "01.ActionVlanVid" => [("vlan_id", u16), ("pad2", pad 2)]
  | "01.ActionVlanPCP" => [("vlan_pcp", u8), ("pad", pad 3)]
  | "01.ActionStripVlan" => [("pad", pad 4)]
  | "01.ActionDLAddr" => [("dl_addr", hw), ("pad", pad 6)]
  | "01.ActionNWAddr" => [("nw_addr", u32)]
  | "01.ActionNWTos" => [("nw_tos", u8), ("pad", pad 3)]
  | "01.ActionTPPort" => [("tp_port", u16), ("pad", pad 2)]
  | "01.ActionEnqueue" => [("port", u16), ("pad", pad 6), ("queue_id", u32)]
  | "01.ActionVendorHeader" => [("vendor", u32)]
  | _ => []

def actionLay (c : String) : Fmt := struct c (("action_type", u16) :: ("length", u16) :: actionTail c)

def action : Fmt := union actionSel actionLay
def actions : Fmt := list action

/-! ## Queues -/

def queuePropHeader : Fmt := struct "01.QueuePropHeader"
  [("queue_property", uint 2 (some [0, 1])), ("length", u16), ("pad", pad 4)]
def packetQueue : Fmt := struct "01.PacketQueue"
  [("queue_id", u32), ("length", u16), ("pad", pad 2), ("properties", list queuePropHeader)]

/-! ## Statistics -/

def statsTypes : List Nat := [0, 1, 2, 3, 4, 5, 0xffff]

def flowStatsRequestFields : FieldFmts := [("match", «match»), ("table_id", u8), ("pad", pad 1), ("out_port", u16)]
def flowStatsRequest : Fmt := struct "01.FlowStatsRequest" flowStatsRequestFields
def aggregateStatsRequest : Fmt := struct "01.AggregateStatsRequest" flowStatsRequestFields
def portStatsRequest : Fmt := struct "01.PortStatsRequest" [("port_no", u16), ("pad", pad 6)]
def queueStatsRequest : Fmt := struct "01.QueueStatsRequest" [("port_no", u16), ("pad", pad 2), ("queue_id", u32)]
def vendorFields : FieldFmts := [("vendor", u32), ("body", rest)]
def vendorStatsRequest : Fmt := struct "01.VendorStats" vendorFields
def vendorStats : Fmt := struct "01.VendorStats" vendorFields
def descStats : Fmt := struct "01.DescStats"
  [("mfr_desc", text 256), ("hw_desc", text 256), ("sw_desc", text 256), ("serial_num", text 32), ("dp_desc", text 256)]
/-- `struct ofp_flow_stats`: starts with its own total length. -/
def flowStatsRaw : Fmt := struct "01.FlowStats"
  [("length", u16), ("table_id", u8), ("pad", pad 1), ("match", «match»), ("duration_sec", u32), ("duration_nsec", u32),
   ("priority", u16), ("idle_timeout", u16), ("hard_timeout", u16), ("pad2", pad 6), ("cookie", u64), ("packet_count", u64),
   ("byte_count", u64), ("actions", actions)]
def flowStats : Fmt := delimited 0 flowStatsRaw
def aggregateStatsReply : Fmt := struct "01.AggregateStatsReply"
  [("packet_count", u64), ("byte_count", u64), ("flow_count", u32), ("pad", pad 4)]
def tableStats : Fmt := struct "01.TableStats"
  [("table_id", u8), ("pad", pad 3), ("name", text 32), ("wildcards", u32), ("max_entries", u32), ("active_count", u32),
   ("count_lookup", u64), ("count_matched", u64)]
def portStats : Fmt := struct "01.PortStats"
  [("port_no", u16), ("pad", pad 6), ("rx_packets", u64), ("tx_packets", u64), ("rx_bytes", u64), ("tx_bytes", u64),
   ("rx_dropped", u64), ("tx_dropped", u64), ("rx_errors", u64), ("tx_errors", u64), ("rx_frame_err", u64),
   ("rx_over_err", u64), ("rx_crc_err", u64), ("collisions", u64)]
def queueStats : Fmt := struct "01.QueueStats"
  [("port_no", u16), ("pad", pad 2), ("queue_id", u32), ("tx_bytes", u64), ("tx_packets", u64), ("tx_errors", u64)]

/-- The structure in the body of a request of each type; DESC and TABLE requests have no body. -/
def requestItem : Nat → Option Fmt
  | 1 => some flowStatsRequest
  | 2 => some aggregateStatsRequest
  | 4 => some portStatsRequest
  | 5 => some queueStatsRequest
  | 0xffff => some vendorStatsRequest
  | _ => none

def replyItem : Nat → Option Fmt
  | 0 => some descStats
  | 1 => some flowStats
  | 2 => some aggregateStatsReply
  | 3 => some tableStats
  | 4 => some portStats
  | 5 => some queueStats
  | 0xffff => some vendorStats
  | _ => none

/-- `type`, `flags`, then the items one after the other.  `room t k` says whether `k` items can be told apart. -/
def stats (cls : String) (item : Nat → Option Fmt) (room : Nat → Nat → Prop) : Fmt where
  den := fun v =>
    match v with
    | .obj c [t, f, body] =>
      if c = cls then
        match numOf t, numOf f, bodyItems body with
        | some t, some f, some xs =>
          match item t with
          | some g => (optMap g.den xs).map fun ds => .record [.num t, .num f, .arr ds]
          | none => if xs = [] then some (.record [.num t, .num f, .arr []]) else none
        | _, _, _ => none
      else none
    | _ => none
  enc := fun d =>
    match d with
    | .record [.num t, .num f, .arr ds] =>
      if t < 65536 ∧ f < 65536 then
        match item t with
        | some g => (encList g ds).map fun b => be 2 t ++ be 2 f ++ b
        | none => if ds.isEmpty then some (be 2 t ++ be 2 f) else none
      else none
    | _ => none
  ok := fun d =>
    match d with
    | .record [.num t, .num _, .arr ds] =>
      t ∈ statsTypes ∧ room t ds.length ∧ ∀ g, item t = some g → ∀ x ∈ ds, g.ok x
    | _ => False

/-- Vendor bodies run to the end of the packet. -/
def requestRoom (t k : Nat) : Prop := t = 0xffff → k ≤ 1
/-- And a DESC reply is one structure. -/
def replyRoom (t k : Nat) : Prop := (t = 0xffff → k ≤ 1) ∧ (t = 0 → k = 1)

/-! ## PacketOut, ErrorMsg -/

/-- Input ports a packet-out may name: physical ports, CONTROLLER, LOCAL, NONE. -/
def inPortOk (p : Nat) : Prop := (0 < p ∧ p ≤ 0xff00) ∨ p = 0xfffd ∨ p = 0xfffe ∨ p = 0xffff

instance (p : Nat) : Decidable (inPortOk p) := by unfold inPortOk; infer_instance

/-- `struct ofp_packet_out`: the actions are preceded by their total length in bytes. -/
def packetOut : Fmt where
  den := fun v =>
    match v with
    | .obj c [b, p, _, acts, d] =>
      if c = "01.PacketOut" then
        match numOf b, numOf p, actions.den acts, rest.den d with
        | some b, some p, some as, some d => some (.record [.num b, .num p, as, d])
        | _, _, _, _ => none
      else none
    | _ => none
  enc := fun d =>
    match d with
    | .record [.num b, .num p, as, .raw data] =>
      match actions.enc as with
      | some ab =>
        if b < 4294967296 ∧ inPortOk p ∧ ab.length < 65536 then
          some (be 4 b ++ be 2 p ++ be 2 ab.length ++ ab ++ data)
        else none
      | none => none
    | _ => none
  ok := fun d => match d with | .record [_, _, as, _] => actions.ok as | _ => False

/-- The codes defined for each error type. -/
def errorCodes : Nat → List Nat
  | 0 => [0, 1]
  | 1 => [0, 1, 2, 3, 4, 5, 6, 7, 8]
  | 2 => [0, 1, 2, 3, 4, 5, 6, 7, 8]
  | 3 => [0, 1, 2, 3, 4, 5]
  | 4 => [0, 1]
  | 5 => [0, 1, 2]
  | _ => []

def errorMsg : Fmt :=
  { struct "01.ErrorMsg" [("error_type", u16), ("code", u16), ("data", rest)] with
    ok := fun d => match d with | .record [.num t, .num c, _] => c ∈ errorCodes t | _ => False }

/-! ## Messages -/

def plain (name : String) (code : Nat) (fs : FieldFmts) : MsgFmt := ⟨name, 1, code, "01.Header", struct name fs⟩

def portEnum : List Nat := [0xff00, 0xfff8, 0xfff9, 0xfffa, 0xfffb, 0xfffc, 0xfffd, 0xfffe, 0xffff]
def switchConfig : FieldFmts := [("flags", uint 2 (some [0, 1, 2, 3])), ("miss_send_len", u16)]

/-- The messages other than PacketOut, ErrorMsg, StatsRequest and StatsReply. -/
def plainMsgs : List (String × Nat × FieldFmts) :=
  [("01.Hello", 0, [("elements", rest)]),
   ("01.EchoRequest", 2, [("data", rest)]),
   ("01.EchoReply", 3, [("data", rest)]),
   ("01.VendorHeader", 4, [("vendor", u32), ("data", rest)]),
   ("01.FeaturesRequest", 5, []),
   ("01.FeaturesReply", 6, [("datapath_id", dpid), ("n_buffers", u32), ("n_tables", u8), ("pad", pad 3), ("capabilities", u32),
      ("actions", u32), ("ports", list phyPort)]),
   ("01.GetConfigRequest", 7, []),
   ("01.GetConfigReply", 8, switchConfig),
   ("01.SetConfig", 9, switchConfig),
   ("01.PacketIn", 10, [("buffer_id", u32), ("total_len", u16), ("in_port", u16), ("reason", uint 1 (some [0, 1])), ("pad", pad 1),
      ("data", rest)]),
   ("01.FlowRemoved", 11, [("match", «match»), ("cookie", u64), ("priority", u16), ("reason", uint 1 (some [0, 1, 2])),
      ("pad", pad 1), ("duration_sec", u32), ("duration_nsec", u32), ("idle_timeout", u16), ("pad2", pad 2),
      ("packet_count", u64), ("byte_count", u64)]),
   ("01.PortStatus", 12, [("reason", uint 1 (some [0, 1, 2])), ("pad", pad 7), ("desc", phyPort)]),
   ("01.FlowMod", 14, [("match", «match»), ("cookie", u64), ("command", uint 2 (some [0, 1, 2, 3, 4])), ("idle_timeout", u16),
      ("hard_timeout", u16), ("priority", u16), ("buffer_id", u32), ("out_port", uint 2 (some portEnum)), ("flags", u16),
      ("actions", actions)]),
   ("01.PortMod", 15, [("port_no", u16), ("hw_addr", hw), ("config", u32), ("mask", u32), ("advertise", u32), ("pad", pad 4)]),
   ("01.BarrierRequest", 18, []),
   ("01.BarrierReply", 19, []),
   ("01.QueueGetConfigRequest", 20, [("port", uint 2 (some portEnum)), ("pad", pad 2)]),
   ("01.QueueGetConfigReply", 21, [("port", uint 2 (some portEnum)), ("pad", pad 6), ("queues", atMostOne packetQueue)])]

/-- All 22 messages of OpenFlow 1.0. -/
def messages : List MsgFmt :=
  plainMsgs.map (fun m => plain m.1 m.2.1 m.2.2) ++
  [⟨"01.ErrorMsg", 1, 1, "01.Header", errorMsg⟩,
   ⟨"01.PacketOut", 1, 13, "01.Header", packetOut⟩,
   ⟨"01.StatsRequest", 1, 16, "01.Header", stats "01.StatsRequest" requestItem requestRoom⟩,
   ⟨"01.StatsReply", 1, 17, "01.Header", stats "01.StatsReply" replyItem replyRoom⟩]

end Pyof.Spec.V01
