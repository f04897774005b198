import Verif.Model.Misc
import Verif.Model.Extra
/-!
# Constructors (`__init__`) of the messages and structures

Every constructor of the two versions calls `super().__init__()` and then stores each parameter in the attribute of the same name.  The
attributes without a parameter keep a copy of the class attribute or get a fixed value.  `Match` of v0x01 is in `Model/Match01`.
-/
namespace Pyof

/-- What is stored for the argument `x`: itself; `x or d` (also written `x if x else d`); `d if x is None else x`. -/
inductive Init
  | given
  | orElse (d : Val)
  | unlessNone (d : Val)

def Init.apply : Init → Val → Val
  | .given, v => v
  | .orElse d, v => if pyTrue v then v else d
  | .unlessNone d, v => if v = .none then d else v

/-- A parameter: its name, its default, and how it is stored. -/
structure Param where
  name : String
  dflt : Val
  init : Init

/-- A constructor.  `attrs` are the attributes in class order, with the value of those that have no parameter; `auto` tells that
the constructor ends with `update_length`, for which attributes of the class, and where the length is. -/
structure Ctor where
  cls : String
  params : List Param
  attrs : List (String × Option Val)
  auto : Option (Fields × Nat) := none

/-- How Python binds the arguments of a call to parameters that all have defaults: `TypeError` for too many positional arguments,
for an unknown name and for a parameter given twice. -/
def bindArgs (ps : List Param) (pos : List Val) (kw : List (String × Val)) : Res (List Val) :=
  if ps.length < pos.length then .error .type
  else if kw.all (fun a => (ps.drop pos.length).any (fun p => p.name == a.1)) then
    .ok (pos ++ (ps.drop pos.length).map fun p => match kw.lookup p.name with | some v => v | none => p.dflt)
  else .error .type

/-- The attributes the constructor sets, from the values of the parameters. -/
def Ctor.fill (c : Ctor) (vals : List Val) : List Val :=
  c.attrs.map fun a =>
    match a.2 with
    | some v => v
    | none =>
      match (c.params.zip vals).find? (fun q => q.1.name == a.1) with
      | some q => q.1.init.apply q.2
      | none => .none

/-- `Cls(*pos, **kw)` for a structure class. -/
def Ctor.new (c : Ctor) (pos : List Val) (kw : List (String × Val)) : Res Val :=
  match bindArgs c.params pos kw with
  | .error e => .error e
  | .ok vals =>
    match c.auto with
    | none => .ok (.obj c.cls (c.fill vals))
    | some (fs, i) =>
      match withLength fs i (c.fill vals) with
      | .error e => .error e
      | .ok vs => .ok (.obj c.cls vs)

/-- `Cls(*pos, **kw)` for a message class: `xid` is the first parameter; `r` is what `randint` returned. -/
def Ctor.newMessage (c : Ctor) (m : MsgCls) (r : Nat) (pos : List Val) (kw : List (String × Val)) : Res Val :=
  match bindArgs (⟨"xid", .none, .given⟩ :: c.params) pos kw with
  | .ok (xid :: vals) => .ok (.obj c.cls (newHeader m xid r :: c.fill vals))
  | .ok [] => .error .unmodelled
  | .error e => .error e

namespace V01.New

/-- ErrorMsg, v0x01/asynchronous/error_msg.py:190-202. -/
def errorMsg : Ctor where
  cls := "01.ErrorMsg"
  params :=
    [⟨"error_type", .none, .given⟩, ⟨"code", .none, .given⟩, ⟨"data", .bytes [], .given⟩]
  attrs :=
    [("error_type", none), ("code", none), ("data", none)]
/-- FlowRemoved, v0x01/asynchronous/flow_removed.py:52-80. -/
def flowRemoved : Ctor where
  cls := "01.FlowRemoved"
  params :=
    [⟨"match", .none, .given⟩, ⟨"cookie", .none, .given⟩, ⟨"priority", .none, .given⟩, ⟨"reason", .none, .given⟩,
     ⟨"duration_sec", .none, .given⟩, ⟨"duration_nsec", .none, .given⟩, ⟨"idle_timeout", .none, .given⟩,
     ⟨"packet_count", .none, .given⟩, ⟨"byte_count", .none, .given⟩]
  attrs :=
    [("match", none), ("cookie", none), ("priority", none), ("reason", none), ("pad", some (.pad 1)), ("duration_sec", none),
     ("duration_nsec", none), ("idle_timeout", none), ("pad2", some (.pad 2)), ("packet_count", none), ("byte_count", none)]
/-- PacketIn, v0x01/asynchronous/packet_in.py:45-67. -/
def packetIn : Ctor where
  cls := "01.PacketIn"
  params :=
    [⟨"buffer_id", .int 4294967295, .given⟩, ⟨"total_len", .none, .given⟩, ⟨"in_port", .none, .given⟩, ⟨"reason", .none, .given⟩,
     ⟨"data", .bytes [], .given⟩]
  attrs :=
    [("buffer_id", none), ("total_len", none), ("in_port", none), ("reason", none), ("pad", some (.pad 1)), ("data", none)]
/-- PortStatus, v0x01/asynchronous/port_status.py:42-53. -/
def portStatus : Ctor where
  cls := "01.PortStatus"
  params :=
    [⟨"reason", .none, .given⟩, ⟨"desc", .none, .given⟩]
  attrs :=
    [("reason", none), ("pad", some (.pad 7)), ("desc", none)]
/-- ActionHeader, v0x01/common/action.py:67-77. -/
def actionHeader : Ctor where
  cls := "01.ActionHeader"
  params :=
    [⟨"action_type", .none, .given⟩, ⟨"length", .none, .given⟩]
  attrs :=
    [("action_type", none), ("length", none)]
/-- ActionOutput, v0x01/common/action.py:124-134. -/
def actionOutput : Ctor where
  cls := "01.ActionOutput"
  params :=
    [⟨"port", .none, .given⟩, ⟨"max_length", .int 65535, .given⟩]
  attrs :=
    [("action_type", some (.int 0)), ("length", some (.int 8)), ("port", none), ("max_length", none)]
/-- ActionStripVlan, v0x01/common/action.py:148-153. -/
def actionStripVlan : Ctor where
  cls := "01.ActionStripVlan"
  params :=
    []
  attrs :=
    [("action_type", some (.int 3)), ("length", some (.int 8)), ("pad", some (.pad 4))]
/-- ActionEnqueue, v0x01/common/action.py:173-182. -/
def actionEnqueue : Ctor where
  cls := "01.ActionEnqueue"
  params :=
    [⟨"port", .none, .given⟩, ⟨"queue_id", .none, .given⟩]
  attrs :=
    [("action_type", some (.int 11)), ("length", some (.int 16)), ("port", none), ("pad", some (.pad 6)), ("queue_id", none)]
/-- ActionVlanVid, v0x01/common/action.py:199-206. -/
def actionVlanVid : Ctor where
  cls := "01.ActionVlanVid"
  params :=
    [⟨"vlan_id", .none, .given⟩]
  attrs :=
    [("action_type", some (.int 1)), ("length", some (.int 8)), ("vlan_id", none), ("pad2", some (.pad 2))]
/-- ActionVlanPCP, v0x01/common/action.py:218-228. -/
def actionVlanPCP : Ctor where
  cls := "01.ActionVlanPCP"
  params :=
    [⟨"vlan_pcp", .none, .given⟩]
  attrs :=
    [("action_type", some (.int 2)), ("length", some (.int 8)), ("vlan_pcp", none), ("pad", some (.pad 3))]
/-- ActionDLAddr, v0x01/common/action.py:240-251. -/
def actionDLAddr : Ctor where
  cls := "01.ActionDLAddr"
  params :=
    [⟨"action_type", .none, .given⟩, ⟨"dl_addr", .none, .given⟩]
  attrs :=
    [("action_type", none), ("length", some (.int 16)), ("dl_addr", none), ("pad", some (.pad 6))]
/-- ActionNWAddr, v0x01/common/action.py:261-271. -/
def actionNWAddr : Ctor where
  cls := "01.ActionNWAddr"
  params :=
    [⟨"action_type", .none, .given⟩, ⟨"nw_addr", .none, .given⟩]
  attrs :=
    [("action_type", none), ("length", some (.int 8)), ("nw_addr", none)]
/-- ActionNWTos, v0x01/common/action.py:287-297. -/
def actionNWTos : Ctor where
  cls := "01.ActionNWTos"
  params :=
    [⟨"action_type", .none, .given⟩, ⟨"nw_tos", .none, .given⟩]
  attrs :=
    [("action_type", none), ("length", some (.int 8)), ("nw_tos", none), ("pad", some (.pad 3))]
/-- ActionTPPort, v0x01/common/action.py:309-319. -/
def actionTPPort : Ctor where
  cls := "01.ActionTPPort"
  params :=
    [⟨"action_type", .none, .given⟩, ⟨"tp_port", .none, .given⟩]
  attrs :=
    [("action_type", none), ("length", some (.int 8)), ("tp_port", none), ("pad", some (.pad 2))]
/-- ActionVendorHeader, v0x01/common/action.py:332-341. -/
def actionVendorHeader : Ctor where
  cls := "01.ActionVendorHeader"
  params :=
    [⟨"length", .none, .given⟩, ⟨"vendor", .none, .given⟩]
  attrs :=
    [("action_type", some (.int 65535)), ("length", none), ("vendor", none)]
/-- PhyPort, v0x01/common/phy_port.py:156-186. -/
def phyPort : Ctor where
  cls := "01.PhyPort"
  params :=
    [⟨"port_no", .none, .given⟩, ⟨"hw_addr", .none, .given⟩, ⟨"name", .none, .given⟩, ⟨"config", .int 0, .given⟩,
     ⟨"state", .int 0, .given⟩, ⟨"curr", .int 0, .given⟩, ⟨"advertised", .int 0, .given⟩, ⟨"supported", .int 0, .given⟩,
     ⟨"peer", .int 0, .given⟩]
  attrs :=
    [("port_no", none), ("hw_addr", none), ("name", none), ("config", none), ("state", none), ("curr", none), ("advertised", none),
     ("supported", none), ("peer", none)]
/-- QueuePropHeader, v0x01/common/queue.py:57-67. -/
def queuePropHeader : Ctor where
  cls := "01.QueuePropHeader"
  params :=
    [⟨"queue_property", .none, .given⟩, ⟨"length", .none, .given⟩]
  attrs :=
    [("queue_property", none), ("length", none), ("pad", some (.pad 4))]
/-- PacketQueue, v0x01/common/queue.py:79-91. -/
def packetQueue : Ctor where
  cls := "01.PacketQueue"
  params :=
    [⟨"queue_id", .none, .given⟩, ⟨"length", .none, .given⟩, ⟨"properties", .none, .unlessNone (.list false [])⟩]
  attrs :=
    [("queue_id", none), ("length", none), ("pad", some (.pad 2)), ("properties", none)]
/-- QueuePropMinRate, v0x01/common/queue.py:103-110. -/
def queuePropMinRate : Ctor where
  cls := "01.QueuePropMinRate"
  params :=
    [⟨"rate", .none, .given⟩]
  attrs :=
    [("prop_header", some (.obj "01.QueuePropHeader" [.enum 1, .int 16, .pad 4])), ("rate", none), ("pad", some (.pad 6))]
/-- BarrierReply, v0x01/controller2switch/barrier_reply.py (no constructor of its own). -/
def barrierReply : Ctor where
  cls := "01.BarrierReply"
  params :=
    []
  attrs :=
    []
/-- BarrierRequest, v0x01/controller2switch/barrier_request.py (no constructor of its own). -/
def barrierRequest : Ctor where
  cls := "01.BarrierRequest"
  params :=
    []
  attrs :=
    []
/-- AggregateStatsReply, v0x01/controller2switch/common.py:105-116. -/
def aggregateStatsReply : Ctor where
  cls := "01.AggregateStatsReply"
  params :=
    [⟨"packet_count", .none, .given⟩, ⟨"byte_count", .none, .given⟩, ⟨"flow_count", .none, .given⟩]
  attrs :=
    [("packet_count", none), ("byte_count", none), ("flow_count", none), ("pad", some (.pad 4))]
/-- AggregateStatsRequest, v0x01/controller2switch/common.py:128-141. -/
def aggregateStatsRequest : Ctor where
  cls := "01.AggregateStatsRequest"
  params :=
    [⟨"match", .obj "01.Match" V01.matchInit, .given⟩, ⟨"table_id", .int 255, .given⟩, ⟨"out_port", .enum 65535, .given⟩]
  attrs :=
    [("match", none), ("table_id", none), ("pad", some (.pad 1)), ("out_port", none)]
/-- DescStats, v0x01/controller2switch/common.py:157-173. -/
def descStats : Ctor where
  cls := "01.DescStats"
  params :=
    [⟨"mfr_desc", .none, .given⟩, ⟨"hw_desc", .none, .given⟩, ⟨"sw_desc", .none, .given⟩, ⟨"serial_num", .none, .given⟩,
     ⟨"dp_desc", .none, .given⟩]
  attrs :=
    [("mfr_desc", none), ("hw_desc", none), ("sw_desc", none), ("serial_num", none), ("dp_desc", none)]
/-- FlowStats, v0x01/controller2switch/common.py:196-231. -/
def flowStats : Ctor where
  cls := "01.FlowStats"
  params :=
    [⟨"length", .none, .given⟩, ⟨"table_id", .none, .given⟩, ⟨"match", .none, .given⟩, ⟨"duration_sec", .none, .given⟩,
     ⟨"duration_nsec", .none, .given⟩, ⟨"priority", .none, .given⟩, ⟨"idle_timeout", .none, .given⟩, ⟨"hard_timeout", .none, .given⟩,
     ⟨"cookie", .none, .given⟩, ⟨"packet_count", .none, .given⟩, ⟨"byte_count", .none, .given⟩,
     ⟨"actions", .none, .unlessNone (.list false [])⟩]
  attrs :=
    [("length", none), ("table_id", none), ("pad", some (.pad 1)), ("match", none), ("duration_sec", none), ("duration_nsec", none),
     ("priority", none), ("idle_timeout", none), ("hard_timeout", none), ("pad2", some (.pad 6)), ("cookie", none),
     ("packet_count", none), ("byte_count", none), ("actions", none)]
/-- FlowStatsRequest, v0x01/controller2switch/common.py:258-273. -/
def flowStatsRequest : Ctor where
  cls := "01.FlowStatsRequest"
  params :=
    [⟨"match", .none, .unlessNone (.obj "01.Match" V01.matchInit)⟩, ⟨"table_id", .int 255, .given⟩, ⟨"out_port", .enum 65535, .given⟩]
  attrs :=
    [("match", none), ("table_id", none), ("pad", some (.pad 1)), ("out_port", none)]
/-- PortStats, v0x01/controller2switch/common.py:298-339. -/
def portStats : Ctor where
  cls := "01.PortStats"
  params :=
    [⟨"port_no", .none, .given⟩, ⟨"rx_packets", .none, .given⟩, ⟨"tx_packets", .none, .given⟩, ⟨"rx_bytes", .none, .given⟩,
     ⟨"tx_bytes", .none, .given⟩, ⟨"rx_dropped", .none, .given⟩, ⟨"tx_dropped", .none, .given⟩, ⟨"rx_errors", .none, .given⟩,
     ⟨"tx_errors", .none, .given⟩, ⟨"rx_frame_err", .none, .given⟩, ⟨"rx_over_err", .none, .given⟩, ⟨"rx_crc_err", .none, .given⟩,
     ⟨"collisions", .none, .given⟩]
  attrs :=
    [("port_no", none), ("pad", some (.pad 6)), ("rx_packets", none), ("tx_packets", none), ("rx_bytes", none), ("tx_bytes", none),
     ("rx_dropped", none), ("tx_dropped", none), ("rx_errors", none), ("tx_errors", none), ("rx_frame_err", none),
     ("rx_over_err", none), ("rx_crc_err", none), ("collisions", none)]
/-- PortStatsRequest, v0x01/controller2switch/common.py:349-359. -/
def portStatsRequest : Ctor where
  cls := "01.PortStatsRequest"
  params :=
    [⟨"port_no", .enum 65535, .given⟩]
  attrs :=
    [("port_no", none), ("pad", some (.pad 6))]
/-- QueueStats, v0x01/controller2switch/common.py:373-390. -/
def queueStats : Ctor where
  cls := "01.QueueStats"
  params :=
    [⟨"port_no", .none, .given⟩, ⟨"queue_id", .none, .given⟩, ⟨"tx_bytes", .none, .given⟩, ⟨"tx_packets", .none, .given⟩,
     ⟨"tx_errors", .none, .given⟩]
  attrs :=
    [("port_no", none), ("pad", some (.pad 2)), ("queue_id", none), ("tx_bytes", none), ("tx_packets", none), ("tx_errors", none)]
/-- QueueStatsRequest, v0x01/controller2switch/common.py:401-411. -/
def queueStatsRequest : Ctor where
  cls := "01.QueueStatsRequest"
  params :=
    [⟨"port_no", .none, .given⟩, ⟨"queue_id", .none, .given⟩]
  attrs :=
    [("port_no", none), ("pad", some (.pad 2)), ("queue_id", none)]
/-- TableStats, v0x01/controller2switch/common.py:427-450. -/
def tableStats : Ctor where
  cls := "01.TableStats"
  params :=
    [⟨"table_id", .none, .given⟩, ⟨"name", .none, .given⟩, ⟨"wildcards", .none, .given⟩, ⟨"max_entries", .none, .given⟩,
     ⟨"active_count", .none, .given⟩, ⟨"count_lookup", .none, .given⟩, ⟨"count_matched", .none, .given⟩]
  attrs :=
    [("table_id", none), ("pad", some (.pad 3)), ("name", none), ("wildcards", none), ("max_entries", none), ("active_count", none),
     ("count_lookup", none), ("count_matched", none)]
/-- VendorStats, v0x01/controller2switch/common.py:459-468. -/
def vendorStats : Ctor where
  cls := "01.VendorStats"
  params :=
    [⟨"vendor", .none, .given⟩, ⟨"body", .bytes [], .given⟩]
  attrs :=
    [("vendor", none), ("body", none)]
/-- FeaturesReply, v0x01/controller2switch/features_reply.py:55-76. -/
def featuresReply : Ctor where
  cls := "01.FeaturesReply"
  params :=
    [⟨"datapath_id", .none, .given⟩, ⟨"n_buffers", .none, .given⟩, ⟨"n_tables", .none, .given⟩, ⟨"capabilities", .none, .given⟩,
     ⟨"actions", .none, .given⟩, ⟨"ports", .none, .unlessNone (.list false [])⟩]
  attrs :=
    [("datapath_id", none), ("n_buffers", none), ("n_tables", none), ("pad", some (.pad 3)), ("capabilities", none),
     ("actions", none), ("ports", none)]
/-- FeaturesRequest, v0x01/controller2switch/features_request.py (no constructor of its own). -/
def featuresRequest : Ctor where
  cls := "01.FeaturesRequest"
  params :=
    []
  attrs :=
    []
/-- FlowMod, v0x01/controller2switch/flow_mod.py:64-101. -/
def flowMod : Ctor where
  cls := "01.FlowMod"
  params :=
    [⟨"match", .none, .orElse (.obj "01.Match" V01.matchInit)⟩, ⟨"cookie", .int 0, .given⟩, ⟨"command", .none, .given⟩,
     ⟨"idle_timeout", .int 0, .given⟩, ⟨"hard_timeout", .int 0, .given⟩, ⟨"priority", .int 0, .given⟩,
     ⟨"buffer_id", .int 4294967295, .given⟩, ⟨"out_port", .enum 65535, .given⟩, ⟨"flags", .int 1, .given⟩,
     ⟨"actions", .none, .orElse (.list false [])⟩]
  attrs :=
    [("match", none), ("cookie", none), ("command", none), ("idle_timeout", none), ("hard_timeout", none), ("priority", none),
     ("buffer_id", none), ("out_port", none), ("flags", none), ("actions", none)]
/-- GetConfigReply, v0x01/controller2switch/get_config_reply.py:16-27. -/
def getConfigReply : Ctor where
  cls := "01.GetConfigReply"
  params :=
    [⟨"flags", .none, .given⟩, ⟨"miss_send_len", .none, .given⟩]
  attrs :=
    [("flags", none), ("miss_send_len", none)]
/-- GetConfigRequest, v0x01/controller2switch/get_config_request.py (no constructor of its own). -/
def getConfigRequest : Ctor where
  cls := "01.GetConfigRequest"
  params :=
    []
  attrs :=
    []
/-- PacketOut, v0x01/controller2switch/packet_out.py:31-51. -/
def packetOut : Ctor where
  cls := "01.PacketOut"
  params :=
    [⟨"buffer_id", .int 4294967295, .given⟩, ⟨"in_port", .enum 65535, .given⟩, ⟨"actions", .none, .unlessNone (.list false [])⟩,
     ⟨"data", .bytes [], .given⟩]
  attrs :=
    [("buffer_id", none), ("in_port", none), ("actions_len", some (.ub 2 .none)), ("actions", none), ("data", none)]
/-- PortMod, v0x01/controller2switch/port_mod.py:30-52. -/
def portMod : Ctor where
  cls := "01.PortMod"
  params :=
    [⟨"port_no", .none, .given⟩, ⟨"hw_addr", .none, .given⟩, ⟨"config", .none, .given⟩, ⟨"mask", .none, .given⟩,
     ⟨"advertise", .none, .given⟩]
  attrs :=
    [("port_no", none), ("hw_addr", none), ("config", none), ("mask", none), ("advertise", none), ("pad", some (.pad 4))]
/-- QueueGetConfigReply, v0x01/controller2switch/queue_get_config_reply.py:26-38. -/
def queueGetConfigReply : Ctor where
  cls := "01.QueueGetConfigReply"
  params :=
    [⟨"port", .none, .given⟩, ⟨"queues", .none, .unlessNone (.list false [])⟩]
  attrs :=
    [("port", none), ("pad", some (.pad 6)), ("queues", none)]
/-- QueueGetConfigRequest, v0x01/controller2switch/queue_get_config_request.py:24-32. -/
def queueGetConfigRequest : Ctor where
  cls := "01.QueueGetConfigRequest"
  params :=
    [⟨"port", .none, .given⟩]
  attrs :=
    [("port", none), ("pad", some (.pad 2))]
/-- SetConfig, v0x01/controller2switch/set_config.py:17-28. -/
def setConfig : Ctor where
  cls := "01.SetConfig"
  params :=
    [⟨"flags", .none, .given⟩, ⟨"miss_send_len", .none, .given⟩]
  attrs :=
    [("flags", none), ("miss_send_len", none)]
/-- StatsReply, v0x01/controller2switch/stats_reply.py:21-33. -/
def statsReply : Ctor where
  cls := "01.StatsReply"
  params :=
    [⟨"body_type", .none, .given⟩, ⟨"flags", .none, .given⟩, ⟨"body", .bytes [], .given⟩]
  attrs :=
    [("body_type", none), ("flags", none), ("body", none)]
/-- StatsRequest, v0x01/controller2switch/stats_request.py:27-39. -/
def statsRequest : Ctor where
  cls := "01.StatsRequest"
  params :=
    [⟨"body_type", .none, .given⟩, ⟨"flags", .int 0, .given⟩, ⟨"body", .bytes [], .given⟩]
  attrs :=
    [("body_type", none), ("flags", none), ("body", none)]
/-- EchoReply, v0x01/symmetric/echo_reply.py:25-33. -/
def echoReply : Ctor where
  cls := "01.EchoReply"
  params :=
    [⟨"data", .none, .given⟩]
  attrs :=
    [("data", none)]
/-- EchoRequest, v0x01/symmetric/echo_request.py:25-33. -/
def echoRequest : Ctor where
  cls := "01.EchoRequest"
  params :=
    [⟨"data", .none, .given⟩]
  attrs :=
    [("data", none)]
/-- Hello, v0x01/symmetric/hello.py (no constructor of its own). -/
def hello : Ctor where
  cls := "01.Hello"
  params :=
    []
  attrs :=
    [("elements", some (.bin .none))]
/-- VendorHeader, v0x01/symmetric/vendor_header.py:26-38. -/
def vendorHeader : Ctor where
  cls := "01.VendorHeader"
  params :=
    [⟨"vendor", .none, .given⟩, ⟨"data", .none, .given⟩]
  attrs :=
    [("vendor", none), ("data", none)]

/-- The constructors of the messages of v0x01. -/
def messages : List Ctor :=
  [errorMsg, flowRemoved, packetIn, portStatus, barrierReply, barrierRequest, featuresReply, featuresRequest, flowMod, getConfigReply,
   getConfigRequest, packetOut, portMod, queueGetConfigReply, queueGetConfigRequest, setConfig, statsReply, statsRequest, echoReply,
   echoRequest, hello, vendorHeader]

/-- The constructors of the structures of v0x01. -/
def structures : List Ctor :=
  [actionHeader, actionOutput, actionStripVlan, actionEnqueue, actionVlanVid, actionVlanPCP, actionDLAddr, actionNWAddr, actionNWTos,
   actionTPPort, actionVendorHeader, phyPort, queuePropHeader, packetQueue, queuePropMinRate, aggregateStatsReply,
   aggregateStatsRequest, descStats, flowStats, flowStatsRequest, portStats, portStatsRequest, queueStats, queueStatsRequest,
   tableStats, vendorStats]

end V01.New

namespace V04.New

/-- ErrorMsg, v0x04/asynchronous/error_msg.py:456-472. -/
def errorMsg : Ctor where
  cls := "04.ErrorMsg"
  params :=
    [⟨"error_type", .none, .given⟩, ⟨"code", .none, .given⟩, ⟨"data", .bytes [], .given⟩]
  attrs :=
    [("error_type", none), ("code", none), ("data", none)]
/-- ErrorExperimenterMsg, v0x04/asynchronous/error_msg.py:501-515. -/
def errorExperimenterMsg : Ctor where
  cls := "04.ErrorExperimenterMsg"
  params :=
    [⟨"exp_type", .none, .given⟩, ⟨"experimenter", .none, .given⟩, ⟨"data", .bytes [], .given⟩]
  attrs :=
    [("error_type", some (.ub 2 (.enum 65535))), ("exp_type", none), ("experimenter", none), ("data", none)]
/-- FlowRemoved, v0x04/asynchronous/flow_removed.py:62-95. -/
def flowRemoved : Ctor where
  cls := "04.FlowRemoved"
  params :=
    [⟨"cookie", .none, .given⟩, ⟨"priority", .none, .given⟩, ⟨"reason", .none, .given⟩, ⟨"table_id", .none, .given⟩,
     ⟨"duration_sec", .none, .given⟩, ⟨"duration_nsec", .none, .given⟩, ⟨"idle_timeout", .none, .given⟩,
     ⟨"hard_timeout", .none, .given⟩, ⟨"packet_count", .none, .given⟩, ⟨"byte_count", .none, .given⟩, ⟨"match", .none, .given⟩]
  attrs :=
    [("cookie", none), ("priority", none), ("reason", none), ("table_id", none), ("duration_sec", none), ("duration_nsec", none),
     ("idle_timeout", none), ("hard_timeout", none), ("packet_count", none), ("byte_count", none), ("match", none)]
/-- PacketIn, v0x04/asynchronous/packet_in.py:58-85. -/
def packetIn : Ctor where
  cls := "04.PacketIn"
  params :=
    [⟨"buffer_id", .none, .given⟩, ⟨"total_len", .none, .given⟩, ⟨"reason", .none, .given⟩, ⟨"table_id", .none, .given⟩,
     ⟨"cookie", .none, .given⟩, ⟨"match", .none, .given⟩, ⟨"data", .bytes [], .given⟩]
  attrs :=
    [("buffer_id", none), ("total_len", none), ("reason", none), ("table_id", none), ("cookie", none), ("match", none),
     ("pad", some (.pad 2)), ("data", none)]
/-- PortStatus, v0x04/asynchronous/port_status.py:43-54. -/
def portStatus : Ctor where
  cls := "04.PortStatus"
  params :=
    [⟨"reason", .none, .given⟩, ⟨"desc", .none, .given⟩]
  attrs :=
    [("reason", none), ("pad", some (.pad 7)), ("desc", none)]
/-- ActionHeader, v0x04/common/action.py:99-109. -/
def actionHeader : Ctor where
  cls := "04.ActionHeader"
  params :=
    [⟨"action_type", .none, .given⟩, ⟨"length", .none, .given⟩]
  attrs :=
    [("action_type", none), ("length", none)]
/-- ActionExperimenter, v0x04/common/action.py:161-173. -/
def actionExperimenter : Ctor where
  cls := "04.ActionExperimenter"
  params :=
    [⟨"length", .none, .given⟩, ⟨"experimenter", .none, .given⟩, ⟨"body", .none, .given⟩]
  attrs :=
    [("action_type", some (.enum 65535)), ("length", none), ("experimenter", none), ("body", none)]
/-- ActionGroup, v0x04/common/action.py:183-192. -/
def actionGroup : Ctor where
  cls := "04.ActionGroup"
  params :=
    [⟨"group_id", .none, .given⟩]
  attrs :=
    [("action_type", some (.enum 22)), ("length", some (.int 8)), ("group_id", none)]
/-- ActionDecMPLSTTL, v0x04/common/action.py:202-204. -/
def actionDecMPLSTTL : Ctor where
  cls := "04.ActionDecMPLSTTL"
  params :=
    []
  attrs :=
    [("action_type", some (.enum 16)), ("length", some (.int 8)), ("pad", some (.pad 4))]
/-- ActionSetMPLSTTL, v0x04/common/action.py:215-222. -/
def actionSetMPLSTTL : Ctor where
  cls := "04.ActionSetMPLSTTL"
  params :=
    [⟨"mpls_ttl", .none, .given⟩]
  attrs :=
    [("action_type", some (.enum 15)), ("length", some (.int 8)), ("mpls_ttl", none), ("pad", some (.pad 3))]
/-- ActionCopyTTLIn, v0x04/common/action.py:232-234. -/
def actionCopyTTLIn : Ctor where
  cls := "04.ActionCopyTTLIn"
  params :=
    []
  attrs :=
    [("action_type", some (.enum 12)), ("length", some (.int 8)), ("pad", some (.pad 4))]
/-- ActionCopyTTLOut, v0x04/common/action.py:244-246. -/
def actionCopyTTLOut : Ctor where
  cls := "04.ActionCopyTTLOut"
  params :=
    []
  attrs :=
    [("action_type", some (.enum 11)), ("length", some (.int 8)), ("pad", some (.pad 4))]
/-- ActionPopVLAN, v0x04/common/action.py:256-258. -/
def actionPopVLAN : Ctor where
  cls := "04.ActionPopVLAN"
  params :=
    []
  attrs :=
    [("action_type", some (.enum 18)), ("length", some (.int 8)), ("pad", some (.pad 4))]
/-- ActionPopPBB, v0x04/common/action.py:268-270. -/
def actionPopPBB : Ctor where
  cls := "04.ActionPopPBB"
  params :=
    []
  attrs :=
    [("action_type", some (.enum 27)), ("length", some (.int 8)), ("pad", some (.pad 4))]
/-- ActionDecNWTTL, v0x04/common/action.py:280-282. -/
def actionDecNWTTL : Ctor where
  cls := "04.ActionDecNWTTL"
  params :=
    []
  attrs :=
    [("action_type", some (.enum 24)), ("length", some (.int 8)), ("pad", some (.pad 4))]
/-- ActionSetNWTTL, v0x04/common/action.py:293-300. -/
def actionSetNWTTL : Ctor where
  cls := "04.ActionSetNWTTL"
  params :=
    [⟨"nw_ttl", .none, .given⟩]
  attrs :=
    [("action_type", some (.enum 23)), ("length", some (.int 8)), ("nw_ttl", none), ("pad", some (.pad 3))]
/-- ActionOutput, v0x04/common/action.py:319-329. -/
def actionOutput : Ctor where
  cls := "04.ActionOutput"
  params :=
    [⟨"port", .none, .given⟩, ⟨"max_length", .enum 65535, .given⟩]
  attrs :=
    [("action_type", some (.enum 0)), ("length", some (.int 16)), ("port", none), ("max_length", none), ("pad", some (.pad 6))]
/-- ActionPopMPLS, v0x04/common/action.py:343-350. -/
def actionPopMPLS : Ctor where
  cls := "04.ActionPopMPLS"
  params :=
    [⟨"ethertype", .none, .given⟩]
  attrs :=
    [("action_type", some (.enum 20)), ("length", some .none), ("ethertype", none), ("pad", some (.pad 2))]
/-- ActionPush, v0x04/common/action.py:362-371. -/
def actionPush : Ctor where
  cls := "04.ActionPush"
  params :=
    [⟨"action_type", .none, .given⟩, ⟨"ethertype", .none, .given⟩]
  attrs :=
    [("action_type", none), ("length", some (.int 8)), ("ethertype", none), ("pad", some (.pad 2))]
/-- ActionSetField, v0x04/common/action.py:381-392. -/
def actionSetField : Ctor where
  cls := "04.ActionSetField"
  params :=
    [⟨"field", .none, .unlessNone (.obj "04.OxmTLV" V04.oxmInit)⟩]
  attrs :=
    [("action_type", some (.enum 25)), ("length", some .none), ("field", none)]
/-- ActionSetQueue, v0x04/common/action.py:428-435. -/
def actionSetQueue : Ctor where
  cls := "04.ActionSetQueue"
  params :=
    [⟨"queue_id", .none, .given⟩]
  attrs :=
    [("action_type", some (.enum 21)), ("length", some (.int 8)), ("queue_id", none)]
/-- Instruction, v0x04/common/flow_instructions.py:67-74. -/
def instruction : Ctor where
  cls := "04.Instruction"
  params :=
    [⟨"instruction_type", .none, .given⟩]
  attrs :=
    [("instruction_type", none), ("length", some (.ub 2 .none))]
/-- InstructionApplyAction, v0x04/common/flow_instructions.py:134-142. -/
def instructionApplyAction : Ctor where
  cls := "04.InstructionApplyAction"
  params :=
    [⟨"actions", .none, .orElse (.list false [])⟩]
  attrs :=
    [("instruction_type", some (.enum 4)), ("length", some (.ub 2 .none)), ("pad", some (.pad 4)), ("actions", none)]
/-- InstructionClearAction, v0x04/common/flow_instructions.py:156-164. -/
def instructionClearAction : Ctor where
  cls := "04.InstructionClearAction"
  params :=
    [⟨"actions", .none, .orElse (.list false [])⟩]
  attrs :=
    [("instruction_type", some (.enum 5)), ("length", some (.ub 2 .none)), ("pad", some (.pad 4)), ("actions", none)]
/-- InstructionGotoTable, v0x04/common/flow_instructions.py:175-183. -/
def instructionGotoTable : Ctor where
  cls := "04.InstructionGotoTable"
  params :=
    [⟨"table_id", .enum 4294967295, .given⟩]
  attrs :=
    [("instruction_type", some (.enum 1)), ("length", some (.ub 2 .none)), ("table_id", none), ("pad", some (.pad 3))]
/-- InstructionMeter, v0x04/common/flow_instructions.py:195-202. -/
def instructionMeter : Ctor where
  cls := "04.InstructionMeter"
  params :=
    [⟨"meter_id", .enum 4294967295, .given⟩]
  attrs :=
    [("instruction_type", some (.enum 6)), ("length", some (.ub 2 .none)), ("meter_id", none)]
/-- InstructionWriteAction, v0x04/common/flow_instructions.py:217-225. -/
def instructionWriteAction : Ctor where
  cls := "04.InstructionWriteAction"
  params :=
    [⟨"actions", .none, .orElse (.list false [])⟩]
  attrs :=
    [("instruction_type", some (.enum 3)), ("length", some (.ub 2 .none)), ("pad", some (.pad 4)), ("actions", none)]
/-- InstructionWriteMetadata, v0x04/common/flow_instructions.py:238-247. -/
def instructionWriteMetadata : Ctor where
  cls := "04.InstructionWriteMetadata"
  params :=
    [⟨"metadata", .int 0, .given⟩, ⟨"metadata_mask", .int 0, .given⟩]
  attrs :=
    [("instruction_type", some (.enum 2)), ("length", some (.ub 2 .none)), ("pad", some (.pad 4)), ("metadata", none),
     ("metadata_mask", none)]
/-- OxmTLV, v0x04/common/flow_match.py:193-212. -/
def oxmTLV : Ctor where
  cls := "04.OxmTLV"
  params :=
    [⟨"oxm_class", .enum 32768, .given⟩, ⟨"oxm_field", .none, .given⟩, ⟨"oxm_hasmask", .int 0, .given⟩, ⟨"oxm_value", .none, .given⟩]
  attrs :=
    [("oxm_class", none), ("oxm_field_and_mask", some .none), ("oxm_length", some .none), ("oxm_value", none), ("oxm_field", none),
     ("oxm_hasmask", none)]
/-- Match, v0x04/common/flow_match.py:338-354. -/
def «match» : Ctor where
  cls := "04.Match"
  params :=
    [⟨"match_type", .enum 1, .given⟩, ⟨"oxm_match_fields", .none, .orElse (.list true [])⟩]
  attrs :=
    [("match_type", none), ("length", some (.ub 2 .none)), ("oxm_match_fields", none)]
  auto := some (V04.matchFields, 1)
/-- OxmExperimenterHeader, v0x04/common/flow_match.py:426-435. -/
def oxmExperimenterHeader : Ctor where
  cls := "04.OxmExperimenterHeader"
  params :=
    [⟨"experimenter", .none, .given⟩]
  attrs :=
    [("oxm_header", some (.ub 4 (.enum 65535))), ("experimenter", none)]
/-- Port, v0x04/common/port.py:200-233. -/
def port : Ctor where
  cls := "04.Port"
  params :=
    [⟨"port_no", .none, .given⟩, ⟨"hw_addr", .none, .given⟩, ⟨"name", .none, .given⟩, ⟨"config", .none, .given⟩,
     ⟨"state", .none, .given⟩, ⟨"curr", .none, .given⟩, ⟨"advertised", .none, .given⟩, ⟨"supported", .none, .given⟩,
     ⟨"peer", .none, .given⟩, ⟨"curr_speed", .none, .given⟩, ⟨"max_speed", .none, .given⟩]
  attrs :=
    [("port_no", none), ("pad", some (.pad 4)), ("hw_addr", none), ("pad2", some (.pad 2)), ("name", none), ("config", none),
     ("state", none), ("curr", none), ("advertised", none), ("supported", none), ("peer", none), ("curr_speed", none),
     ("max_speed", none)]
/-- QueuePropHeader, v0x04/common/queue.py:44-54. -/
def queuePropHeader : Ctor where
  cls := "04.QueuePropHeader"
  params :=
    [⟨"queue_property", .none, .given⟩, ⟨"length", .none, .given⟩]
  attrs :=
    [("queue_property", none), ("length", none), ("pad", some (.pad 4))]
/-- PacketQueue, v0x04/common/queue.py:89-103. -/
def packetQueue : Ctor where
  cls := "04.PacketQueue"
  params :=
    [⟨"queue_id", .none, .given⟩, ⟨"port", .none, .given⟩, ⟨"length", .none, .given⟩,
     ⟨"properties", .none, .unlessNone (.list false [])⟩]
  attrs :=
    [("queue_id", none), ("port", none), ("length", none), ("pad", some (.pad 6)), ("properties", none)]
/-- QueuePropExperimenter, v0x04/common/queue.py:137-147. -/
def queuePropExperimenter : Ctor where
  cls := "04.QueuePropExperimenter"
  params :=
    [⟨"experimenter", .none, .given⟩, ⟨"data", .none, .given⟩]
  attrs :=
    [("prop_header", some (.obj "04.QueuePropHeader" [.enum 0xffff, .int 16, .pad 4])), ("experimenter", none),
     ("pad", some (.pad 4)), ("data", none)]
/-- QueuePropMaxRate, v0x04/common/queue.py:160-167. -/
def queuePropMaxRate : Ctor where
  cls := "04.QueuePropMaxRate"
  params :=
    [⟨"rate", .none, .given⟩]
  attrs :=
    [("prop_header", some (.obj "04.QueuePropHeader" [.enum 2, .int 16, .pad 4])), ("rate", none), ("pad", some (.pad 6))]
/-- QueuePropMinRate, v0x04/common/queue.py:180-187. -/
def queuePropMinRate : Ctor where
  cls := "04.QueuePropMinRate"
  params :=
    [⟨"rate", .none, .given⟩]
  attrs :=
    [("prop_header", some (.obj "04.QueuePropHeader" [.enum 1, .int 16, .pad 4])), ("rate", none), ("pad", some (.pad 6))]
/-- BarrierReply, v0x04/controller2switch/barrier_reply.py (no constructor of its own). -/
def barrierReply : Ctor where
  cls := "04.BarrierReply"
  params :=
    []
  attrs :=
    []
/-- BarrierRequest, v0x04/controller2switch/barrier_request.py (no constructor of its own). -/
def barrierRequest : Ctor where
  cls := "04.BarrierRequest"
  params :=
    []
  attrs :=
    []
/-- Bucket, v0x04/controller2switch/common.py:203-225. -/
def bucket : Ctor where
  cls := "04.Bucket"
  params :=
    [⟨"length", .none, .given⟩, ⟨"weight", .none, .given⟩, ⟨"watch_port", .none, .given⟩, ⟨"watch_group", .none, .given⟩,
     ⟨"actions", .none, .given⟩]
  attrs :=
    [("length", none), ("weight", none), ("watch_port", none), ("watch_group", none), ("pad", some (.pad 4)), ("actions", none)]
/-- BucketCounter, v0x04/controller2switch/common.py:260-270. -/
def bucketCounter : Ctor where
  cls := "04.BucketCounter"
  params :=
    [⟨"packet_count", .none, .given⟩, ⟨"byte_count", .none, .given⟩]
  attrs :=
    [("packet_count", none), ("byte_count", none)]
/-- ExperimenterMultipartHeader, v0x04/controller2switch/common.py:414-426. -/
def experimenterMultipartHeader : Ctor where
  cls := "04.ExperimenterMultipartHeader"
  params :=
    [⟨"experimenter", .none, .given⟩, ⟨"exp_type", .none, .given⟩]
  attrs :=
    [("experimenter", none), ("exp_type", none)]
/-- Property, v0x04/controller2switch/common.py:438-447. -/
def property : Ctor where
  cls := "04.Property"
  params :=
    [⟨"property_type", .none, .given⟩]
  attrs :=
    [("property_type", none), ("length", some (.ub 2 (.int 4)))]
/-- InstructionsProperty, v0x04/controller2switch/common.py:496-509. -/
def instructionsProperty : Ctor where
  cls := "04.InstructionsProperty"
  params :=
    [⟨"property_type", .enum 0, .given⟩, ⟨"instruction_ids", .none, .orElse (.list false [])⟩]
  attrs :=
    [("property_type", none), ("length", some (.ub 2 (.int 4))), ("instruction_ids", none)]
  auto := some (V04.instructionsProperty.fields, 1)
/-- NextTablesProperty, v0x04/controller2switch/common.py:522-536. -/
def nextTablesProperty : Ctor where
  cls := "04.NextTablesProperty"
  params :=
    [⟨"property_type", .enum 2, .given⟩, ⟨"next_table_ids", .none, .unlessNone (.list true [])⟩]
  attrs :=
    [("property_type", none), ("length", some (.ub 2 (.int 4))), ("next_table_ids", none)]
  auto := some (V04.nextTablesProperty.fields, 1)
/-- ActionsProperty, v0x04/controller2switch/common.py:551-565. -/
def actionsProperty : Ctor where
  cls := "04.ActionsProperty"
  params :=
    [⟨"property_type", .enum 4, .given⟩, ⟨"action_ids", .none, .orElse (.list true [])⟩]
  attrs :=
    [("property_type", none), ("length", some (.ub 2 (.int 4))), ("action_ids", none)]
  auto := some (V04.actionsProperty.fields, 1)
/-- OxmProperty, v0x04/controller2switch/common.py:582-595. -/
def oxmProperty : Ctor where
  cls := "04.OxmProperty"
  params :=
    [⟨"property_type", .enum 8, .given⟩, ⟨"oxm_ids", .none, .unlessNone (.list true [])⟩]
  attrs :=
    [("property_type", none), ("length", some (.ub 2 (.int 4))), ("oxm_ids", none)]
  auto := some (V04.oxmProperty.fields, 1)
/-- TableFeatures, v0x04/controller2switch/common.py:638-674. -/
def tableFeatures : Ctor where
  cls := "04.TableFeatures"
  params :=
    [⟨"table_id", .enum 255, .given⟩, ⟨"name", .str [], .given⟩, ⟨"metadata_match", .int 18446744073709551615, .given⟩,
     ⟨"metadata_write", .int 18446744073709551615, .given⟩, ⟨"config", .int 0, .given⟩, ⟨"max_entries", .int 0, .given⟩,
     ⟨"properties", .none, .unlessNone (.list true [])⟩]
  attrs :=
    [("length", some (.ub 2 .none)), ("table_id", none), ("pad", some (.pad 5)), ("name", none), ("metadata_match", none),
     ("metadata_write", none), ("config", none), ("max_entries", none), ("properties", none)]
  auto := some (V04.tableFeaturesFields, 0)
/-- FeaturesReply, v0x04/controller2switch/features_reply.py:58-80. -/
def featuresReply : Ctor where
  cls := "04.FeaturesReply"
  params :=
    [⟨"datapath_id", .none, .given⟩, ⟨"n_buffers", .none, .given⟩, ⟨"n_tables", .none, .given⟩, ⟨"auxiliary_id", .none, .given⟩,
     ⟨"capabilities", .none, .given⟩, ⟨"reserved", .none, .given⟩]
  attrs :=
    [("datapath_id", none), ("n_buffers", none), ("n_tables", none), ("auxiliary_id", none), ("pad", some (.pad 2)),
     ("capabilities", none), ("reserved", none)]
/-- FeaturesRequest, v0x04/controller2switch/features_request.py (no constructor of its own). -/
def featuresRequest : Ctor where
  cls := "04.FeaturesRequest"
  params :=
    []
  attrs :=
    []
/-- FlowMod, v0x04/controller2switch/flow_mod.py:73-121. -/
def flowMod : Ctor where
  cls := "04.FlowMod"
  params :=
    [⟨"cookie", .int 0, .given⟩, ⟨"cookie_mask", .int 0, .given⟩, ⟨"table_id", .int 0, .given⟩, ⟨"command", .none, .given⟩,
     ⟨"idle_timeout", .int 0, .given⟩, ⟨"hard_timeout", .int 0, .given⟩, ⟨"priority", .int 0, .given⟩,
     ⟨"buffer_id", .int 4294967295, .given⟩, ⟨"out_port", .enum 4294967295, .given⟩, ⟨"out_group", .enum 4294967295, .given⟩,
     ⟨"flags", .int 1, .given⟩, ⟨"match", .none, .unlessNone (.obj "04.Match" V04.matchInit)⟩,
     ⟨"instructions", .none, .orElse (.list true [])⟩]
  attrs :=
    [("cookie", none), ("cookie_mask", none), ("table_id", none), ("command", none), ("idle_timeout", none), ("hard_timeout", none),
     ("priority", none), ("buffer_id", none), ("out_port", none), ("out_group", none), ("flags", none), ("pad", some (.pad 2)),
     ("match", none), ("instructions", none)]
/-- GetAsyncReply, v0x04/controller2switch/get_async_reply.py:23-46. -/
def getAsyncReply : Ctor where
  cls := "04.GetAsyncReply"
  params :=
    [⟨"packet_in_mask1", .none, .given⟩, ⟨"packet_in_mask2", .none, .given⟩, ⟨"port_status_mask1", .none, .given⟩,
     ⟨"port_status_mask2", .none, .given⟩, ⟨"flow_removed_mask1", .none, .given⟩, ⟨"flow_removed_mask2", .none, .given⟩]
  attrs :=
    [("packet_in_mask1", none), ("packet_in_mask2", none), ("port_status_mask1", none), ("port_status_mask2", none),
     ("flow_removed_mask1", none), ("flow_removed_mask2", none)]
/-- GetAsyncRequest, v0x04/controller2switch/get_async_request.py (no constructor of its own). -/
def getAsyncRequest : Ctor where
  cls := "04.GetAsyncRequest"
  params :=
    []
  attrs :=
    []
/-- GetConfigReply, v0x04/controller2switch/get_config_reply.py:16-27. -/
def getConfigReply : Ctor where
  cls := "04.GetConfigReply"
  params :=
    [⟨"flags", .none, .given⟩, ⟨"miss_send_len", .none, .given⟩]
  attrs :=
    [("flags", none), ("miss_send_len", none)]
/-- GetConfigRequest, v0x04/controller2switch/get_config_request.py (no constructor of its own). -/
def getConfigRequest : Ctor where
  cls := "04.GetConfigRequest"
  params :=
    []
  attrs :=
    []
/-- GroupMod, v0x04/controller2switch/group_mod.py:77-93. -/
def groupMod : Ctor where
  cls := "04.GroupMod"
  params :=
    [⟨"command", .none, .given⟩, ⟨"group_type", .none, .given⟩, ⟨"group_id", .none, .given⟩, ⟨"buckets", .none, .given⟩]
  attrs :=
    [("command", none), ("group_type", none), ("pad", some (.pad 1)), ("group_id", none), ("buckets", none)]
/-- MeterBandHeader, v0x04/controller2switch/meter_mod.py:78-90. -/
def meterBandHeader : Ctor where
  cls := "04.MeterBandHeader"
  params :=
    [⟨"band_type", .none, .given⟩, ⟨"rate", .none, .given⟩, ⟨"burst_size", .none, .given⟩]
  attrs :=
    [("band_type", none), ("length", some (.ub 2 .none)), ("rate", none), ("burst_size", none)]
  auto := some (V04.bandBase.fields, 1)
/-- MeterMod, v0x04/controller2switch/meter_mod.py:129-145. -/
def meterMod : Ctor where
  cls := "04.MeterMod"
  params :=
    [⟨"command", .none, .given⟩, ⟨"flags", .none, .given⟩, ⟨"meter_id", .none, .given⟩, ⟨"bands", .none, .given⟩]
  attrs :=
    [("command", none), ("flags", none), ("meter_id", none), ("bands", none)]
/-- MeterBandDrop, v0x04/controller2switch/meter_mod.py:153-160. -/
def meterBandDrop : Ctor where
  cls := "04.MeterBandDrop"
  params :=
    [⟨"rate", .none, .given⟩, ⟨"burst_size", .none, .given⟩]
  attrs :=
    [("band_type", some (.enum 1)), ("length", some (.ub 2 .none)), ("rate", none), ("burst_size", none), ("pad", some (.pad 4))]
  auto := some (V04.bandDrop.fields, 1)
/-- MeterBandDscpRemark, v0x04/controller2switch/meter_mod.py:169-178. -/
def meterBandDscpRemark : Ctor where
  cls := "04.MeterBandDscpRemark"
  params :=
    [⟨"rate", .none, .given⟩, ⟨"burst_size", .none, .given⟩, ⟨"prec_level", .none, .given⟩]
  attrs :=
    [("band_type", some (.enum 2)), ("length", some (.ub 2 .none)), ("rate", none), ("burst_size", none), ("prec_level", none),
     ("pad", some (.pad 3))]
  auto := some (V04.bandDscpRemark.fields, 1)
/-- MeterBandExperimenter, v0x04/controller2switch/meter_mod.py:186-196. -/
def meterBandExperimenter : Ctor where
  cls := "04.MeterBandExperimenter"
  params :=
    [⟨"rate", .none, .given⟩, ⟨"burst_size", .none, .given⟩, ⟨"experimenter", .none, .given⟩]
  attrs :=
    [("band_type", some (.enum 65535)), ("length", some (.ub 2 .none)), ("rate", none), ("burst_size", none), ("experimenter", none)]
  auto := some (V04.bandExperimenter.fields, 1)
/-- MultipartReply, v0x04/controller2switch/multipart_reply.py:73-86. -/
def multipartReply : Ctor where
  cls := "04.MultipartReply"
  params :=
    [⟨"multipart_type", .none, .given⟩, ⟨"flags", .none, .given⟩, ⟨"body", .bytes [], .given⟩]
  attrs :=
    [("multipart_type", none), ("flags", none), ("pad", some (.pad 4)), ("body", none)]
/-- AggregateStatsReply, v0x04/controller2switch/multipart_reply.py:190-202. -/
def aggregateStatsReply : Ctor where
  cls := "04.AggregateStatsReply"
  params :=
    [⟨"packet_count", .none, .given⟩, ⟨"byte_count", .none, .given⟩, ⟨"flow_count", .none, .given⟩]
  attrs :=
    [("packet_count", none), ("byte_count", none), ("flow_count", none), ("pad", some (.pad 4))]
/-- Desc, v0x04/controller2switch/multipart_reply.py:223-240. -/
def desc : Ctor where
  cls := "04.Desc"
  params :=
    [⟨"mfr_desc", .none, .given⟩, ⟨"hw_desc", .none, .given⟩, ⟨"sw_desc", .none, .given⟩, ⟨"serial_num", .none, .given⟩,
     ⟨"dp_desc", .none, .given⟩]
  attrs :=
    [("mfr_desc", none), ("hw_desc", none), ("sw_desc", none), ("serial_num", none), ("dp_desc", none)]
/-- FlowStats, v0x04/controller2switch/multipart_reply.py:264-299. -/
def flowStats : Ctor where
  cls := "04.FlowStats"
  params :=
    [⟨"length", .none, .given⟩, ⟨"table_id", .none, .given⟩, ⟨"duration_sec", .none, .given⟩, ⟨"duration_nsec", .none, .given⟩,
     ⟨"priority", .none, .given⟩, ⟨"idle_timeout", .none, .given⟩, ⟨"hard_timeout", .none, .given⟩, ⟨"flags", .none, .given⟩,
     ⟨"cookie", .none, .given⟩, ⟨"packet_count", .none, .given⟩, ⟨"byte_count", .none, .given⟩, ⟨"match", .none, .given⟩,
     ⟨"instructions", .none, .orElse (.list false [])⟩]
  attrs :=
    [("length", none), ("table_id", none), ("pad", some (.pad 1)), ("duration_sec", none), ("duration_nsec", none),
     ("priority", none), ("idle_timeout", none), ("hard_timeout", none), ("flags", none), ("pad2", some (.pad 4)), ("cookie", none),
     ("packet_count", none), ("byte_count", none), ("match", none), ("instructions", none)]
/-- PortStats, v0x04/controller2switch/multipart_reply.py:340-388. -/
def portStats : Ctor where
  cls := "04.PortStats"
  params :=
    [⟨"port_no", .none, .given⟩, ⟨"rx_packets", .none, .given⟩, ⟨"tx_packets", .none, .given⟩, ⟨"rx_bytes", .none, .given⟩,
     ⟨"tx_bytes", .none, .given⟩, ⟨"rx_dropped", .none, .given⟩, ⟨"tx_dropped", .none, .given⟩, ⟨"rx_errors", .none, .given⟩,
     ⟨"tx_errors", .none, .given⟩, ⟨"rx_frame_err", .none, .given⟩, ⟨"rx_over_err", .none, .given⟩, ⟨"rx_crc_err", .none, .given⟩,
     ⟨"collisions", .none, .given⟩, ⟨"duration_sec", .none, .given⟩, ⟨"duration_nsec", .none, .given⟩]
  attrs :=
    [("port_no", none), ("pad", some (.pad 4)), ("rx_packets", none), ("tx_packets", none), ("rx_bytes", none), ("tx_bytes", none),
     ("rx_dropped", none), ("tx_dropped", none), ("rx_errors", none), ("tx_errors", none), ("rx_frame_err", none),
     ("rx_over_err", none), ("rx_crc_err", none), ("collisions", none), ("duration_sec", none), ("duration_nsec", none)]
/-- QueueStats, v0x04/controller2switch/multipart_reply.py:402-426. -/
def queueStats : Ctor where
  cls := "04.QueueStats"
  params :=
    [⟨"port_no", .none, .given⟩, ⟨"queue_id", .none, .given⟩, ⟨"tx_bytes", .none, .given⟩, ⟨"tx_packets", .none, .given⟩,
     ⟨"tx_errors", .none, .given⟩, ⟨"duration_sec", .none, .given⟩, ⟨"duration_nsec", .none, .given⟩]
  attrs :=
    [("port_no", none), ("queue_id", none), ("tx_bytes", none), ("tx_packets", none), ("tx_errors", none), ("duration_sec", none),
     ("duration_nsec", none)]
/-- GroupDescStats, v0x04/controller2switch/multipart_reply.py:439-454. -/
def groupDescStats : Ctor where
  cls := "04.GroupDescStats"
  params :=
    [⟨"length", .none, .given⟩, ⟨"group_type", .none, .given⟩, ⟨"group_id", .none, .given⟩, ⟨"buckets", .none, .given⟩]
  attrs :=
    [("length", none), ("group_type", none), ("pad", some (.pad 1)), ("group_id", none), ("buckets", none)]
/-- GroupFeatures, v0x04/controller2switch/multipart_reply.py:471-494. -/
def groupFeatures : Ctor where
  cls := "04.GroupFeatures"
  params :=
    [⟨"types", .none, .given⟩, ⟨"capabilities", .none, .given⟩, ⟨"max_groups1", .none, .given⟩, ⟨"max_groups2", .none, .given⟩,
     ⟨"max_groups3", .none, .given⟩, ⟨"max_groups4", .none, .given⟩, ⟨"actions1", .none, .given⟩, ⟨"actions2", .none, .given⟩,
     ⟨"actions3", .none, .given⟩, ⟨"actions4", .none, .given⟩]
  attrs :=
    [("types", none), ("capabilities", none), ("max_groups1", none), ("max_groups2", none), ("max_groups3", none),
     ("max_groups4", none), ("actions1", none), ("actions2", none), ("actions3", none), ("actions4", none)]
/-- GroupStats, v0x04/controller2switch/multipart_reply.py:513-538. -/
def groupStats : Ctor where
  cls := "04.GroupStats"
  params :=
    [⟨"length", .none, .given⟩, ⟨"group_id", .none, .given⟩, ⟨"ref_count", .none, .given⟩, ⟨"packet_count", .none, .given⟩,
     ⟨"byte_count", .none, .given⟩, ⟨"duration_sec", .none, .given⟩, ⟨"duration_nsec", .none, .given⟩, ⟨"bucket_stats", .none, .given⟩]
  attrs :=
    [("length", none), ("pad", some (.pad 2)), ("group_id", none), ("ref_count", none), ("pad2", some (.pad 4)),
     ("packet_count", none), ("byte_count", none), ("duration_sec", none), ("duration_nsec", none), ("bucket_stats", none)]
/-- MeterConfig, v0x04/controller2switch/multipart_reply.py:556-573. -/
def meterConfig : Ctor where
  cls := "04.MeterConfig"
  params :=
    [⟨"flags", .int 8, .given⟩, ⟨"meter_id", .none, .given⟩, ⟨"bands", .none, .orElse (.list false [])⟩]
  attrs :=
    [("length", some (.ub 2 .none)), ("flags", none), ("meter_id", none), ("bands", none)]
/-- MeterFeatures, v0x04/controller2switch/multipart_reply.py:586-604. -/
def meterFeatures : Ctor where
  cls := "04.MeterFeatures"
  params :=
    [⟨"max_meter", .none, .given⟩, ⟨"band_types", .none, .given⟩, ⟨"capabilities", .none, .given⟩, ⟨"max_bands", .none, .given⟩,
     ⟨"max_color", .none, .given⟩]
  attrs :=
    [("max_meter", none), ("band_types", none), ("capabilities", none), ("max_bands", none), ("max_color", none),
     ("pad", some (.pad 2))]
/-- BandStats, v0x04/controller2switch/multipart_reply.py:616-626. -/
def bandStats : Ctor where
  cls := "04.BandStats"
  params :=
    [⟨"packet_band_count", .none, .given⟩, ⟨"byte_band_count", .none, .given⟩]
  attrs :=
    [("packet_band_count", none), ("byte_band_count", none)]
/-- MeterStats, v0x04/controller2switch/multipart_reply.py:661-685. -/
def meterStats : Ctor where
  cls := "04.MeterStats"
  params :=
    [⟨"meter_id", .none, .given⟩, ⟨"flow_count", .none, .given⟩, ⟨"packet_in_count", .none, .given⟩, ⟨"byte_in_count", .none, .given⟩,
     ⟨"duration_sec", .none, .given⟩, ⟨"duration_nsec", .none, .given⟩, ⟨"band_stats", .none, .orElse (.list false [])⟩]
  attrs :=
    [("meter_id", none), ("length", some (.ub 2 .none)), ("pad", some (.pad 6)), ("flow_count", none), ("packet_in_count", none),
     ("byte_in_count", none), ("duration_sec", none), ("duration_nsec", none), ("band_stats", none)]
  auto := some (V04.meterStatsFields, 1)
/-- TableStats, v0x04/controller2switch/multipart_reply.py:732-748. -/
def tableStats : Ctor where
  cls := "04.TableStats"
  params :=
    [⟨"table_id", .none, .given⟩, ⟨"active_count", .none, .given⟩, ⟨"lookup_count", .none, .given⟩, ⟨"matched_count", .none, .given⟩]
  attrs :=
    [("table_id", none), ("pad", some (.pad 3)), ("active_count", none), ("lookup_count", none), ("matched_count", none)]
/-- MultipartRequest, v0x04/controller2switch/multipart_request.py:60-72. -/
def multipartRequest : Ctor where
  cls := "04.MultipartRequest"
  params :=
    [⟨"multipart_type", .none, .given⟩, ⟨"flags", .int 0, .given⟩, ⟨"body", .bytes [], .given⟩]
  attrs :=
    [("multipart_type", none), ("flags", none), ("pad", some (.pad 4)), ("body", none)]
/-- AggregateStatsRequest, v0x04/controller2switch/multipart_request.py:182-206. -/
def aggregateStatsRequest : Ctor where
  cls := "04.AggregateStatsRequest"
  params :=
    [⟨"table_id", .enum 255, .given⟩, ⟨"out_port", .enum 4294967295, .given⟩, ⟨"out_group", .enum 4294967295, .given⟩,
     ⟨"cookie", .int 0, .given⟩, ⟨"cookie_mask", .int 0, .given⟩, ⟨"match", .none, .unlessNone (.obj "04.Match" V04.matchInit)⟩]
  attrs :=
    [("table_id", none), ("pad", some (.pad 3)), ("out_port", none), ("out_group", none), ("pad2", some (.pad 4)), ("cookie", none),
     ("cookie_mask", none), ("match", none)]
/-- FlowStatsRequest, v0x04/controller2switch/multipart_request.py:222-247. -/
def flowStatsRequest : Ctor where
  cls := "04.FlowStatsRequest"
  params :=
    [⟨"table_id", .enum 255, .given⟩, ⟨"out_port", .enum 4294967295, .given⟩, ⟨"out_group", .enum 4294967295, .given⟩,
     ⟨"cookie", .int 0, .given⟩, ⟨"cookie_mask", .int 0, .given⟩, ⟨"match", .none, .unlessNone (.obj "04.Match" V04.matchInit)⟩]
  attrs :=
    [("table_id", none), ("pad", some (.pad 3)), ("out_port", none), ("out_group", none), ("pad2", some (.pad 4)), ("cookie", none),
     ("cookie_mask", none), ("match", none)]
/-- PortStatsRequest, v0x04/controller2switch/multipart_request.py:257-267. -/
def portStatsRequest : Ctor where
  cls := "04.PortStatsRequest"
  params :=
    [⟨"port_no", .enum 4294967295, .given⟩]
  attrs :=
    [("port_no", none), ("pad", some (.pad 4))]
/-- QueueStatsRequest, v0x04/controller2switch/multipart_request.py:276-286. -/
def queueStatsRequest : Ctor where
  cls := "04.QueueStatsRequest"
  params :=
    [⟨"port_no", .enum 4294967295, .given⟩, ⟨"queue_id", .int 4294967295, .given⟩]
  attrs :=
    [("port_no", none), ("queue_id", none)]
/-- GroupStatsRequest, v0x04/controller2switch/multipart_request.py:297-305. -/
def groupStatsRequest : Ctor where
  cls := "04.GroupStatsRequest"
  params :=
    [⟨"group_id", .enum 4294967292, .given⟩]
  attrs :=
    [("group_id", none), ("pad", some (.pad 4))]
/-- MeterMultipartRequest, v0x04/controller2switch/multipart_request.py:321-329. -/
def meterMultipartRequest : Ctor where
  cls := "04.MeterMultipartRequest"
  params :=
    [⟨"meter_id", .enum 4294967295, .given⟩]
  attrs :=
    [("meter_id", none), ("pad", some (.pad 4))]
/-- PacketOut, v0x04/controller2switch/packet_out.py:39-61. -/
def packetOut : Ctor where
  cls := "04.PacketOut"
  params :=
    [⟨"buffer_id", .int 4294967295, .given⟩, ⟨"in_port", .enum 4294967293, .given⟩, ⟨"actions", .none, .unlessNone (.list false [])⟩,
     ⟨"data", .bytes [], .given⟩]
  attrs :=
    [("buffer_id", none), ("in_port", none), ("actions_len", some (.ub 2 .none)), ("pad", some (.pad 6)), ("actions", none),
     ("data", none)]
/-- PortMod, v0x04/controller2switch/port_mod.py:32-55. -/
def portMod : Ctor where
  cls := "04.PortMod"
  params :=
    [⟨"port_no", .none, .given⟩, ⟨"hw_addr", .none, .given⟩, ⟨"config", .none, .given⟩, ⟨"mask", .none, .given⟩,
     ⟨"advertise", .none, .given⟩]
  attrs :=
    [("port_no", none), ("pad", some (.pad 4)), ("hw_addr", none), ("pad2", some (.pad 2)), ("config", none), ("mask", none),
     ("advertise", none), ("pad3", some (.pad 4))]
/-- QueueGetConfigReply, v0x04/controller2switch/queue_get_config_reply.py:30-42. -/
def queueGetConfigReply : Ctor where
  cls := "04.QueueGetConfigReply"
  params :=
    [⟨"port", .none, .given⟩, ⟨"queues", .none, .unlessNone (.list false [])⟩]
  attrs :=
    [("port", none), ("pad", some (.pad 4)), ("queues", none)]
/-- QueueGetConfigRequest, v0x04/controller2switch/queue_get_config_request.py:26-34. -/
def queueGetConfigRequest : Ctor where
  cls := "04.QueueGetConfigRequest"
  params :=
    [⟨"port", .none, .given⟩]
  attrs :=
    [("port", none), ("pad", some (.pad 4))]
/-- RoleReply, v0x04/controller2switch/role_reply.py:20-32. -/
def roleReply : Ctor where
  cls := "04.RoleReply"
  params :=
    [⟨"role", .enum 0, .given⟩, ⟨"generation_id", .int 18446744073709551615, .given⟩]
  attrs :=
    [("role", none), ("pad", some (.pad 4)), ("generation_id", none)]
/-- RoleRequest, v0x04/controller2switch/role_request.py:23-33. -/
def roleRequest : Ctor where
  cls := "04.RoleRequest"
  params :=
    [⟨"role", .none, .given⟩, ⟨"generation_id", .none, .given⟩]
  attrs :=
    [("role", none), ("pad", some (.pad 4)), ("generation_id", none)]
/-- SetAsync, v0x04/controller2switch/set_async.py:25-48. -/
def setAsync : Ctor where
  cls := "04.SetAsync"
  params :=
    [⟨"packet_in_mask1", .none, .given⟩, ⟨"packet_in_mask2", .none, .given⟩, ⟨"port_status_mask1", .none, .given⟩,
     ⟨"port_status_mask2", .none, .given⟩, ⟨"flow_removed_mask1", .none, .given⟩, ⟨"flow_removed_mask2", .none, .given⟩]
  attrs :=
    [("packet_in_mask1", none), ("packet_in_mask2", none), ("port_status_mask1", none), ("port_status_mask2", none),
     ("flow_removed_mask1", none), ("flow_removed_mask2", none)]
/-- SetConfig, v0x04/controller2switch/set_config.py:18-30. -/
def setConfig : Ctor where
  cls := "04.SetConfig"
  params :=
    [⟨"flags", .enum 0, .given⟩, ⟨"miss_send_len", .enum 65535, .given⟩]
  attrs :=
    [("flags", none), ("miss_send_len", none)]
/-- TableMod, v0x04/controller2switch/table_mod.py:30-43. -/
def tableMod : Ctor where
  cls := "04.TableMod"
  params :=
    [⟨"table_id", .enum 255, .given⟩, ⟨"config", .int 3, .given⟩]
  attrs :=
    [("table_id", none), ("pad", some (.pad 3)), ("config", none)]
/-- EchoReply, v0x04/symmetric/echo_reply.py:25-33. -/
def echoReply : Ctor where
  cls := "04.EchoReply"
  params :=
    [⟨"data", .bytes [], .given⟩]
  attrs :=
    [("data", none)]
/-- EchoRequest, v0x04/symmetric/echo_request.py:25-33. -/
def echoRequest : Ctor where
  cls := "04.EchoRequest"
  params :=
    [⟨"data", .bytes [], .given⟩]
  attrs :=
    [("data", none)]
/-- ExperimenterHeader, v0x04/symmetric/experimenter.py:39-52. -/
def experimenterHeader : Ctor where
  cls := "04.ExperimenterHeader"
  params :=
    [⟨"experimenter", .none, .given⟩, ⟨"exp_type", .none, .given⟩, ⟨"data", .bytes [], .given⟩]
  attrs :=
    [("experimenter", none), ("exp_type", none), ("data", none)]
/-- HelloElemHeader, v0x04/symmetric/hello.py:36-47. -/
def helloElemHeader : Ctor where
  cls := "04.HelloElemHeader"
  params :=
    [⟨"element_type", .none, .given⟩, ⟨"length", .none, .given⟩, ⟨"content", .bytes [], .given⟩]
  attrs :=
    [("element_type", none), ("length", none), ("content", none)]
/-- Hello, v0x04/symmetric/hello.py:119-127. -/
def hello : Ctor where
  cls := "04.Hello"
  params :=
    [⟨"elements", .none, .given⟩]
  attrs :=
    [("elements", none)]

/-- The constructors of the messages of v0x04. -/
def messages : List Ctor :=
  [errorMsg, errorExperimenterMsg, flowRemoved, packetIn, portStatus, barrierReply, barrierRequest, featuresReply, featuresRequest,
   flowMod, getAsyncReply, getAsyncRequest, getConfigReply, getConfigRequest, groupMod, meterMod, multipartReply, multipartRequest,
   packetOut, portMod, queueGetConfigReply, queueGetConfigRequest, roleReply, roleRequest, setAsync, setConfig, tableMod, echoReply,
   echoRequest, experimenterHeader, hello]

/-- The constructors of the structures of v0x04. -/
def structures : List Ctor :=
  [actionHeader, actionExperimenter, actionGroup, actionDecMPLSTTL, actionSetMPLSTTL, actionCopyTTLIn, actionCopyTTLOut,
   actionPopVLAN, actionPopPBB, actionDecNWTTL, actionSetNWTTL, actionOutput, actionPopMPLS, actionPush, actionSetField,
   actionSetQueue, instruction, instructionApplyAction, instructionClearAction, instructionGotoTable, instructionMeter,
   instructionWriteAction, instructionWriteMetadata, oxmTLV, «match», oxmExperimenterHeader, port, queuePropHeader, packetQueue,
   queuePropExperimenter, queuePropMaxRate, queuePropMinRate, bucket, bucketCounter, experimenterMultipartHeader, property,
   instructionsProperty, nextTablesProperty, actionsProperty, oxmProperty, tableFeatures, meterBandHeader, meterBandDrop,
   meterBandDscpRemark, meterBandExperimenter, aggregateStatsReply, desc, flowStats, portStats, queueStats, groupDescStats,
   groupFeatures, groupStats, meterConfig, meterFeatures, bandStats, meterStats, tableStats, aggregateStatsRequest, flowStatsRequest,
   portStatsRequest, queueStatsRequest, groupStatsRequest, meterMultipartRequest, helloElemHeader]

end V04.New

end Pyof
