import Verif.Model.Body
import Verif.Model.Variant
/-!
# OpenFlow 1.0 (`/repo/pyof/v0x01`)

Class names carry the prefix `01.`; enum classes are given by the values of their members.
-/
namespace Pyof.V01

/-! ## Enums -/

/-- Type, common/header.py:16-60. -/
def types : List Nat := List.range 22
/-- Port, common/phy_port.py:18-45. -/
def portEnum : List Nat := [0xff00, 0xfff8, 0xfff9, 0xfffa, 0xfffb, 0xfffc, 0xfffd, 0xfffe, 0xffff]
/-- StatsType, controller2switch/common.py:40-63. -/
def statsTypes : List Nat := [0, 1, 2, 3, 4, 5, 0xffff]

/-! ## Actions (common/action.py) -/

/-- ActionHeader, lines 58-59: `action_type` (a bit mask class), `length`. -/
def actionHead : Fields := [("action_type", ubint 2 .mask), ("length", ubint 2)]

/-- ActionOutput, lines 119-120. -/
def actionOutput : Sub := plainSub "01.ActionOutput" (actionHead ++ [("port", ubint 2), ("max_length", ubint 2)])
/-- ActionStripVlan, line 144. -/
def actionStripVlan : Sub := plainSub "01.ActionStripVlan" (actionHead ++ [("pad", padAttr 4)])
/-- ActionEnqueue, lines 166-169. -/
def actionEnqueue : Sub :=
  plainSub "01.ActionEnqueue" (actionHead ++ [("port", ubint 2), ("pad", padAttr 6), ("queue_id", ubint 4)])
/-- ActionVlanVid, lines 193-195. -/
def actionVlanVid : Sub := plainSub "01.ActionVlanVid" (actionHead ++ [("vlan_id", ubint 2), ("pad2", padAttr 2)])
/-- ActionVlanPCP, lines 212-214. -/
def actionVlanPCP : Sub := plainSub "01.ActionVlanPCP" (actionHead ++ [("vlan_pcp", ubint 1), ("pad", padAttr 3)])
/-- ActionDLAddr, lines 234-236. -/
def actionDLAddr : Sub := plainSub "01.ActionDLAddr" (actionHead ++ [("dl_addr", hwAttr), ("pad", padAttr 6)])
/-- ActionNWAddr, line 257. -/
def actionNWAddr : Sub := plainSub "01.ActionNWAddr" (actionHead ++ [("nw_addr", ubint 4)])
/-- ActionNWTos, lines 281-283. -/
def actionNWTos : Sub := plainSub "01.ActionNWTos" (actionHead ++ [("nw_tos", ubint 1), ("pad", padAttr 3)])
/-- ActionTPPort, lines 303-305. -/
def actionTPPort : Sub := plainSub "01.ActionTPPort" (actionHead ++ [("tp_port", ubint 2), ("pad", padAttr 2)])
/-- ActionVendorHeader, line 328. -/
def actionVendorHeader : Sub := plainSub "01.ActionVendorHeader" (actionHead ++ [("vendor", ubint 4)])
/-- The base class itself, for types no subclass allows. -/
def actionHeader : Sub := plainSub "01.ActionHeader" actionHead

/-- `ActionHeader.__subclasses__()` in definition order, with `_allowed_types`. -/
def actionClasses : List (List Nat × Sub) :=
  [([0], actionOutput), ([3], actionStripVlan), ([11], actionEnqueue), ([1], actionVlanVid), ([2], actionVlanPCP),
   ([4, 5], actionDLAddr), ([6, 7], actionNWAddr), ([8], actionNWTos), ([9, 10], actionTPPort),
   ([0xffff], actionVendorHeader)]

/-- Lines 96-99: the first subclass that allows the type, else the object stays an `ActionHeader`. -/
def pickAction (t : Nat) : Res Sub :=
  match actionClasses.find? (fun p => p.1.contains t) with
  | some p => .ok p.2
  | none => .ok actionHeader

def actionSubs : List Sub := actionHeader :: actionClasses.map (·.2)

/-- ActionHeader (lines 55-106) as list item; unpack: lines 79-101. -/
def action : Attr := variantAttr (.obj "01.ActionHeader" [.none, .none]) .mask false pickAction actionSubs

/-- ListOfActions (lines 344-357). -/
def actions : Attr := listAttr (isSub actionSubs) action

/-! ## Match (common/flow_match.py:66-203) -/

/-- Lines 70-98. -/
def matchFields : Fields :=
  [("wildcards", ubint 4 .mask (.int 4194303)), ("in_port", ubint 2 .none (.int 0)), ("dl_src", hwAttr), ("dl_dst", hwAttr),
   ("dl_vlan", ubint 2 .none (.int 0)), ("dl_vlan_pcp", ubint 1 .none (.int 0)), ("pad1", padAttr 1),
   ("dl_type", ubint 2 .none (.int 0)), ("nw_tos", ubint 1 .none (.int 0)), ("nw_proto", ubint 1 .none (.int 0)),
   ("pad2", padAttr 2), ("nw_src", ipAttr "0.0.0.0".toList 0), ("nw_dst", ipAttr "0.0.0.0".toList 0),
   ("tp_src", ubint 2 .none (.int 0)), ("tp_dst", ubint 2 .none (.int 0))]

/-- `Match()`: `__init__` copies the class attributes one by one, and `__setattr__` (lines 125-142) turns the two
6-bit network fields of the wildcards from 63 into `32 - 0`: 0x3820ff. -/
def matchInit : List Val :=
  [.int 0x3820ff, .ub 2 (.int 0), .hw (.str hwZero), .hw (.str hwZero), .ub 2 (.int 0), .ub 1 (.int 0), .pad 1,
   .ub 2 (.int 0), .ub 1 (.int 0), .ub 1 (.int 0), .pad 2, .ip (.str "0.0.0.0".toList) 0, .ip (.str "0.0.0.0".toList) 0,
   .ub 2 (.int 0), .ub 2 (.int 0)]

/-- Match.unpack (lines 144-161): decode all attributes, then decode the wildcards again into a new `UBInt32` (the
assignments in between have recomputed them, see `Verif/Model/Match01.lean`). -/
def matchUnpack (buff : Bytes) (offset : Nat) : Res Val :=
  match unpackAttrs matchFields buff offset with
  | .error e => .error e
  | .ok (vs, _) =>
    match ubUnpack 4 .mask buff offset with
    | .error e => .error e
    | .ok w => .ok (.obj "01.Match" (w :: vs.drop 1))

def «match» : Attr := { structAttr "01.Match" matchFields matchInit with unpack := matchUnpack }

/-! ## Ports and queues -/

/-- PhyPort (common/phy_port.py:146-154). -/
def phyPortFields : Fields :=
  [("port_no", ubint 2), ("hw_addr", hwAttr), ("name", charAttr 16), ("config", ubint 4 .mask), ("state", ubint 4 .mask),
   ("curr", ubint 4 .mask), ("advertised", ubint 4 .mask), ("supported", ubint 4 .mask), ("peer", ubint 4 .mask)]
/-- PhyPort.__init__ without arguments (lines 156-185). -/
def phyPort : Attr :=
  structAttr "01.PhyPort" phyPortFields [.none, .none, .none, .int 0, .int 0, .int 0, .int 0, .int 0, .int 0]
/-- ListOfPhyPorts (lines 188-203). -/
def phyPorts : Attr := listAttr (isObj "01.PhyPort") phyPort

/-- QueuePropHeader (common/queue.py:52-55). -/
def queuePropHeaderFields : Fields := [("queue_property", ubint 2 (.enum [0, 1])), ("length", ubint 2), ("pad", padAttr 4)]
def queuePropHeader : Attr := structAttr "01.QueuePropHeader" queuePropHeaderFields [.none, .none, .pad 4]
/-- ListOfProperties (lines 32-45). -/
def queueProps : Attr := listAttr (isObj "01.QueuePropHeader") queuePropHeader
/-- PacketQueue (lines 73-77). -/
def packetQueueFields : Fields := [("queue_id", ubint 4), ("length", ubint 2), ("pad", padAttr 2), ("properties", queueProps)]
def packetQueue : Attr := structAttr "01.PacketQueue" packetQueueFields [.none, .none, .pad 2, .list false []]
/-- ListOfQueues (lines 113-127). -/
def queues : Attr := listAttr (isObj "01.PacketQueue") packetQueue
/-- QueuePropMinRate (lines 97-101). -/
def queuePropMinRateFields : Fields :=
  [("prop_header", structAttr "01.QueuePropHeader" queuePropHeaderFields [.enum 1, .int 16, .pad 4]), ("rate", ubint 2),
   ("pad", padAttr 6)]

/-! ## Statistics bodies (controller2switch/common.py) -/

/-- AggregateStatsReply, lines 99-103. -/
def aggregateStatsReply : Attr := structAttr "01.AggregateStatsReply"
  [("packet_count", ubint 8), ("byte_count", ubint 8), ("flow_count", ubint 4), ("pad", padAttr 4)]
  [.none, .none, .none, .pad 4]
/-- AggregateStatsRequest, lines 122-126, and its constructor defaults. -/
def aggregateStatsRequest : Attr := structAttr "01.AggregateStatsRequest"
  [("match", «match»), ("table_id", ubint 1), ("pad", padAttr 1), ("out_port", ubint 2)]
  [.obj "01.Match" matchInit, .int 0xff, .pad 1, .enum 0xffff]
/-- FlowStatsRequest, lines 252-256. -/
def flowStatsRequest : Attr := structAttr "01.FlowStatsRequest"
  [("match", «match»), ("table_id", ubint 1), ("pad", padAttr 1), ("out_port", ubint 2)]
  [.obj "01.Match" matchInit, .int 0xff, .pad 1, .enum 0xffff]
/-- DescStats, lines 151-155. -/
def descStats : Attr := structAttr "01.DescStats"
  [("mfr_desc", charAttr 256), ("hw_desc", charAttr 256), ("sw_desc", charAttr 256), ("serial_num", charAttr 32),
   ("dp_desc", charAttr 256)]
  [.none, .none, .none, .none, .none]
/-- FlowStats, lines 179-194. -/
def flowStatsFields : Fields :=
  [("length", ubint 2), ("table_id", ubint 1), ("pad", padAttr 1), ("match", «match»), ("duration_sec", ubint 4),
   ("duration_nsec", ubint 4), ("priority", ubint 2), ("idle_timeout", ubint 2), ("hard_timeout", ubint 2),
   ("pad2", padAttr 6), ("cookie", ubint 8), ("packet_count", ubint 8), ("byte_count", ubint 8), ("actions", actions)]
/-- FlowStats.unpack, lines 233-246. -/
def flowStats : Attr := lengthCut 0 (structAttr "01.FlowStats" flowStatsFields
  [.none, .none, .pad 1, .none, .none, .none, .none, .none, .none, .pad 6, .none, .none, .none, .list false []])
/-- PortStats, lines 282-296. -/
def portStats : Attr := structAttr "01.PortStats"
  [("port_no", ubint 2), ("pad", padAttr 6), ("rx_packets", ubint 8), ("tx_packets", ubint 8), ("rx_bytes", ubint 8),
   ("tx_bytes", ubint 8), ("rx_dropped", ubint 8), ("tx_dropped", ubint 8), ("rx_errors", ubint 8), ("tx_errors", ubint 8),
   ("rx_frame_err", ubint 8), ("rx_over_err", ubint 8), ("rx_crc_err", ubint 8), ("collisions", ubint 8)]
  [.none, .pad 6, .none, .none, .none, .none, .none, .none, .none, .none, .none, .none, .none, .none]
/-- PortStatsRequest, lines 345-347. -/
def portStatsRequest : Attr := structAttr "01.PortStatsRequest" [("port_no", ubint 2), ("pad", padAttr 6)] [.enum 0xffff, .pad 6]
/-- QueueStats, lines 365-371. -/
def queueStats : Attr := structAttr "01.QueueStats"
  [("port_no", ubint 2), ("pad", padAttr 2), ("queue_id", ubint 4), ("tx_bytes", ubint 8), ("tx_packets", ubint 8),
   ("tx_errors", ubint 8)]
  [.none, .pad 2, .none, .none, .none, .none]
/-- QueueStatsRequest, lines 396-399. -/
def queueStatsRequest : Attr := structAttr "01.QueueStatsRequest"
  [("port_no", ubint 2), ("pad", padAttr 2), ("queue_id", ubint 4)] [.none, .pad 2, .none]
/-- TableStats, lines 417-425. -/
def tableStats : Attr := structAttr "01.TableStats"
  [("table_id", ubint 1), ("pad", padAttr 3), ("name", charAttr 32), ("wildcards", ubint 4 .mask), ("max_entries", ubint 4),
   ("active_count", ubint 4), ("count_lookup", ubint 8), ("count_matched", ubint 8)]
  [.none, .pad 3, .none, .none, .none, .none, .none, .none]
/-- VendorStats, lines 456-457. -/
def vendorStats : Attr := structAttr "01.VendorStats" [("vendor", ubint 4), ("body", binAttr)] [.none, .bytes []]
/-- VendorStatsRequest, line 471: another name of `VendorStats`. -/
def vendorStatsRequest : Attr := structAttr "01.VendorStats" [("vendor", ubint 4), ("body", binAttr)] [.none, .bytes []]

/-- The classes whose instances may be put in the body of a statistics message. -/
def statsClasses : List (String × Attr) :=
  [("01.AggregateStatsReply", aggregateStatsReply), ("01.AggregateStatsRequest", aggregateStatsRequest),
   ("01.DescStats", descStats), ("01.FlowStats", flowStats), ("01.FlowStatsRequest", flowStatsRequest),
   ("01.PortStats", portStats), ("01.PortStatsRequest", portStatsRequest), ("01.QueueStats", queueStats),
   ("01.QueueStatsRequest", queueStatsRequest), ("01.TableStats", tableStats), ("01.VendorStats", vendorStats)]

/-! ## Messages -/

def msg (name : String) (code : Nat) (body : Fields) : MsgCls where
  name := name
  ver := 1
  types := types
  code := code
  body := body

/-- symmetric/hello.py:22-23 -/
def hello := msg "01.Hello" 0 [("elements", binAttr)]
/-- symmetric/echo_request.py:22-23 -/
def echoRequest := msg "01.EchoRequest" 2 [("data", binAttr)]
/-- symmetric/echo_reply.py:22-23 -/
def echoReply := msg "01.EchoReply" 3 [("data", binAttr)]
/-- symmetric/vendor_header.py:22-24 -/
def vendorHeader := msg "01.VendorHeader" 4 [("vendor", ubint 4), ("data", binAttr)]
/-- controller2switch/features_request.py:17 -/
def featuresRequest := msg "01.FeaturesRequest" 5 []
/-- controller2switch/features_reply.py:44-53, 79 -/
def featuresReply := msg "01.FeaturesReply" 6
  [("datapath_id", dpidAttr), ("n_buffers", ubint 4), ("n_tables", ubint 1), ("pad", padAttr 3),
   ("capabilities", ubint 4 .mask), ("actions", ubint 4 .mask), ("ports", phyPorts)]
/-- controller2switch/get_config_request.py:14 -/
def getConfigRequest := msg "01.GetConfigRequest" 7 []
/-- SwitchConfig, controller2switch/common.py:72-74 -/
def switchConfigFields : Fields := [("flags", ubint 2 (.enum [0, 1, 2, 3])), ("miss_send_len", ubint 2)]
/-- controller2switch/get_config_reply.py:13-27 -/
def getConfigReply := msg "01.GetConfigReply" 8 switchConfigFields
/-- controller2switch/set_config.py:14-28 -/
def setConfig := msg "01.SetConfig" 9 switchConfigFields
/-- asynchronous/packet_in.py:36-43; PacketInReason lines 20-27 -/
def packetIn := msg "01.PacketIn" 10
  [("buffer_id", ubint 4), ("total_len", ubint 2), ("in_port", ubint 2), ("reason", ubint 1 (.enum [0, 1])), ("pad", padAttr 1),
   ("data", binAttr)]
/-- asynchronous/flow_removed.py:33-50; FlowRemovedReason lines 17-26 -/
def flowRemoved := msg "01.FlowRemoved" 11
  [("match", «match»), ("cookie", ubint 8), ("priority", ubint 2), ("reason", ubint 1 (.enum [0, 1, 2])), ("pad", padAttr 1),
   ("duration_sec", ubint 4), ("duration_nsec", ubint 4), ("idle_timeout", ubint 2), ("pad2", padAttr 2),
   ("packet_count", ubint 8), ("byte_count", ubint 8)]
/-- asynchronous/port_status.py:36-40; PortReason lines 19-27 -/
def portStatus := msg "01.PortStatus" 12
  [("reason", ubint 1 (.enum [0, 1, 2])), ("pad", padAttr 7), ("desc", phyPort)]
/-- controller2switch/flow_mod.py:52-62; FlowModCommand lines 22-34 -/
def flowMod := msg "01.FlowMod" 14
  [("match", «match»), ("cookie", ubint 8), ("command", ubint 2 (.enum [0, 1, 2, 3, 4])), ("idle_timeout", ubint 2),
   ("hard_timeout", ubint 2), ("priority", ubint 2), ("buffer_id", ubint 4), ("out_port", ubint 2 (.enum portEnum)),
   ("flags", ubint 2 .mask), ("actions", actions)]
/-- controller2switch/port_mod.py:21-28 -/
def portMod := msg "01.PortMod" 15
  [("port_no", ubint 2), ("hw_addr", hwAttr), ("config", ubint 4 .mask), ("mask", ubint 4 .mask),
   ("advertise", ubint 4 .mask), ("pad", padAttr 4)]
/-- controller2switch/barrier_request.py:21 -/
def barrierRequest := msg "01.BarrierRequest" 18 []
/-- controller2switch/barrier_reply.py:21 -/
def barrierReply := msg "01.BarrierReply" 19 []
/-- controller2switch/queue_get_config_request.py:19-22 -/
def queueGetConfigRequest := msg "01.QueueGetConfigRequest" 20 [("port", ubint 2 (.enum portEnum)), ("pad", padAttr 2)]
/-- controller2switch/queue_get_config_reply.py:20-24 -/
def queueGetConfigReply := msg "01.QueueGetConfigReply" 21
  [("port", ubint 2 (.enum portEnum)), ("pad", padAttr 6), ("queues", queues)]

/-! ### PacketOut (controller2switch/packet_out.py) -/

/-- Lines 25-29. -/
def packetOutFields : Fields :=
  [("buffer_id", ubint 4), ("in_port", ubint 2), ("actions_len", ubint 2), ("actions", actions), ("data", binAttr)]

/-- _update_actions_len (lines 105-110). -/
def packetOutPrep : List Val → Res (List Val)
  | [b, p, _, acts, d] =>
    match actions.size acts with
    | .error e => .error e
    | .ok n => .ok [b, p, .int n, acts, d]
  | _ => .error .unmodelled

/-- validate, is_valid, _validate_in_port (lines 53-65, 112-129). -/
def packetOutValid : List Val → Res Unit
  | _ :: p :: _ =>
    match cmpNum p with
    | none => .error .type
    | some i =>
      if (0 < i ∧ i ≤ 0xff00) ∨ i = 0xfffe ∨ i = 0xfffd ∨ i = 0xffff then .ok () else .error .validation
  | _ => .error .unmodelled

/-- PacketOut.unpack (lines 77-103): like `GenericMessage.unpack` but without the test for an empty buffer, and the
actions only see `buff[begin:begin+actions_len]`. -/
def packetOutUnpack (buff : Bytes) : Res (List Val) :=
  match ubUnpack 4 .none buff 0 with
  | .error e => .error e
  | .ok b =>
    match ubUnpack 2 .none buff 4 with
    | .error e => .error e
    | .ok p =>
      match ubUnpack 2 .none buff 6 with
      | .error e => .error e
      | .ok l =>
        match actions.unpack (slice buff 8 (8 + gotNum l)) 0 with
        | .error e => .error e
        | .ok acts =>
          match actions.usize acts with
          | .error e => .error e
          | .ok n =>
            match (binAttr).unpack buff (8 + n) with
            | .error e => .error e
            | .ok d => .ok [b, p, l, acts, d]

def packetOut : MsgCls :=
  { msg "01.PacketOut" 13 packetOutFields with
    prep := packetOutPrep
    valid := packetOutValid
    after := fun vs => match packetOutPrep vs with | .ok ws => postAttrs packetOutFields ws | .error _ => vs
    unpack := packetOutUnpack }

/-! ### ErrorMsg (asynchronous/error_msg.py) -/

/-- ErrorType (lines 19-52): code class of each error type (values of its members). -/
def errorCodes : List (Nat × List Nat) :=
  [(0, List.range 2), (1, List.range 9), (2, List.range 9), (3, List.range 6), (4, List.range 2), (5, List.range 3)]

/-- Lines 186-188. -/
def errorFields : Fields := [("error_type", ubint 2 (.enum (errorCodes.map (·.1)))), ("code", ubint 2), ("data", binAttr)]

/-- ErrorMsg.pack (lines 204-229): `data` is packed first unless it is `None` or `bytes`, and restored at the end. -/
def errorPrep (classes : List (String × Attr)) : List Val → Res (List Val)
  | [t, c, .none] => .ok [t, c, .none]
  | [t, c, .bytes b] => .ok [t, c, .bytes b]
  | [t, c, d] =>
    match selfPack classes d with
    | none => .error .attribute
    | some (.error e) => .error e
    | some (.ok b) => .ok [t, c, .bytes b]
  | _ => .error .unmodelled

/-- ErrorMsg.unpack (lines 231-247): the code must be a member of the class that belongs to the error type.
`ErrorType(self.error_type)` finds the member with the same number (`UBInt16` is not hashable, so `Enum` compares with
`==`). -/
def errorUnpack (buff : Bytes) : Res (List Val) :=
  match unpackAttrs errorFields buff 0 with
  | .error e => .error e
  | .ok ([.ub 2 (.enum t), .ub 2 (.int c), d], _) =>
    match errorCodes.lookup t.toNat with
    | none => .error .value
    | some ms => if c.toNat ∈ ms then .ok [.ub 2 (.enum t), .enum c, d] else .error .value
  | .ok _ => .error .value

def errorMsg : MsgCls :=
  { msg "01.ErrorMsg" 1 errorFields with
    prep := errorPrep []
    size := sizeWithBody [] errorFields
    after := id
    unpack := errorUnpack }

/-! ### StatsRequest, StatsReply (controller2switch/stats_request.py, stats_reply.py) -/

/-- Both classes, lines 17-19 / 23-25. -/
def statsFields : Fields := [("body_type", ubint 2 (.enum statsTypes)), ("flags", ubint 2), ("body", binAttr)]

/-- StatsRequest.pack (stats_request.py:41-57): a body with a `pack` method is packed first and restored at the end. -/
def statsRequestPrep : List Val → Res (List Val)
  | [t, f, body] =>
    match selfPack statsClasses body with
    | none => .ok [t, f, body]
    | some (.error e) => .error e
    | some (.ok b) => .ok [t, f, .bytes b]
  | _ => .error .unmodelled

/-- StatsReply.pack (stats_reply.py:35-55): the same if the body is true. -/
def statsReplyPrep : List Val → Res (List Val)
  | [t, f, body] =>
    if pyTrue body then
      match selfPack statsClasses body with
      | none => .ok [t, f, body]
      | some (.error e) => .error e
      | some (.ok b) => .ok [t, f, .bin (.bytes b)]
    else .ok [t, f, body]
  | _ => .error .unmodelled

/-- StatsRequest._get_body_class (stats_request.py:69-79): the first name in `common.__all__` with `Request` and the
name of the type in it. -/
def requestClass : Nat → Option Attr
  | 1 => some flowStatsRequest
  | 2 => some aggregateStatsRequest
  | 4 => some portStatsRequest
  | 5 => some queueStatsRequest
  | 0xffff => some vendorStatsRequest
  | _ => none

/-- StatsReply._get_body_class (stats_reply.py:93-104), without `DescStats`. -/
def replyClass : Nat → Option Attr
  | 1 => some flowStats
  | 2 => some aggregateStatsReply
  | 3 => some tableStats
  | 4 => some portStats
  | 5 => some queueStats
  | 0xffff => some vendorStats
  | _ => none

/-- StatsRequest.unpack (stats_request.py:59-67).  `body_type` is replaced by the enum member; on an empty buffer it
holds `None`, which is no member.  Types without a request class give `FixedTypeList(None)`, whose `unpack` calls
`None()` unless the body is empty. -/
def statsRequestUnpack (buff : Bytes) : Res (List Val) :=
  match unpackAttrs statsFields buff 0 with
  | .error e => .error e
  | .ok ([.ub 2 (.enum t), f, body], _) =>
    match requestClass t.toNat with
    | none => if rawBody body = [] then .ok [.enum t, f, .list true []] else .error .type
    | some c =>
      match unpackItems c (rawBody body) 0 with
      | .error e => .error e
      | .ok xs => .ok [.enum t, f, .list true xs]
  | .ok _ => .error .value

/-- StatsReply.unpack (stats_reply.py:57-91). -/
def statsReplyUnpack (buff : Bytes) : Res (List Val) :=
  match unpackAttrs statsFields buff 0 with
  | .error e => .error e
  | .ok ([.ub 2 (.enum t), f, body], _) =>
    if t = 0 then
      match descStats.unpack (rawBody body) 0 with
      | .error e => .error e
      | .ok u => .ok [.enum t, f, u]
    else
      match replyClass t.toNat with
      | none => .ok [.enum t, f, .bin (.bytes (rawBody body))]
      | some c =>
        match unpackItems c (rawBody body) 0 with
        | .error e => .error e
        | .ok xs => .ok [.enum t, f, .list true xs]
  | .ok _ => .error .value

def statsRequest : MsgCls :=
  { msg "01.StatsRequest" 16 statsFields with
    prep := statsRequestPrep
    size := sizeWithBody statsClasses statsFields
    after := id
    unpack := statsRequestUnpack }
def statsReply : MsgCls :=
  { msg "01.StatsReply" 17 statsFields with
    prep := statsReplyPrep
    size := sizeWithBody statsClasses statsFields
    after := id
    unpack := statsReplyUnpack }

/-! ## MESSAGE_TYPES (common/utils.py:40-63) -/

def lib : Lib where
  ver := 1
  types := types
  classes :=
    [(0, hello), (1, errorMsg), (2, echoRequest), (3, echoReply), (4, vendorHeader), (5, featuresRequest),
     (6, featuresReply), (7, getConfigRequest), (8, getConfigReply), (9, setConfig), (10, packetIn), (11, flowRemoved),
     (12, portStatus), (13, packetOut), (14, flowMod), (15, portMod), (16, statsRequest), (17, statsReply),
     (18, barrierRequest), (19, barrierReply), (20, queueGetConfigRequest), (21, queueGetConfigReply)]

end Pyof.V01
