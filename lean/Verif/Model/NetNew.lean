import Verif.Model.Network
import Verif.Model.Ctor
/-!
# Constructors of the network packets (`pyof/foundation/network_types.py`)

The constructors of `IPv4` (lines 491-529) and `IPv6` (lines 642-670) are the default values of the Lean structures of these names.
-/
namespace Pyof.Net.New

/-- ARP, lines 79-109. -/
def arp : Ctor where
  cls := "net.ARP"
  params :=
    [⟨"htype", .int 1, .given⟩, ⟨"ptype", .enum 0x0800, .given⟩, ⟨"hlen", .int 6, .given⟩, ⟨"plen", .int 4, .given⟩,
     ⟨"oper", .int 1, .given⟩, ⟨"sha", .str "00:00:00:00:00:00".toList, .given⟩, ⟨"spa", .str "0.0.0.0".toList, .given⟩,
     ⟨"tha", .str "00:00:00:00:00:00".toList, .given⟩, ⟨"tpa", .str "0.0.0.0".toList, .given⟩]
  attrs :=
    [("htype", none), ("ptype", none), ("hlen", none), ("plen", none), ("oper", none), ("sha", none), ("spa", none), ("tha", none),
     ("tpa", none)]

/-- VLAN, lines 144-162. -/
def vlan : Ctor where
  cls := "net.VLAN"
  params := [⟨"pcp", .none, .given⟩, ⟨"cfi", .none, .given⟩, ⟨"vid", .none, .given⟩]
  attrs := [("tpid", some (.enum 0x8100)), ("_tci", some (.ub 2 .none)), ("pcp", none), ("cfi", none), ("vid", none)]

/-- Ethernet, lines 263-282. -/
def ethernet : Ctor where
  cls := "net.Ethernet"
  params :=
    [⟨"destination", .none, .given⟩, ⟨"source", .none, .given⟩, ⟨"vlans", .none, .unlessNone (.list true [])⟩,
     ⟨"ether_type", .none, .given⟩, ⟨"data", .bytes [], .given⟩]
  attrs := [("destination", none), ("source", none), ("vlans", none), ("ether_type", none), ("data", none)]

/-- GenericTLV, lines 350-360.  The attribute is `_value`, which the property `value` (lines 362-371) returns. -/
def genericTLV : Ctor where
  cls := "net.GenericTLV"
  params := [⟨"tlv_type", .int 127, .given⟩, ⟨"value", .none, .unlessNone (.bin .none)⟩]
  attrs := [("tlv_type", none), ("value", none)]

/-- TLVWithSubType, lines 723-734.  The `_value` set by `super().__init__` is never read. -/
def tlvWithSubType : Ctor where
  cls := "net.TLVWithSubType"
  params := [⟨"tlv_type", .int 1, .given⟩, ⟨"sub_type", .int 7, .given⟩, ⟨"sub_value", .none, .unlessNone (.bin .none)⟩]
  attrs := [("tlv_type", none), ("sub_type", none), ("sub_value", none)]

/-- LLDP (lines 773-792) has no constructor of its own: `GenericStruct.__init__` (base.py:500-503) copies the class attributes. -/
def lldp : Ctor where
  cls := "net.LLDP"
  params := []
  attrs := lldpFields.map fun f => (f.1, some f.2.proto)

end Pyof.Net.New

namespace Pyof.Net

/-- Ethernet.get_hash (lines 284-291), with any function for Python's `hash` on bytes. -/
def ethernetHash (hash : Bytes → Int) (vs : List Val) : Res Int :=
  match ethernetPack vs with
  | .error e => .error e
  | .ok b => .ok (hash b)

end Pyof.Net
