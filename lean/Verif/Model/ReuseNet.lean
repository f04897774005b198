import Verif.Model.Reuse
import Verif.Model.Network
/-!
# `unpack` of further classes as a method of an object that exists already

As in `Model/Reuse.lean`: programs on the dictionary of the object.
-/
namespace Pyof
open Meth

/-- OxmTLV.unpack with `_unpack_oxm_field` (v0x04 common/flow_match.py:214-252).  `None >> 1` is a `TypeError`. -/
def oxmInto (junk : Val) (buff : Bytes) (offset : Nat) : Meth Unit := do
  let _ ← unpackLoop junk V04.oxmFields buff offset
  match ← getattr "oxm_field_and_mask" with
  | .ub 1 (.int fam) =>
    let c ← getattr "oxm_class"
    let field ← (if cmpNum c = some 0x8000 then
        if fam.toNat / 2 ∈ V04.ofbFields then pure (.enum (fam.toNat / 2 : Nat)) else raise .unpack
      else pure (.int (fam.toNat / 2 : Nat)))
    setattr "oxm_field" field
    setattr "oxm_hasmask" (.int (fam % 2))
    match ← getattr "oxm_length" with
    | .ub 1 (.int len) => setattr "oxm_value" (.bytes (slice buff (offset + 4) (offset + 4 + len.toNat)))
    | _ => raise .type
  | _ => raise .type

/-- Match.unpack (v0x04 common/flow_match.py:386-394).  `offset + self.length` with `None` is a `TypeError`. -/
def matchInto (junk : Val) (buff : Bytes) (offset : Nat) : Meth Unit := do
  let begin ← unpackLoop junk [("match_type", ubint 2 (.enum [0, 1])), ("length", ubint 2)] buff offset
  match ← getattr "length" with
  | .ub 2 (.int n) =>
    let _ ← unpackAttribute junk "oxm_match_fields" V04.oxms (buff.take (offset + n.toNat)) begin
    pure ()
  | _ => raise .type

namespace Net

/-- ARP.unpack (network_types.py:115-132); `is_valid` (lines 111-113) looks at `self.htype` and `self.ptype`. -/
def arpInto (junk : Val) (buff : Bytes) (offset : Nat) : Meth Unit := do
  let _ ← unpackLoop junk arpFields buff offset
  let h ← getattr "htype"
  let p ← getattr "ptype"
  if ← call (arpIsValid [h, p]) then pure () else raise .unpack

/-- VLAN.unpack (lines 193-221). -/
def vlanInto (junk : Val) (buff : Bytes) (offset : Nat) : Meth Unit := do
  let _ ← unpackLoop junk vlanFields buff offset
  match gval (← getattr "tpid") with
  | .int t =>
    if t = 0 then
      setattr "tpid" (.enum 0x8100)
      setattr "pcp" .none
      setattr "cfi" .none
      setattr "vid" .none
    else if t = 0x8100 ∨ t = 0x88a8 then
      setattr "tpid" (.int t)
      match gval (← getattr "_tci") with
      | .int c =>
        setattr "pcp" (.int (c / 2 ^ 13))
        setattr "cfi" (.int (c / 2 ^ 12 % 2))
        setattr "vid" (.int (c % 4096))
      | _ => raise .type
    else raise .unpack
  | _ => raise .unmodelled

/-- The loop of Ethernet.unpack (lines 326-334): an attribute is stored when it has been decoded. -/
def ethernetLoopInto (len : Nat) : Fields → Bytes → Nat → Meth Unit
  | [], _, _ => pure ()
  | (name, c) :: fs, buff, begin => do
    let v ← (if name = "vlans" then call (c.unpack (slice buff begin (begin + len)) 0) else call (c.unpack buff begin))
    setattr name v
    let size ← call (c.usize v)
    ethernetLoopInto len fs buff (begin + size)

/-- Ethernet.unpack (lines 306-334). -/
def ethernetInto (buff : Bytes) (offset : Nat) : Meth Unit :=
  ethernetLoopInto (vlanLength (buff.drop 12)) ethernetFields buff offset

/-- GenericTLV.unpack (lines 417-436). -/
def tlvInto (buff : Bytes) (offset : Nat) : Meth Unit :=
  match unpackFrom 2 (slice buff offset (offset + 2)) 0 with
  | none => raise .unpack
  | some h => do
    setattr "tlv_type" (.int (h >>> 9 : Nat))
    setattr "_value" (.bin (.bytes (slice buff (offset + 2) (offset + 2 + (h &&& 511)))))

/-- TLVWithSubType.unpack (lines 748-770). -/
def subTlvInto (buff : Bytes) (offset : Nat) : Meth Unit :=
  match unpackFrom 2 (slice buff offset (offset + 2)) 0 with
  | none => raise .unpack
  | some h => do
    setattr "tlv_type" (.int (h >>> 9 : Nat))
    match unpackFrom 1 (slice buff (offset + 2) (offset + 3)) 0 with
    | none => raise .unpack
    | some s =>
      setattr "sub_type" (.int s)
      setattr "sub_value" (.bin (.bytes (slice buff (offset + 3) (offset + 2 + (h &&& 511)))))

/-- `self.name.value`, a number. -/
def num (name : String) : Meth Nat := do
  let v ← getattr name
  call (decNum v)

/-- `self.name.value`, an address. -/
def text (name : String) : Meth Str := do
  let v ← getattr name
  call (decText v)

/-- `self.name.value`, bytes. -/
def raw (name : String) : Meth Bytes := do
  let v ← getattr name
  call (decBytes v)

/-- IPv4.unpack (lines 577-612), assignment by assignment. -/
def ipv4Into (junk : Val) (buff : Bytes) (offset : Nat) : Meth Unit := do
  let _ ← unpackLoop junk ipv4Fields buff offset
  setattr "version" (.int ((← num "_version_ihl") >>> 4 : Nat))
  setattr "ihl" (.int ((← num "_version_ihl") &&& 15 : Nat))
  setattr "dscp" (.int ((← num "_dscp_ecn") >>> 2 : Nat))
  setattr "ecn" (.int ((← num "_dscp_ecn") &&& 3 : Nat))
  setattr "length" (.int (← num "length"))
  setattr "identification" (.int (← num "identification"))
  setattr "flags" (.int ((← num "_flags_offset") >>> 13 : Nat))
  setattr "offset" (.int ((← num "_flags_offset") &&& 8191 : Nat))
  setattr "ttl" (.int (← num "ttl"))
  setattr "protocol" (.int (← num "protocol"))
  setattr "checksum" (.int (← num "checksum"))
  setattr "source" (.str (← text "source"))
  setattr "destination" (.str (← text "destination"))
  match ← getattr "ihl" with
  | .int ihl =>
    if ihl > 5 then
      let n := ((ihl - 5) * 4).toNat
      setattr "data" (.bytes ((← raw "options").drop n))
      setattr "options" (.bytes ((← raw "options").take n))
    else
      setattr "data" (.bytes (← raw "options"))
      setattr "options" (.bytes [])
  | _ => raise .unmodelled

/-- IPv6.unpack (lines 689-712). -/
def ipv6Into (junk : Val) (buff : Bytes) (offset : Nat) : Meth Unit := do
  let _ ← unpackLoop junk ipv6Fields buff offset
  setattr "version" (.int ((← num "_version_tclass_flabel") >>> 28 : Nat))
  setattr "tclass" (.int ((← num "_version_tclass_flabel") >>> 20 &&& 255 : Nat))
  setattr "flabel" (.int ((← num "_version_tclass_flabel") &&& 1048575 : Nat))
  setattr "length" (.int (← num "length"))
  setattr "next_header" (.int (← num "next_header"))
  setattr "hop_limit" (.int (← num "hop_limit"))
  setattr "source" (.str (← text "source"))
  setattr "destination" (.str (← text "destination"))
  setattr "data" (.bytes (← raw "data"))

end Net
end Pyof
