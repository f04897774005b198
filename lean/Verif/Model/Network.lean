import Verif.Model.Compare
import Verif.Model.Struct
/-!
# Network packets (`pyof/foundation/network_types.py`)

`ARP`, `VLAN`, `Ethernet` and the TLV classes are values of `Val`, as in the OpenFlow modules.  `IPv4` and `IPv6`, which have more
instance attributes than class attributes, are Lean structures.
-/
namespace Pyof.Net

/-! ## ARP (lines 60-132) -/

def arpFields : Fields :=
  [("htype", ubint 2), ("ptype", ubint 2), ("hlen", ubint 1), ("plen", ubint 1), ("oper", ubint 2), ("sha", hwAttr), ("spa", ipAttr),
   ("tha", hwAttr), ("tpa", ipAttr)]

/-- is_valid (lines 111-113): `self.htype == 1 and self.ptype == EtherType.IPV4`. -/
def arpIsValid (vs : List Val) : Res Bool :=
  match vs with
  | h :: p :: _ =>
    match pyEq h (.int 1) with
    | .error e => .error e
    | .ok false => .ok false
    | .ok true => pyEq p (.enum 0x0800)
  | _ => .error .unmodelled

/-- GenericStruct.pack (base.py:699-715), which validates first, on the attributes of an ARP. -/
def arpPack (vs : List Val) : Res Bytes :=
  match arpIsValid vs with
  | .error e => .error e
  | .ok false => .error .validation
  | .ok true => packAttrs arpFields vs

/-- get_size, inherited (base.py:660-683). -/
def arpSize (vs : List Val) : Res Nat := sizeAttrs arpFields vs

/-- ARP.unpack (lines 115-132): the attributes afterwards. -/
def arpUnpack (buff : Bytes) (offset : Nat) : Res (List Val) :=
  match unpackAttrs arpFields buff offset with
  | .error e => .error e
  | .ok (vs, _) =>
    match arpIsValid vs with
    | .error e => .error e
    | .ok false => .error .unpack
    | .ok true => .ok vs

/-! ## VLAN (lines 135-221)

The instance attributes are `tpid`, `_tci`, `pcp`, `cfi`, `vid`. -/

def vlanFields : Fields := [("tpid", ubint 2 .none (.enum 0x8100)), ("_tci", ubint 2)]

/-- `x if x is not None else 0` -/
def orZero : Val → Val
  | .none => .int 0
  | v => v

/-- `pcp << 13 | cfi << 12 | vid` (line 185) -/
def tci (pcp cfi vid : Val) : Res Int :=
  match pyShift true pcp (.int 13) with
  | .error e => .error e
  | .ok a =>
    match pyShift true cfi (.int 12) with
    | .error e => .error e
    | .ok b =>
      match pyArith .or (.int a) (.int b) with
      | .error e => .error e
      | .ok ab => pyArith .or (.int ab) vid

/-- VLAN.pack (lines 164-186). -/
def vlanPack (tpid pcp cfi vid : Val) : Res Bytes :=
  match pcp, cfi, vid with
  | .none, .none, .none => .ok []
  | pcp, cfi, vid =>
    match tci (orZero pcp) (orZero cfi) (orZero vid) with
    | .error e => .error e
    | .ok t => packAttrs vlanFields [tpid, .int t]

/-- VLAN.unpack (lines 193-221), with `_validate` (lines 188-191).  On an empty buffer `_tci` keeps the value `None`, whose shift is a
`TypeError`. -/
def vlanUnpack (buff : Bytes) (offset : Nat) : Res Val :=
  match unpackAttrs vlanFields buff offset with
  | .error e => .error e
  | .ok ([tpid, tci], _) =>
    match gval tpid with
    | .int t =>
      if t = 0 then .ok (.obj "net.VLAN" [.enum 0x8100, tci, .none, .none, .none])
      else if t = 0x8100 ∨ t = 0x88a8 then
        match gval tci with
        | .int c => .ok (.obj "net.VLAN" [.int t, tci, .int (c / 2 ^ 13), .int (c / 2 ^ 12 % 2), .int (c % 4096)])
        | _ => .error .type
      else .error .unpack
    | _ => .error .unmodelled
  | .ok _ => .error .unmodelled

/-- `VLAN` as the item class of a list.  `get_size` is inherited and counts the two class attributes, whatever `pack` does. -/
def vlan : Attr where
  proto := .obj "net.VLAN" [.enum 0x8100, .ub 2 .none, .none, .none, .none]
  pack := fun v =>
    match v with
    | .obj "net.VLAN" [tpid, _, pcp, cfi, vid] => vlanPack tpid pcp cfi vid
    | _ => .error .unmodelled
  size := fun _ => .ok 4
  unpack := vlanUnpack
  usize := fun _ => .ok 4
  post := fun v =>
    match v with
    | .obj "net.VLAN" [tpid, t, pcp, cfi, vid] =>
      (match pcp, cfi, vid with
      | .none, .none, .none => .obj "net.VLAN" [tpid, t, .none, .none, .none]
      | pcp, cfi, vid =>
        match tci (orZero pcp) (orZero cfi) (orZero vid) with
        | .error _ => .obj "net.VLAN" [tpid, t, orZero pcp, orZero cfi, orZero vid]
        | .ok c => .obj "net.VLAN" [tpid, .int c, orZero pcp, orZero cfi, orZero vid])
    | v => v

def isVlan : Val → Bool
  | .obj "net.VLAN" _ => true
  | _ => false

/-- ListOfVLAN (lines 224-237). -/
def vlans : Attr := listAttr isVlan vlan

/-! ## Ethernet (lines 240-334) -/

def ethernetFields : Fields :=
  [("destination", hwAttr), ("source", hwAttr), ("vlans", vlans), ("ether_type", ubint 2), ("data", binAttr)]

/-- `pack` and `get_size`, inherited from `GenericStruct`, on the attributes. -/
def ethernetPack (vs : List Val) : Res Bytes := packAttrs ethernetFields vs
def ethernetSize (vs : List Val) : Res Nat := sizeAttrs ethernetFields vs

/-- The loop of `_get_vlan_length` (lines 294-304); `b` starts at byte `begin` of the buffer. -/
def vlanLength (b : Bytes) : Nat :=
  match b with
  | x :: y :: r => if [x, y] = [0x81, 0x00] ∨ [x, y] = [0x88, 0xa8] then 4 + vlanLength (r.drop 2) else 0
  | _ => 0
termination_by b.length
decreasing_by simp only [List.length_drop, List.length_cons]; omega

/-- `attribute.unpack(...)` and `attribute.get_size()` in the loop of lines 326-334 (no test for an empty buffer here). -/
def readAttr (c : Attr) (buff : Bytes) (begin : Nat) : Res (Val × Nat) :=
  match c.unpack buff begin with
  | .error e => .error e
  | .ok v =>
    match c.usize v with
    | .error e => .error e
    | .ok n => .ok (v, n)

/-- The loop of lines 326-334. `len` is the length of the VLAN tags; the tags are decoded from a slice. -/
def ethernetLoop (len : Nat) : Fields → Bytes → Nat → Res (List Val)
  | [], _, _ => .ok []
  | (name, c) :: fs, buff, begin =>
    match (if name = "vlans" then readAttr c (slice buff begin (begin + len)) 0 else readAttr c buff begin) with
    | .error e => .error e
    | .ok (v, n) =>
      match ethernetLoop len fs buff (begin + n) with
      | .error e => .error e
      | .ok vs => .ok (v :: vs)

/-- Ethernet.unpack (lines 306-334): the attributes. -/
def ethernetUnpack (buff : Bytes) (offset : Nat) : Res (List Val) :=
  ethernetLoop (vlanLength (buff.drop 12)) ethernetFields buff offset

/-! ## TLVs (lines 337-448, 715-770) and LLDP (lines 773-792)

A `GenericTLV` is `obj "net.GenericTLV" [tlv_type, _value]`, a `TLVWithSubType` is `obj "net.TLVWithSubType" [tlv_type, sub_type,
sub_value]`.  `tlv_type` is a non-negative int; `value` and `sub_value` are instances of the basic types. -/

/-- `header` (lines 383-396): `((self.tlv_type & 127) << 9) | (self.length & 511)`. -/
def tlvHeader (t length : Nat) : Nat := ((t &&& 127) <<< 9) ||| (length &&& 511)

/-- The packed header followed by the value (lines 408-411). -/
def tlvBytes (t : Nat) (value : Bytes) : Res Bytes :=
  (ubPack 2 .none (.ub 2 (.int (tlvHeader t value.length)))).map (· ++ value)

/-- `tlv.value.pack()` (lines 362-371, 736-746). -/
def tlvValue : Val → Res Bytes
  | .obj "net.GenericTLV" [_, value] => gpack value
  | .obj "net.TLVWithSubType" [_, sub, value] =>
    match ubPack 1 .none (.ub 1 sub) with
    | .error e => .error e
    | .ok s =>
      match gpack value with
      | .error e => .error e
      | .ok b => .ok (s ++ b)
  | _ => .error .unmodelled

def tlvType : Val → Res Nat
  | .obj _ (.int (.ofNat t) :: _) => .ok t
  | .obj _ (.enum (.ofNat t) :: _) => .ok t
  | _ => .error .unmodelled

/-- `tlv.pack()` (lines 398-415) and `tlv.get_size()` (lines 438-448). -/
def tlvPack (v : Val) : Res Bytes :=
  match tlvType v with
  | .error e => .error e
  | .ok t =>
    match tlvValue v with
    | .error e => .error e
    | .ok b => tlvBytes t b

def tlvSize (v : Val) : Res Nat :=
  match tlvValue v with
  | .error e => .error e
  | .ok b => .ok (2 + b.length)

/-- GenericTLV.unpack (lines 417-436). -/
def tlvUnpack (buff : Bytes) (offset : Nat) : Res Val :=
  match unpackFrom 2 (slice buff offset (offset + 2)) 0 with
  | none => .error .unpack
  | some h => .ok (.obj "net.GenericTLV" [.int (h >>> 9 : Nat), .bin (.bytes (slice buff (offset + 2) (offset + 2 + (h &&& 511))))])

/-- TLVWithSubType.unpack (lines 748-770). -/
def subTlvUnpack (buff : Bytes) (offset : Nat) : Res Val :=
  match unpackFrom 2 (slice buff offset (offset + 2)) 0 with
  | none => .error .unpack
  | some h =>
    match unpackFrom 1 (slice buff (offset + 2) (offset + 3)) 0 with
    | none => .error .unpack
    | some s => .ok (.obj "net.TLVWithSubType" [.int (h >>> 9 : Nat), .int s, .bin (.bytes (slice buff (offset + 3) (offset + 2 + (h &&& 511))))])

/-- `isinstance(value, type(self))` -/
def isSubTlv : Val → Bool
  | .obj "net.TLVWithSubType" _ => true
  | _ => false

def isTlv : Val → Bool
  | .obj "net.GenericTLV" _ => true
  | v => isSubTlv v

/-- A class attribute holding the `GenericTLV` object `dflt` (a `TLVWithSubType` is one as well). -/
def tlvAttr (dflt : Val) : Attr where
  proto := dflt
  pack := fun v => match v with | .none => tlvPack dflt | v => if isTlv v then tlvPack v else .error .pack
  size := fun v => if isTlv v then tlvSize v else tlvSize dflt
  unpack := tlvUnpack
  usize := tlvSize
  post := id

/-- A class attribute holding the `TLVWithSubType` object `dflt`. -/
def subTlvAttr (dflt : Val) : Attr where
  proto := dflt
  pack := fun v => match v with | .none => tlvPack dflt | v => if isSubTlv v then tlvPack v else .error .pack
  size := fun v => if isSubTlv v then tlvSize v else tlvSize dflt
  unpack := subTlvUnpack
  usize := tlvSize
  post := id

/-- LLDP (lines 782-792).  It overrides nothing. -/
def lldpFields : Fields :=
  [("chassis_id", subTlvAttr (.obj "net.TLVWithSubType" [.int 1, .int 7, .bin .none])),
   ("port_id", subTlvAttr (.obj "net.TLVWithSubType" [.int 2, .int 7, .bin .none])),
   ("ttl", tlvAttr (.obj "net.GenericTLV" [.int 3, .ub 2 (.int 120)])),
   ("end", tlvAttr (.obj "net.GenericTLV" [.int 0, .bin .none]))]

/-! ## IPv4 (lines 451-612)

Simplifications: the numeric attributes are non-negative ints, the addresses `str`, options and data `bytes` (what the constructor
documents and `unpack` produces). -/

structure IPv4 where
  version : Nat := 4
  ihl : Nat := 5
  dscp : Nat := 0
  ecn : Nat := 0
  length : Nat := 0
  identification : Nat := 0
  flags : Nat := 0
  offset : Nat := 0
  ttl : Nat := 255
  protocol : Nat := 0
  checksum : Nat := 0
  source : Str := "0.0.0.0".toList
  destination : Str := "0.0.0.0".toList
  options : Bytes := []
  data : Bytes := []
deriving DecidableEq, Repr

def ipv4Fields : Fields :=
  [("_version_ihl", ubint 1), ("_dscp_ecn", ubint 1), ("length", ubint 2), ("identification", ubint 2), ("_flags_offset", ubint 2),
   ("ttl", ubint 1), ("protocol", ubint 1), ("checksum", ubint 2), ("source", ipAttr), ("destination", ipAttr), ("options", binAttr),
   ("data", binAttr)]

/-- `while block_sum > 65535: block_sum = (block_sum & 65535) + (block_sum >> 16)` (lines 546-548). -/
def foldSum (s : Int) : Int :=
  if h : s > 65535 then foldSum (s % 65536 + s / 65536) else s
termination_by s.toNat
decreasing_by omega

/-- `[int(octet) for octet in address.split(".")]` and the two halves (lines 533-540): `ValueError` if an octet is not a number,
`IndexError` if there are fewer than four. -/
def halves (address : Str) : Res (Int × Int) :=
  match splitInts '.' 10 address with
  | none => .error .value
  | some (a :: b :: c :: d :: _) => .ok (a * 2 ^ 8 + b, c * 2 ^ 8 + d)
  | some _ => .error .index

/-- _update_checksum (lines 531-550): the checksum. -/
def ipv4Checksum (vihl dscpEcn length identification flagsOffset ttl protocol : Nat) (source destination : Str) : Res Int :=
  match halves source with
  | .error e => .error e
  | .ok (su, sl) =>
    match halves destination with
    | .error e => .error e
    | .ok (du, dl) =>
      let blockSum : Int := ((vihl <<< 8 ||| dscpEcn) + length + identification + flagsOffset + (ttl <<< 8 ||| protocol) : Nat) + su + sl + du + dl
      .ok ((-(foldSum blockSum) - 1) % 65536)

/-- IPv4.pack (lines 552-575): the bytes, and the object afterwards. -/
def IPv4.pack (p : IPv4) : Res (Bytes × IPv4) :=
  let ihl := if p.options = [] then p.ihl else p.ihl + p.options.length / 4
  let length := ihl * 4 + p.data.length
  let vihl := p.version <<< 4 ||| ihl
  let dscpEcn := p.dscp <<< 2 ||| p.ecn
  let flagsOffset := p.flags <<< 13 ||| p.offset
  match ipv4Checksum vihl dscpEcn length p.identification flagsOffset p.ttl p.protocol p.source p.destination with
  | .error e => .error e
  | .ok checksum =>
    (packAttrs ipv4Fields [.int vihl, .int dscpEcn, .int length, .int p.identification, .int flagsOffset, .int p.ttl, .int p.protocol,
        .int checksum, .str p.source, .str p.destination, .bytes p.options, .bytes p.data]).map fun b =>
      (b, { p with ihl := ihl, length := length, checksum := checksum.toNat })

/-- get_size, inherited (base.py:660-683).  The sizes of `_version_ihl`, `_dscp_ecn` and `_flags_offset` do not depend on what they
hold. -/
def IPv4.size (p : IPv4) : Res Nat :=
  sizeAttrs ipv4Fields [.none, .none, .int p.length, .int p.identification, .none, .int p.ttl, .int p.protocol,
    .int p.checksum, .str p.source, .str p.destination, .bytes p.options, .bytes p.data]

/-- The number in a decoded `UBInt`; `None` (after an empty buffer) has no `>>`. -/
def decNum : Val → Res Nat
  | .ub _ (.int (.ofNat n)) => .ok n
  | .ub _ .none => .error .type
  | _ => .error .unmodelled

def decText : Val → Res Str
  | .ip (.str s) _ => .ok s
  | .ip6 (.str s) _ => .ok s
  | _ => .error .unmodelled

def decBytes : Val → Res Bytes
  | .bin (.bytes b) => .ok b
  | _ => .error .unmodelled

/-- IPv4.unpack (lines 577-612). -/
def IPv4.unpack (buff : Bytes) (offset : Nat) : Res IPv4 :=
  match unpackAttrs ipv4Fields buff offset with
  | .error e => .error e
  | .ok ([vihl, de, len, ident, fo, ttl, proto, chk, src, dst, opts, _], _) => do
    let vihl ← decNum vihl
    let de ← decNum de
    let len ← decNum len
    let ident ← decNum ident
    let fo ← decNum fo
    let ttl ← decNum ttl
    let proto ← decNum proto
    let chk ← decNum chk
    let src ← decText src
    let dst ← decText dst
    let rest ← decBytes opts
    let ihl := vihl &&& 15
    let n := if ihl > 5 then (ihl - 5) * 4 else 0
    pure { version := vihl >>> 4, ihl := ihl, dscp := de >>> 2, ecn := de &&& 3, length := len, identification := ident, flags := fo >>> 13,
           offset := fo &&& 8191, ttl := ttl, protocol := proto, checksum := chk, source := src, destination := dst,
           options := rest.take n, data := rest.drop n }
  | .ok _ => .error .unmodelled

/-! ## IPv6 (lines 615-712)

The same simplifications; the addresses are `IPv6Address` objects after the constructor and `str` after `unpack`, which pack alike. -/

structure IPv6 where
  version : Nat := 6
  tclass : Nat := 0
  flabel : Nat := 0
  length : Nat := 0
  nextHeader : Nat := 0
  hopLimit : Nat := 255
  source : Val := .ip6 (.str "0:0:0:0:0:0:0:0".toList) 128
  destination : Val := .ip6 (.str "0:0:0:0:0:0:0:0".toList) 128
  data : Bytes := []
deriving Repr

def ipv6Fields : Fields :=
  [("_version_tclass_flabel", ubint 4), ("length", ubint 2), ("next_header", ubint 1), ("hop_limit", ubint 1), ("source", ip6Attr),
   ("destination", ip6Attr), ("data", binAttr)]

/-- `self.version << 28 | self.tclass << 20 | self.flabel` (lines 684-685). -/
def ipv6Word (version tclass flabel : Nat) : Nat := version <<< 28 ||| tclass <<< 20 ||| flabel

/-- IPv6.pack (lines 672-687). -/
def IPv6.pack (p : IPv6) : Res (Bytes × IPv6) :=
  let length := p.data.length
  (packAttrs ipv6Fields [.int (ipv6Word p.version p.tclass p.flabel), .int length, .int p.nextHeader, .int p.hopLimit, p.source, p.destination, .bytes p.data]).map fun b =>
    (b, { p with length := length })

/-- get_size, inherited (base.py:660-683).  The size of `_version_tclass_flabel` does not depend on what it holds. -/
def IPv6.size (p : IPv6) : Res Nat :=
  sizeAttrs ipv6Fields [.none, .int p.length, .int p.nextHeader, .int p.hopLimit, p.source, p.destination, .bytes p.data]

/-- IPv6.unpack (lines 689-712). -/
def IPv6.unpack (buff : Bytes) (offset : Nat) : Res IPv6 :=
  match unpackAttrs ipv6Fields buff offset with
  | .error e => .error e
  | .ok ([word, len, nh, hl, src, dst, data], _) => do
    let word ← decNum word
    let len ← decNum len
    let nh ← decNum nh
    let hl ← decNum hl
    let src ← decText src
    let dst ← decText dst
    let data ← decBytes data
    pure { version := word >>> 28, tclass := word >>> 20 &&& 255, flabel := word &&& 1048575, length := len, nextHeader := nh, hopLimit := hl,
           source := .str src, destination := .str dst, data := data }
  | .ok _ => .error .unmodelled

end Pyof.Net
