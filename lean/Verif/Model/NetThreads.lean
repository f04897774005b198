import Verif.Model.Network
import Verif.Model.Threads
/-!
# `pack()` of network packets step by step (`pyof/foundation/network_types.py`)

As in `Model/Threads.lean`: the attribute reads and assignments of `pack()`, one at a time.  The simplifications are those made there, and those of
`Model/Network.lean` for `IPv4` and `IPv6`: a number that is not a non-negative int, an address that is not a `str` and data that is not `bytes` give the
model's error `unmodelled`.
-/
namespace Pyof.Net
open Threads

/-- `self.x = self.x if self.x is not None else 0` (lines 181-184) for the attribute at `p`: it is read once more if it is not `None`. -/
def zeroP (p : Path) (k : Prog (Res Bytes)) : Prog (Res Bytes) :=
  .get p fun a =>
    match a with
    | .none => .set p (.int 0) k
    | _ => .get p fun b => .set p b k

/-- Lines 181-186: what `VLAN.pack` does if there is a tag. -/
def vlanRest (p : Path) : Prog (Res Bytes) :=
  zeroP (p ++ [2]) (zeroP (p ++ [3]) (zeroP (p ++ [4])
    (.get (p ++ [2]) fun a => .get (p ++ [3]) fun b => .get (p ++ [4]) fun c =>
      match tci a b c with
      | .error e => .ret (.error e)
      | .ok t => .set (p ++ [1]) (.int t) (packFields p (leaves vlanFields) 0 5))))

/-- VLAN.pack (lines 164-186).  `and` looks at the next attribute only if the one before is `None`.  `writes` is only used in proofs. -/
def vlanCls : PCls where
  name := "net.VLAN"
  pack := fun vs => vlan.pack (.obj "net.VLAN" vs)
  size := fun vs => vlan.size (.obj "net.VLAN" vs)
  packP := fun p n =>
    if n = 5 then
      .get (p ++ [2]) fun a =>
        match a with
        | .none => .get (p ++ [3]) fun b =>
          (match b with
          | .none => .get (p ++ [4]) fun c =>
            (match c with
            | .none => .ret (.ok [])
            | _ => vlanRest p)
          | _ => vlanRest p)
        | _ => vlanRest p
    else .ret (.error .unmodelled)
  sizeP := fun _ _ => .ret (.ok 4)
  writes := fun vs q x =>
    match vs with
    | [_, _, a, b, c] => ¬ (a = .none ∧ b = .none ∧ c = .none) ∧
      ((q = [2] ∧ x = orZero a) ∨ (q = [3] ∧ x = orZero b) ∨ (q = [4] ∧ x = orZero c) ∨
        (q = [1] ∧ ∃ t, tci (orZero a) (orZero b) (orZero c) = .ok t ∧ x = .int t))
    | _ => False

def vlansP : PAttr := listP isVlan (oneOf vlan [vlanCls])

def ethernetFieldsP : PFields := leavesBut [("vlans", vlansP)] ethernetFields

/-- Ethernet (lines 240-334) overrides neither `pack` nor `get_size`. -/
def ethernetCls : PCls := plainCls "net.Ethernet" ethernetFieldsP

/-- LLDP (lines 773-792) overrides neither.  Packing a TLV assigns nothing. -/
def lldpCls : PCls := plainCls "net.LLDP" (leaves lldpFields)

/-- ARP: `is_valid` (lines 111-113), then the attributes (base.py:699-715). -/
def arpSteps : Prog (Res Bytes) :=
  .get [0] fun h =>
    match pyEq h (.int 1) with
    | .error e => .ret (.error e)
    | .ok false => .ret (.error .validation)
    | .ok true => .get [1] fun p =>
      match pyEq p (.enum 0x0800) with
      | .error e => .ret (.error e)
      | .ok false => .ret (.error .validation)
      | .ok true => packFields [] (leaves arpFields) 0 9

/-- A TLV (lines 398-415): nothing is assigned, so it is read in one step. -/
def tlvSteps : Prog (Res Bytes) := .get [] fun v => .ret (tlvPack v)

def nat? : Val → Option Nat
  | .int (.ofNat n) => some n
  | _ => none

def str? : Val → Option Str
  | .str s => some s
  | _ => none

def bytes? : Val → Option Bytes
  | .bytes b => some b
  | _ => none

/-- A number is read. -/
def natAt (i : Nat) (k : Nat → Prog (Res Bytes)) : Prog (Res Bytes) :=
  .get [i] fun v => match nat? v with | some n => k n | none => .ret (.error .unmodelled)

def strAt (i : Nat) (k : Str → Prog (Res Bytes)) : Prog (Res Bytes) :=
  .get [i] fun v => match str? v with | some s => k s | none => .ret (.error .unmodelled)

def bytesAt (i : Nat) (k : Bytes → Prog (Res Bytes)) : Prog (Res Bytes) :=
  .get [i] fun v => match bytes? v with | some b => k b | none => .ret (.error .unmodelled)

/-- The attributes of an `IPv4`: the class attributes in their order, then `version`, `ihl`, `dscp`, `ecn`, `flags` and `offset`.  What is stored in
`_version_ihl`, `_dscp_ecn`, `length`, `_flags_offset` and `checksum` is left out, since `pack()` stores it anew. -/
def ipv4Of : List Val → Option IPv4
  | [_, _, _, ident, _, ttl, proto, _, src, dst, opts, data, version, ihl, dscp, ecn, flags, offset] => do
    let ident ← nat? ident
    let ttl ← nat? ttl
    let proto ← nat? proto
    let src ← str? src
    let dst ← str? dst
    let opts ← bytes? opts
    let data ← bytes? data
    let version ← nat? version
    let ihl ← nat? ihl
    let dscp ← nat? dscp
    let ecn ← nat? ecn
    let flags ← nat? flags
    let offset ← nat? offset
    pure { version := version, ihl := ihl, dscp := dscp, ecn := ecn, identification := ident, flags := flags, offset := offset, ttl := ttl,
           protocol := proto, source := src, destination := dst, options := opts, data := data }
  | _ => none

/-- IPv4._update_checksum (lines 531-550): the two addresses, then the words of the header; the sum does not depend on what else is read. -/
def checksumP (k : Prog (Res Bytes)) : Prog (Res Bytes) :=
  strAt 8 fun src => strAt 9 fun dst =>
    match halves src, halves dst with
    | .error e, _ => .ret (.error e)
    | .ok _, .error e => .ret (.error e)
    | .ok _, .ok _ =>
      natAt 0 fun vihl => natAt 1 fun de => natAt 2 fun len => natAt 3 fun ident => natAt 4 fun fo => natAt 5 fun ttl => natAt 6 fun proto =>
        match ipv4Checksum vihl de len ident fo ttl proto src dst with
        | .error e => .ret (.error e)
        | .ok c => .set [7] (.int c) k

/-- IPv4.pack (lines 552-575) from line 566 on. -/
def ipv4Rest : Prog (Res Bytes) :=
  natAt 13 fun ihl => bytesAt 11 fun data => .set [2] (.int (ihl * 4 + data.length : Nat)) (
    natAt 12 fun version => natAt 13 fun ihl => .set [0] (.int (version <<< 4 ||| ihl : Nat)) (
      natAt 14 fun dscp => natAt 15 fun ecn => .set [1] (.int (dscp <<< 2 ||| ecn : Nat)) (
        natAt 16 fun flags => natAt 17 fun offset => .set [4] (.int (flags <<< 13 ||| offset : Nat)) (
          checksumP (packFields [] (leaves ipv4Fields) 0 18)))))

/-- IPv4.pack (lines 552-575): `options` is read, and read again to count them (lines 562-563). -/
def ipv4Steps : Prog (Res Bytes) :=
  bytesAt 10 fun o =>
    match o with
    | [] => ipv4Rest
    | _ => natAt 13 fun ihl => bytesAt 10 fun o => .set [13] (.int (ihl + o.length / 4 : Nat)) ipv4Rest

/-- The attributes of an `IPv6`: the class attributes in their order, then `version`, `tclass` and `flabel`.  What is stored in
`_version_tclass_flabel` and `length` is left out. -/
def ipv6Of : List Val → Option IPv6
  | [_, _, nh, hl, src, dst, data, version, tclass, flabel] => do
    let nh ← nat? nh
    let hl ← nat? hl
    let data ← bytes? data
    let version ← nat? version
    let tclass ← nat? tclass
    let flabel ← nat? flabel
    pure { version := version, tclass := tclass, flabel := flabel, nextHeader := nh, hopLimit := hl, source := src, destination := dst, data := data }
  | _ => none

/-- IPv6.pack (lines 672-687). -/
def ipv6Steps : Prog (Res Bytes) :=
  bytesAt 6 fun data => .set [1] (.int data.length) (
    natAt 7 fun version => natAt 8 fun tclass => natAt 9 fun flabel => .set [0] (.int (ipv6Word version tclass flabel)) (
      packFields [] (leaves ipv6Fields) 0 10))

/-- A class of network packets: its name, the number of its attributes, the steps of `pack()`, and what the sequential model of `pack()` gives. -/
structure NetCls where
  name : String
  arity : Nat
  steps : Prog (Res Bytes)
  pack : List Val → Res Bytes

def nets : List NetCls :=
  [⟨"net.ARP", 9, arpSteps, arpPack⟩,
   ⟨"net.VLAN", 5, vlanCls.packP [] 5, fun vs => vlan.pack (.obj "net.VLAN" vs)⟩,
   ⟨"net.Ethernet", 5, ethernetCls.packP [] 5, ethernetPack⟩,
   ⟨"net.GenericTLV", 2, tlvSteps, fun vs => tlvPack (.obj "net.GenericTLV" vs)⟩,
   ⟨"net.TLVWithSubType", 3, tlvSteps, fun vs => tlvPack (.obj "net.TLVWithSubType" vs)⟩,
   ⟨"net.LLDP", 4, lldpCls.packP [] 4, packAttrs lldpFields⟩,
   ⟨"net.IPv4", 18, ipv4Steps, fun vs => match ipv4Of vs with | some p => p.pack.map (·.1) | none => .error .unmodelled⟩,
   ⟨"net.IPv6", 10, ipv6Steps, fun vs => match ipv6Of vs with | some p => p.pack.map (·.1) | none => .error .unmodelled⟩]

/-- `pack()` of a packet on its own, by the sequential models. -/
def packNet : Val → Res Bytes
  | .obj c vs => match nets.find? (fun k => k.name == c) with | some k => if vs.length = k.arity then k.pack vs else .error .unmodelled | none => .error .unmodelled
  | _ => .error .unmodelled

end Pyof.Net
