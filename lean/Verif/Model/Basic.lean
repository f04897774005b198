import Verif.Model.Py
/-!
# Class attributes and the basic types (`pyof/foundation/basic_types.py`, `GenericType` of `base.py`)

A class attribute of a struct is a prototype object on which the struct calls
`pack(instance_value)`, `get_size(instance_value)` and, after `deepcopy`, `unpack(buff, begin)` and
`get_size()`.  `Attr` records exactly those methods.
-/
namespace Pyof

structure Attr where
  /-- `deepcopy(attribute)`: what an instance holds before anything is unpacked into it. -/
  proto : Val
  /-- `attribute.pack(value)` -/
  pack : Val → Res Bytes
  /-- `attribute.get_size(value)` -/
  size : Val → Res Nat
  /-- `a = deepcopy(attribute); a.unpack(buff, offset)`: the object `a` afterwards. -/
  unpack : Bytes → Nat → Res Val
  /-- `a.get_size()` on the object left by `unpack`. -/
  usize : Val → Res Nat
  /-- The instance value after a successful `pack` (in-place updates of length fields). -/
  post : Val → Val

/-! ## `UBInt8/16/32/64` -/

/-- `enum_ref` of a `GenericType` (base.py:50-59): none, an `Enum` class given by its member values, or a
`GenericBitMask` subclass. -/
inductive Ref
  | none
  | enum (members : List Nat)
  | mask
deriving Repr, DecidableEq

/-- `GenericType.value` (base.py:132-146) of an instance whose `_value` is `x`: enum members and
bitmasks give their number.  Simplification: an enum member of a class other than `enum_ref` is also
replaced by its number (`struct.pack` accepts `IntEnum` members as ints, so `pack` agrees). -/
def unwrap : Val → Val
  | .enum i => .int i
  | .mask i => .int i
  | x => x

/-- `value.value` when `'value' in dir(value)` (base.py:182-184), else `value` itself. -/
def dotValue : Val → Val
  | .enum i => .int i
  | .ub _ x => unwrap x
  | .hw x => x
  | .ip x _ => x
  | .ip6 x _ => x
  | .dpid x => x
  | .chr x _ => x
  | .bin x => x
  | .pad _ => .none
  | v => v

/-- `struct.pack(self._fmt, value)` with `struct.error` turned into `PackException`
(base.py:186-193). -/
def packNum (w : Nat) : Val → Res Bytes
  | .int i =>
    match structPack w 1 [i] with
    | some b => .ok b
    | none => .error .pack
  | _ => .error .pack

/-- `GenericType.pack` (base.py:148-193) for `UBIntN` with `_value = dflt`. -/
def ubPack (w : Nat) (dflt : Val) (v : Val) : Res Bytes :=
  match v with
  | .none => packNum w (unwrap dflt)
  | v => packNum w (dotValue v)

/-- `self.enum_ref(self._value)` (base.py:211-212); `none` is the `ValueError` of an `Enum`. -/
def refApply : Ref → Nat → Option Val
  | .none, n => some (.int n)
  | .enum ms, n => if n ∈ ms then some (.enum n) else none
  | .mask, n => some (.mask n)

/-- `GenericType.unpack` (base.py:195-217) for `UBIntN`. -/
def ubUnpack (w : Nat) (ref : Ref) (buff : Bytes) (offset : Nat) : Res Val :=
  match unpackFrom w buff offset with
  | none => .error .unpack
  | some n =>
    match refApply ref n with
    | none => .error .unpack
    | some x => .ok (.ub w x)

/-- A `UBInt8/16/32/64(value=dflt, enum_ref=ref)` class attribute; `w` is 1, 2, 4 or 8
(basic_types.py:80-113).  `get_size` is `struct.calcsize` (base.py:219-226). -/
def ubint (w : Nat) (ref : Ref := .none) (dflt : Val := .none) : Attr where
  proto := .ub w dflt
  pack := ubPack w dflt
  size := fun _ => .ok w
  unpack := ubUnpack w ref
  usize := fun _ => .ok w
  post := id

/-! ## `Pad` (basic_types.py:16-77) -/

def padAttr (n : Nat) : Attr where
  proto := .pad n
  pack := fun _ => .ok (List.replicate n 0)
  size := fun _ => .ok n
  unpack := fun _ _ => .ok (.pad n)
  usize := fun _ => .ok n
  post := id

/-! ## `DPID` (basic_types.py:125-191) -/

/-- `[int(v, base) for v in value.split(sep)]`; `none` is `ValueError`. -/
def splitInts (sep : Char) (base : Nat) (s : Str) : Option (List Int) :=
  optMap (pyInt base) (splitC sep s)

/-- `value.split(':')` on something that is not a `str`: no such method, or (bytes) a `TypeError`. -/
def notStr : Val → Err
  | .bytes _ => .type
  | _ => .attribute

/-- DPID.pack, line 165. -/
def dpidPackRaw : Val → Res Bytes
  | .str s =>
    match splitInts ':' 16 s with
    | none => .error .value
    | some xs =>
      match structPack 1 8 xs with
      | none => .error .struct
      | some b => .ok b
  | v => .error (notStr v)

/-- DPID.pack (lines 151-165). -/
def dpidPack (dflt : Val) : Val → Res Bytes
  | .dpid x => dpidPackRaw x
  | .none => dpidPackRaw dflt
  | v => dpidPackRaw v

/-- The `while` loop of DPID.unpack (lines 181-186): `k` bytes left. -/
def dpidLoop (buff : Bytes) : Nat → Nat → Res (List Str)
  | 0, _ => .ok []
  | k + 1, begin =>
    match structUnpack 1 1 (slice buff begin (begin + 1)) with
    | some [n] =>
      match dpidLoop buff k (begin + 1) with
      | .ok r => .ok (hexFix 2 n :: r)
      | .error e => .error e
    | _ => .error .struct

/-- DPID.unpack (lines 167-187). -/
def dpidUnpack (buff : Bytes) (offset : Nat) : Res Val :=
  match dpidLoop buff 8 offset with
  | .ok hs => .ok (.dpid (.str (joinC ':' hs)))
  | .error e => .error e

def dpidAttr : Attr where
  proto := .dpid .none
  pack := dpidPack .none
  size := fun _ => .ok 8
  unpack := dpidUnpack
  usize := fun _ => .ok 8
  post := id

/-! ## `Char` (basic_types.py:194-257) -/

/-- Char.pack body (lines 221-230) for format `!{n}s`: `struct` truncates or zero-pads to `n` bytes, then
the last byte is replaced by NUL. -/
def charPackRaw (n : Nat) : Val → Res Bytes
  | .str s =>
    match asciiEncode s with
    | none => .error .value
    | some b =>
      let packed := (b ++ List.replicate (n - b.length) 0).take n
      .ok (packed.dropLast ++ [0])
  | _ => .error .type

def charPack (n : Nat) (dflt : Val) : Val → Res Bytes
  | .chr x m => charPackRaw m x
  | .none => charPackRaw n dflt
  | v => charPackRaw n v

/-- Char.unpack (lines 232-253). -/
def charUnpack (n : Nat) (buff : Bytes) (offset : Nat) : Res Val :=
  let b := slice buff offset (offset + n)
  if b.length = n then
    match asciiDecode b with
    | none => .error .value
    | some s => .ok (.chr (.str (rstripNul s)) n)
  else .error .plain

def charAttr (n : Nat) : Attr where
  proto := .chr .none n
  pack := charPack n .none
  size := fun _ => .ok n
  unpack := charUnpack n
  usize := fun _ => .ok n
  post := id

/-! ## `IPAddress` (basic_types.py:260-350) -/

/-- `address.split('/')[0]` when there is a `/` (lines 301-302, 404-405). -/
def beforeSlash (s : Str) : Str :=
  if '/' ∈ s then (splitC '/' s).headD [] else s

def ipPackRaw : Val → Res Bytes
  | .str s =>
    match splitInts '.' 10 (beforeSlash s) with
    | none => .error .value
    | some xs =>
      match structPack 1 4 xs with
      | none => .error .pack
      | some b => .ok b
  | v => .error (notStr v)

/-- IPAddress.pack (lines 280-311). -/
def ipPack (dflt : Val) : Val → Res Bytes
  | .ip x _ => ipPackRaw x
  | .none => ipPackRaw dflt
  | v => ipPackRaw v

/-- IPAddress.unpack (lines 313-332); `netmask` keeps the value copied from the class attribute. -/
def ipUnpack (netmask : Int) (buff : Bytes) (offset : Nat) : Res Val :=
  match structUnpack 1 4 (slice buff offset (offset + 4)) with
  | some xs => .ok (.ip (.str (joinC '.' (xs.map decStr))) netmask)
  | none => .error .unpack

/-- `int(x)` for a str or an int. -/
def pyIntOf : Val → Res Int
  | .str s =>
    match pyInt 10 s with
    | some i => .ok i
    | none => .error .value
  | .int i => .ok i
  | .enum i => .ok i
  | .ub _ (.int i) => .ok i
  | .ub _ (.enum i) => .ok i
  | _ => .error .type

/-- The address/netmask split shared by `IPAddress.__init__` (272-275) and `IPv6Address.__init__`
(366-369): `address, netmask = address.split('/')` raises `ValueError` unless there is one slash. -/
def splitMask (dflt : Int) (address : Str) (netmask : Val) : Res (Str × Val) :=
  if '/' ∈ address then
    match splitC '/' address with
    | [a, m] => .ok (a, .str m)
    | _ => .error .value
  else
    match netmask with
    | .none => .ok (address, .int dflt)
    | m => .ok (address, m)

/-- IPAddress.__init__ (lines 266-278). -/
def ipInit (address : Str) (netmask : Val := .none) : Res Val :=
  match splitMask 32 address netmask with
  | .error e => .error e
  | .ok (a, m) =>
    match pyIntOf m with
    | .error e => .error e
    | .ok i => .ok (.ip (.str a) i)

def ipAttr (addr : Str := "0.0.0.0".toList) (netmask : Int := 32) : Attr where
  proto := .ip (.str addr) netmask
  pack := ipPack (.str addr)
  size := fun _ => .ok 4
  unpack := ipUnpack netmask
  usize := fun _ => .ok 4
  post := id

/-! ## `IPv6Address` (basic_types.py:353-458) -/

def ip6PackRaw : Val → Res Bytes
  | .str s =>
    match splitInts ':' 16 (beforeSlash s) with
    | none => .error .value
    | some xs =>
      match structPack 2 8 xs with
      | none => .error .pack
      | some b => .ok b
  | v => .error (notStr v)

/-- IPv6Address.pack (lines 383-414). -/
def ip6Pack (dflt : Val) : Val → Res Bytes
  | .ip6 x _ => ip6PackRaw x
  | .none => ip6PackRaw dflt
  | v => ip6PackRaw v

/-- IPv6Address.unpack (lines 416-440). -/
def ip6Unpack (netmask : Int) (buff : Bytes) (offset : Nat) : Res Val :=
  match structUnpack 2 8 (slice buff offset (offset + 16)) with
  | some xs => .ok (.ip6 (.str (joinC ':' (xs.map (hexFix 4)))) netmask)
  | none => .error .unpack

/-- `'::' in address` -/
def hasColons : Str → Bool
  | ':' :: ':' :: _ => true
  | _ :: r => hasColons r
  | [] => false

/-- `temp.index('')` when an empty part exists (it does whenever `'::' in address`). -/
def indexEmpty : List Str → Nat
  | [] => 0
  | [] :: _ => 0
  | _ :: r => indexEmpty r + 1

/-- The abbreviation rule of IPv6Address.__init__ (lines 371-378). -/
def ip6Expand (address : Str) : Str :=
  if address = [':', ':'] then "0:0:0:0:0:0:0:0".toList
  else if hasColons address then
    let temp := splitC ':' address
    let index := indexEmpty temp
    let temp := temp.filter (fun x => x ≠ [])
    joinC ':' (temp.take index ++ List.replicate (8 - temp.length) ['0'] ++ temp.drop index)
  else address

/-- IPv6Address.__init__ (lines 358-381). -/
def ip6Init (address : Str) (netmask : Val := .none) : Res Val :=
  match splitMask 128 address netmask with
  | .error e => .error e
  | .ok (a, m) =>
    match pyIntOf m with
    | .error e => .error e
    | .ok i => .ok (.ip6 (.str (ip6Expand a)) i)

def ip6Zero : Str := "0000:0000:0000:0000:0000:0000:0000:0000".toList

def ip6Attr : Attr where
  proto := .ip6 (.str ip6Zero) 128
  pack := ip6Pack (.str ip6Zero)
  size := fun _ => .ok 16
  unpack := ip6Unpack 128
  usize := fun _ => .ok 16
  post := id

/-! ## `HWAddress` (basic_types.py:461-552) -/

def hwZero : Str := "00:00:00:00:00:00".toList

/-- `value == 0` (line 493): an int, enum member or UBInt with that number; an object of another basic class compares its `value`
with 0 (base.py:71-76). -/
def isZero : Val → Bool
  | .int i => i = 0
  | .enum i => i = 0
  | .ub _ x => (match unwrap x with | .int i => i = 0 | _ => false)
  | .hw x => isZero x
  | .dpid x => isZero x
  | .chr x _ => isZero x
  | .bin x => isZero x
  | _ => false

/-- HWAddress.pack from line 493 on. -/
def hwPackRaw (v : Val) : Res Bytes :=
  match (if isZero v then Val.str hwZero else v) with
  | .str s =>
    match splitInts ':' 16 s with
    | none => .error .value
    | some xs =>
      match structPack 1 6 xs with
      | none => .error .pack
      | some b => .ok b
  | v => .error (notStr v)

/-- HWAddress.pack (lines 474-504). -/
def hwPack (dflt : Val) : Val → Res Bytes
  | .hw x => hwPackRaw x
  | .none => hwPackRaw dflt
  | v => hwPackRaw v

/-- HWAddress.unpack (lines 506-530). -/
def hwUnpack (buff : Bytes) (offset : Nat) : Res Val :=
  match structUnpack 1 6 (slice buff offset (offset + 6)) with
  | some xs => .ok (.hw (.str (joinC ':' (xs.map (hexFix 2)))))
  | none => .error .unpack

def hwAttr (dflt : Val := .str hwZero) : Attr where
  proto := .hw dflt
  pack := hwPack dflt
  size := fun _ => .ok 6
  unpack := hwUnpack
  usize := fun _ => .ok 6
  post := id

/-- HWAddress.is_broadcast (lines 546-548) on `_value = x`. -/
def hwIsBroadcast : Val → Bool
  | .str s => s = "ff:ff:ff:ff:ff:ff".toList
  | _ => false

/-! ## `BinaryData` (basic_types.py:555-629) -/

/-- BinaryData.pack (lines 574-593) on a value; objects with a `pack` method are the nested `BinaryData`, an
empty `FixedTypeList` and `foreign` values; other packable objects are not modelled here (they are represented by `foreign`). -/
def binPackRaw : Val → Res Bytes
  | .none => .ok []
  | .bytes b => .ok b
  | .bin x => binPackRaw x
  | .foreign b _ => .ok b
  | .list true [] => .ok []
  | .int _ | .enum _ | .mask _ | .str _ | .list false _ => .error .value
  | _ => .error .unmodelled

/-- BinaryData.get_size (lines 607-625). -/
def binSizeRaw : Val → Res Nat
  | .bin x => binSizeRaw x
  | .foreign _ n => .ok n
  | v =>
    match binPackRaw v with
    | .ok b => .ok b.length
    | .error e => .error e

def binAttr (dflt : Val := .none) : Attr where
  proto := .bin dflt
  pack := fun v => match v with | .none => binPackRaw dflt | v => binPackRaw v
  size := fun v => match v with | .none => binSizeRaw dflt | v => binSizeRaw v
  unpack := fun buff offset => .ok (.bin (.bytes (buff.drop offset)))
  usize := binSizeRaw
  post := id

/-! ## Truth -/

/-- `bool(value)`: `None`, zero, and what has length zero are false.  The `len` of a basic type is its size (base.py:129-130); where computing
the size of a `BinaryData` raises, the value counts as true here: the code that asks packs it next, which raises the same. -/
def pyTrue : Val → Bool
  | .none => false
  | .int i | .enum i => i ≠ 0
  | .str s => s ≠ []
  | .bytes b => b ≠ []
  | .list _ xs => xs ≠ []
  | .bin x => decide (binSizeRaw x ≠ .ok 0)
  | .pad n | .chr _ n => n ≠ 0
  | _ => true

end Pyof
