import Verif.Model.Struct
/-!
# Messages: `Header`, `GenericMessage` (`base.py`), `unpack_message` (`v0x0?/common/utils.py`) and
`pyof/utils.py`

A message instance is `obj cls (header :: body)`.
-/
namespace Pyof

/-! ## Header (v0x01/common/header.py:66-88, v0x04/common/header.py:85-107) -/

/-- The name the model gives to the `Header` class of version `ver`. -/
def hdrName (ver : Nat) : String := if ver = 1 then "01.Header" else "04.Header"

/-- `version = UBInt8(OFP_VERSION)`, `message_type = UBInt8(enum_ref=Type)`, `length`, `xid`. -/
def headerFields (ver : Nat) (types : List Nat) : Fields :=
  [("version", ubint 1 .none (.int ver)), ("message_type", ubint 1 (.enum types)), ("length", ubint 2),
   ("xid", ubint 4)]

/-- `header = Header(message_type=code)` as class attribute of a message. -/
def headerAttr (ver : Nat) (types : List Nat) (code : Nat) : Attr :=
  structAttr (hdrName ver) (headerFields ver types) [.ub 1 (.int ver), .enum code, .none, .none]

/-! ## GenericMessage (base.py:753-852) -/

/-- A message class.

* `code`: the `message_type` in the header of its instances;
* `body`: the class attributes after `header`;
* `prep`: what the class' own `pack` does to the attributes before calling `GenericMessage.pack`;
* `valid`: the class' `is_valid` (`GenericMessage.is_valid` is always `True`, base.py:784-798), with the exception
  raised when it is `False`;
* `size`: `get_size()` of the attributes after `header`;
* `after`: the attributes when `pack` has returned (from the attributes before);
* `unpack`: `unpack(buff)` on a new instance: the body attributes. -/
structure MsgCls where
  name : String
  ver : Nat
  types : List Nat
  code : Nat
  body : Fields
  prep : List Val → Res (List Val) := fun vs => .ok vs
  valid : List Val → Res Unit := fun _ => .ok ()
  size : List Val → Res Nat := fun vs => sizeAttrs body vs
  after : List Val → List Val := fun vs => postAttrs body vs
  unpack : Bytes → Res (List Val) := fun buff =>
    match unpackAttrs body buff 0 with
    | .ok (vs, _) => .ok vs
    | .error e => .error e

/-- `self.header.length = n` (base.py:852).  A header that is not a `Header` has no such attribute (other
objects that accept the assignment are not modelled). -/
def setLength (n : Nat) : Val → Res Val
  | .obj c [a, t, _, x] => .ok (.obj c [a, t, .int n, x])
  | _ => .error .attribute

/-- All class attributes. -/
def MsgCls.fields (m : MsgCls) : Fields := ("header", headerAttr m.ver m.types m.code) :: m.body

/-- GenericMessage.pack (base.py:800-826) and GenericStruct.pack (base.py:699-718): `update_header_length`, then
`is_valid`, then the attributes in order. -/
def genericPack (m : MsgCls) (hdr : Val) (vs : List Val) : Res Bytes :=
  match sizeAttrs m.fields (hdr :: vs) with
  | .error e => .error e
  | .ok n =>
    match setLength n hdr with
    | .error e => .error e
    | .ok hdr' =>
      match m.valid vs with
      | .error e => .error e
      | .ok () => packAttrs m.fields (hdr' :: vs)

/-- `message.pack()` -/
def MsgCls.pack (m : MsgCls) : Val → Res Bytes
  | .obj _ (hdr :: vs) =>
    match m.prep vs with
    | .error e => .error e
    | .ok vs' => genericPack m hdr vs'
  | _ => .error .unmodelled

/-- The message after a successful `pack()`: the header length is stored in the instance. -/
def MsgCls.post (m : MsgCls) : Val → Val
  | .obj c (hdr :: vs) =>
    match m.prep vs with
    | .error _ => .obj c (hdr :: vs)
    | .ok vs' =>
      match sizeAttrs m.fields (hdr :: vs') with
      | .error _ => .obj c (hdr :: vs)
      | .ok n =>
        match setLength n hdr with
        | .error _ => .obj c (hdr :: vs)
        | .ok hdr' => .obj c (hdr' :: m.after vs)
  | v => v

/-- The message after a `pack()` that raised an exception once the class' own preparation was done: the classes that replace
`body` or `data` before `super().pack()` restore it only when that returns (stats_request.py:52-57, stats_reply.py:49-55,
multipart_request.py:99-104, multipart_reply.py:109-114, v0x01 error_msg.py:218-225).  Objects nested in the attributes are
shown as they were. -/
def MsgCls.raised (m : MsgCls) : Val → Val
  | .obj c (hdr :: vs) =>
    match m.prep vs with
    | .error _ => .obj c (hdr :: vs)
    | .ok vs' =>
      match sizeAttrs m.fields (hdr :: vs') with
      | .error _ => .obj c (hdr :: vs')
      | .ok n =>
        match setLength n hdr with
        | .error _ => .obj c (hdr :: vs')
        | .ok hdr' => .obj c (hdr' :: vs')
  | v => v

/-- GenericMessage.__init__ (base.py:764-767): `randint(0, MAXID)` unless an xid is given; `r` is what `randint`
returned. -/
def newXid (given : Val) (r : Nat) : Val :=
  match given with
  | .none => .int r
  | x => x

/-- The header of a new instance of `m` (deepcopy of the class attribute, then the xid). -/
def newHeader (m : MsgCls) (given : Val) (r : Nat) : Val :=
  .obj (hdrName m.ver) [.ub 1 (.int m.ver), .enum m.code, .none, newXid given r]

/-! ## unpack_message (v0x01/common/utils.py:66-143, v0x04/common/utils.py:110-184) -/

/-- One OpenFlow version: the members of its `Type` enum and `MESSAGE_TYPES`. -/
structure Lib where
  ver : Nat
  types : List Nat
  classes : List (Nat × MsgCls)

/-- `MESSAGE_TYPES.get(str(message_type))`. -/
def Lib.find (l : Lib) (t : Nat) : Option MsgCls := (l.classes.find? (fun p => p.1 == t)).map (·.2)

/-- The message class of a given name. -/
def Lib.named (l : Lib) (name : String) : Option MsgCls := (l.classes.find? (fun p => p.2.name == name)).map (·.2)

/-- `v.pack()` for a message object: the method of its class. -/
def pyPack (libs : List Lib) (v : Val) : Res Bytes :=
  match v with
  | .obj c _ =>
    match libs.findSome? (fun l => l.named c) with
    | some m => m.pack v
    | none => .error .unmodelled
  | _ => .error .unmodelled

/-- `v.get_size()` for a message object (base.py:677-679): the header and the other attributes. -/
def pySize (libs : List Lib) (v : Val) : Res Nat :=
  match v with
  | .obj c (hdr :: vs) =>
    match libs.findSome? (fun l => l.named c) with
    | some m =>
      match (headerAttr m.ver m.types m.code).size hdr with
      | .error e => .error e
      | .ok n =>
        match m.size vs with
        | .error e => .error e
        | .ok k => .ok (n + k)
    | none => .error .unmodelled
  | _ => .error .unmodelled

/-- `v` after a `v.pack()` that raised. -/
def pyRaised (libs : List Lib) (v : Val) : Val :=
  match v with
  | .obj c _ =>
    match libs.findSome? (fun l => l.named c) with
    | some m => m.raised v
    | none => v
  | v => v

/-- `v` after a successful `v.pack()`. -/
def pyPost (libs : List Lib) (v : Val) : Val :=
  match v with
  | .obj c _ =>
    match libs.findSome? (fun l => l.named c) with
    | some m => m.post v
    | none => v
  | v => v

/-- unpack_message: header from the first 8 bytes, class by its `message_type` (`ValueError` if it is not in the
table), `xid` and `length` copied into the new message's own header, body from the other bytes. -/
def unpackMessage (l : Lib) (buffer : Bytes) : Res Val :=
  match unpackAttrs (headerFields l.ver l.types) (buffer.take 8) 0 with
  | .error e => .error e
  | .ok ([_, .ub _ (.enum t), len, xid], _) =>
    match l.find t.toNat with
    | none => .error .value
    | some m =>
      match m.unpack (buffer.drop 8) with
      | .error e => .error e
      | .ok vs => .ok (.obj m.name (.obj (hdrName m.ver) [.ub 1 (.int m.ver), .enum m.code, len, xid] :: vs))
  | .ok _ => .error .value

/-! ## pyof/utils.py -/

/-- validate_packet (pyof/utils.py:15-35). -/
def validatePacket (packet : Val) : Res Unit :=
  match packet with
  | .bytes p =>
    if p.length < 8 ∨ p.length > 65536 then .error .unpack
    else if p.length ≠ beVal (slice p 2 4) then .error .unpack
    else
      match p with
      | version :: _ => if version = 0 ∨ version ≥ 128 then .error .unpack else .ok ()
      | [] => .error .index
  | _ => .error .unpack

/-- `except (UnpackException, ValueError)` (pyof/utils.py:62-63).  `UnicodeDecodeError` is a `ValueError`, and
`Err.value` stands for both. -/
def rewrap {α : Type} : Res α → Res α
  | .error .unpack => .error .unpack
  | .error .value => .error .unpack
  | r => r

/-- `unpack(packet)` (pyof/utils.py:38-63). -/
def pyUnpack (libs : List Lib) (packet : Val) : Res Val :=
  match validatePacket packet with
  | .error e => .error e
  | .ok () =>
    match packet with
    | .bytes (v :: p) =>
      match libs.find? (fun l => l.ver == v.toNat) with
      | none => .error .unpack
      | some l => rewrap (unpackMessage l (v :: p))
    | _ => .error .unpack

end Pyof
