import Verif.Model.Watch
import Verif.Model.Message
import Verif.Model.Network
/-!
# Threads that pack an object, or ask for its size, while another decodes into it
-/
namespace Pyof.Decode

/-- GenericStruct.pack (base.py:699-714) of the object `o` whose class declares `fields`, by a thread while others run; `message` is what has been packed so
far.  `_get_named_attributes` (base.py:629-643) is a generator: an attribute is looked up when its turn comes, and `class_value.pack(instance_value)` reads the
value it has found.  An exception ends the call.  The attributes are looked up in the order of the class, which is the order of the `__dict__` if
`__init__` assigns them in this order; the value is read in one go.  The only class with its own `is_valid` and this `pack` is ARP, see
`arpPacking`. -/
def packing (o : Nat) (message : Bytes) : Fields → Steps (List Val)
  | [] => .ret (.ok [.bin (.bytes message)])
  | (n, c) :: fs => .look o n fun a => .read a fun v =>
    match c.pack v with
    | .error e => .ret (.error e)
    | .ok b => packing o (message ++ b) fs

/-- GenericStruct.get_size (base.py:677-679), in the same way: `sum` takes the attributes one by one (base.py:612-627). -/
def sizing (o : Nat) (total : Nat) : Fields → Steps (List Val)
  | [] => .ret (.ok [.int total])
  | (n, c) :: fs => .look o n fun a => .read a fun v =>
    match c.size v with
    | .error e => .ret (.error e)
    | .ok k => sizing o (total + k) fs

/-- As `sizing`; `k` is what is done with the size. -/
def measuring (o : Nat) (k : Nat → Steps (List Val)) (total : Nat) : Fields → Steps (List Val)
  | [] => k total
  | (n, c) :: fs => .look o n fun a => .read a fun v =>
    match c.size v with
    | .error e => .ret (.error e)
    | .ok b => measuring o k (total + b) fs

/-- GenericMessage.pack (base.py:819-821) once the size is known: `self.header.length = size` (base.py:852) and the loop of GenericStruct.pack
(base.py:704-714), which packs the header first.  The header is assigned to and packed in one go; no other thread that packs the same message is
modelled here (`Model/Threads.lean` has those), and `unpack` leaves the header alone (base.py:841-845). -/
def headed (o : Nat) (m : MsgCls) (size : Nat) : Steps (List Val) :=
  .look o "header" fun a => .read a fun h =>
    match setLength size h with
    | .error e => .ret (.error e)
    | .ok h' =>
      match (headerAttr m.ver m.types m.code).pack h' with
      | .error e => .ret (.error e)
      | .ok b => packing o b m.body

/-- GenericMessage.pack (base.py:819-821), for classes without a `pack` or `is_valid` of their own: `update_header_length` asks all attributes for
their sizes, then all are packed. -/
def messagePacking (o : Nat) (m : MsgCls) : Steps (List Val) := measuring o (headed o m) 0 m.fields

/-- What GenericStruct.pack (base.py:700-703) does with the comparison in `is_valid`. -/
def ifEq (v w : Val) (k : Steps (List Val)) : Steps (List Val) :=
  match pyEq v w with
  | .error e => .ret (.error e)
  | .ok false => .ret (.error .validation)
  | .ok true => k

/-- ARP.pack: GenericStruct.pack (base.py:699-714) with ARP.is_valid (network_types.py:111-113), which reads `htype` and `ptype`. -/
def arpPacking (o : Nat) : Steps (List Val) :=
  .look o "htype" fun a => .read a fun h => ifEq h (.int 1) <|
    .look o "ptype" fun a => .read a fun p => ifEq p (.enum 0x0800) <|
      packing o [] Net.arpFields

end Pyof.Decode
