import Verif.Model.WatchPack
import Verif.Spec.Watch
/-!
# What is asked of threads that pack while others decode
-/
namespace Pyof.Decode

/-- The other threads: they pack an object, ask for its size, or do something else. -/
inductive Watcher where
  | pack (o : Nat) (fields : Fields)
  | size (o : Nat) (fields : Fields)
  | message (o : Nat) (m : MsgCls)
  | arp (o : Nat)
  | other (t : Steps (List Val))

def Watcher.steps : Watcher → Steps (List Val)
  | .pack o fs => packing o [] fs
  | .size o fs => sizing o 0 fs
  | .message o m => messagePacking o m
  | .arp o => arpPacking o
  | .other t => t

/-- They pack or measure whatever objects, read attributes of them, or decode into other objects than `o`. -/
def Watcher.Away (o : Nat) : Watcher → Prop
  | .other t => Bystander o t
  | _ => True

/-- What a thread returns that packs: the bytes, or the exception. -/
def packed : Res Bytes → Res (List Val)
  | .ok b => .ok [.bin (.bytes b)]
  | .error e => .error e

/-- What a thread returns that asks for the size: the number, or the exception. -/
def measured : Res Nat → Res (List Val)
  | .ok n => .ok [.int n]
  | .error e => .error e

/-- What `pack` of a message gives if the attributes are `us` when it asks for the sizes, and the header `h` and `vs` when it packs. -/
def packTwice (m : MsgCls) (us : List Val) (h : Val) (vs : List Val) : Res Bytes :=
  match sizeAttrs m.fields us with
  | .error e => .error e
  | .ok n =>
    match setLength n h with
    | .error e => .error e
    | .ok h' => packAttrs m.fields (h' :: vs)

/-- What `pack` of an ARP gives if `htype` and `ptype` are `h` and `p` when they are checked, and the attributes are `vs` when they are packed. -/
def packChecked (h p : Val) (vs : List Val) : Res Bytes :=
  match Net.arpIsValid [h, p] with
  | .error e => .error e
  | .ok false => .error .validation
  | .ok true => packAttrs Net.arpFields vs

end Pyof.Decode
