import Verif.Model.Watch
import Verif.Spec.Decode
import Verif.Spec.Laws
/-!
# What is asked of threads that read while others decode
-/
namespace Pyof.Decode

/-- The classes whose `unpack` makes a value first and stores it when it is complete: `PacketOut` of both versions, Ethernet frames, LLDP
TLVs. -/
def Cls.Complete : Cls → Prop
  | .message m => m ∈ classes ∧ (m.name = "01.PacketOut" ∨ m.name = "04.PacketOut")
  | .ethernet | .tlv | .subTlv => True
  | _ => False

/-- The other threads: they read attributes of whatever objects, or decode into other objects than `o`. -/
def Bystander (o : Nat) (t : Steps (List Val)) : Prop :=
  (∃ o' ns, t = readAll o' [] ns) ∨ ∃ j : Job, j.o ≠ o ∧ t = decoding j.steps

/-- What an attribute may be in passing while the call stores into the object: the copy of the class attribute, or what it goes through while it is
decoded; for a thread that assigns, what it assigns. -/
def Job.Passes (j : Job) (n : String) (v : Val) : Prop :=
  let half := fun fields : Fields => ∃ c, (n, c) ∈ fields ∧ (v = c.proto ∨ v ∈ j.mid n)
  match j.cls with
  | .message m => half m.body
  | .struct fs | .cut _ _ fs => half fs
  | .assign ops => (n, v) ∈ ops
  | _ => False

/-- The class declares every attribute once. -/
def Cls.Distinct : Cls → Prop
  | .message m => m ∈ classes
  | .struct fs | .cut _ _ fs => (fs.map (·.1)).Nodup
  | _ => True

/-- In the memory `w` the object `o` shows the value `v` as its attribute `n`. -/
def Shows (w : Mem) (o : Nat) (n : String) (v : Val) : Prop := ∃ refs a, w.objs[o]? = some refs ∧ refs.lookup n = some a ∧ w.heap[a]? = some v

/-- The call on its own goes from `c0` to `c`, and in between somebody looks at the attributes `ns` of the object `o`, one after the other, each in one
go, and sees `vs`. -/
inductive Seen (o : Nat) (c0 : Steps (List Val) × Mem) : List String → List Val → Steps (List Val) × Mem → Prop
  | start : Seen o c0 [] [] c0
  | step {ns : List String} {vs : List Val} {c c' : Steps (List Val) × Mem} : Seen o c0 ns vs c → Step c c' → Seen o c0 ns vs c'
  | see {ns : List String} {vs : List Val} {c : Steps (List Val) × Mem} {n : String} {v : Val} : Seen o c0 ns vs c → Shows c.2 o n v →
      Seen o c0 (ns ++ [n]) (vs ++ [v]) c

end Pyof.Decode
