import Verif.Model.DecodeNet
/-!
# Threads that read the attributes of an object while another decodes into it
-/
namespace Pyof.Decode

/-- A thread that reads `o.name` for the names, one after the other; `got` is what it has read so far.  `o.name` is a lookup in the `__dict__` of
the object; the value is read when it has been found. -/
def readAll (o : Nat) (got : List Val) : List String → Steps (List Val)
  | [] => .ret (.ok got)
  | n :: ns => .look o n fun a => .read a fun v => readAll o (got ++ [v]) ns

/-- A thread that decodes (`self.unpack(buff, offset)`) reads nothing. -/
def decoding (p : Steps Unit) : Steps (List Val) := p.bind fun _ => .ret (.ok [])

end Pyof.Decode
