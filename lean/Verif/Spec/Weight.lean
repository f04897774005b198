import Verif.Model.Py
/-!
# How much there is of a value

Used to state that what is decoded from a packet is not out of proportion to the packet.
-/
namespace Pyof.Spec

mutual
/-- One for every object (references to `None` and numbers included), and one for every character of a text and every byte of a byte
string. -/
def weight : Val → Nat
  | .none | .int _ | .enum _ | .mask _ | .pad _ => 1
  | .str s => 1 + s.length
  | .bytes b => 1 + b.length
  | .ub _ x | .hw x | .ip x _ | .ip6 x _ | .dpid x | .chr x _ | .bin x => 1 + weight x
  | .obj _ vs => 1 + weights vs
  | .list _ xs => 1 + weights xs
  | .foreign b _ => 1 + b.length
def weights : List Val → Nat
  | [] => 0
  | v :: vs => weight v + weights vs
end

example : weight (.obj "04.ActionOutput" [.ub 2 (.enum 0), .ub 2 (.int 16), .ub 4 (.int 7), .ub 2 (.int 0), .pad 6]) = 10 := rfl
example : weight (.list true [.bin (.bytes [1, 2, 3]), .ip (.str "1.2.3.4".toList) 32]) = 1 + (2 + 3) + (2 + 7) := rfl

end Pyof.Spec
