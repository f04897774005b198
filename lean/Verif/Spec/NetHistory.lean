import Verif.Model.NetThreads
import Verif.Spec.History
/-!
# Network packets that are packed by several threads and changed in between
-/
namespace Pyof.Net
open Threads

/-- An IPv4 packet has no options, and what is stored in an IPv4 or IPv6 packet has the documented types.  Nothing is asked of other classes. -/
def Fit (v : Val) : Prop :=
  (∀ vs, v = .obj "net.IPv4" vs → ∃ p, ipv4Of vs = some p ∧ p.options = []) ∧ (∀ vs, v = .obj "net.IPv6" vs → ∃ p, ipv6Of vs = some p)

/-- Each VLAN tag in the tree has all of `pcp`, `cfi` and `vid`, or none of them. -/
def Whole (v : Val) : Prop :=
  ∀ p tpid t a b c, at? v p = some (.obj "net.VLAN" [tpid, t, a, b, c]) → (a = .none ∧ b = .none ∧ c = .none) ∨ (a ≠ .none ∧ b ≠ .none ∧ c ≠ .none)

/-- The life of a packet of class `k`: it is made, then changed and packed in any order.  `Life k v w`: `w` is the packet, `v` is what it would be if
it had only been changed and never packed.  Any number of threads may pack it at once, and be given up at any moment. -/
inductive Life (k : NetCls) : Val → Val → Prop
  | made (vs : List Val) : vs.length = k.arity → Life k (.obj k.name vs) (.obj k.name vs)
  | changed {v w : Val} (i : Nat) (p : Path) (c : Change) : Life k v w → Life k (alter v (i :: p) c) (alter w (i :: p) c)
  | packed {v w w' : Val} {n : Nat} {ts : List (Prog (Res Bytes))} : Life k v w → Fit w → Whole w →
      Runs (List.replicate n k.steps, w) (ts, w') → Life k v w'

end Pyof.Net
