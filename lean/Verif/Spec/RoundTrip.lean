import Verif.Spec.Contract
/-!
# Specification: round trips

`RoundTrips c f`: whatever value with content `d` is packed, unpacking the bytes at any place in any buffer gives
an object with content `d`.  `RoundTripsLast` is the same for attributes that run to the end of their buffer.
-/
namespace Pyof.Spec

def RoundTrips (c : Attr) (f : Fmt) : Prop :=
  ∀ v d b, f.den v = some d → f.ok d → c.pack v = .ok b → ∀ pre post : Bytes, pre ++ b ++ post ≠ [] →
    ∃ u, c.unpack (pre ++ b ++ post) pre.length = .ok u ∧ f.den u = some d

def RoundTripsLast (c : Attr) (f : Fmt) : Prop :=
  ∀ v d b, f.den v = some d → f.ok d → c.pack v = .ok b → ∀ pre : Bytes, pre ++ b ≠ [] →
    ∃ u, c.unpack (pre ++ b) pre.length = .ok u ∧ f.den u = some d

end Pyof.Spec
