import Verif.Model.Struct
/-!
# Specification: which exceptions decoding can raise
-/
namespace Pyof.Spec

/-- Decoding the attribute from a non-empty buffer at an offset of at least `lo`, and asking for the size of the result, only raises
exceptions in `P`. -/
structure Errs (P : Err → Prop) (lo : Nat) (c : Attr) : Prop where
  unpack : ∀ {buff off e}, lo ≤ off → buff ≠ [] → c.unpack buff off = .error e → P e
  usize : ∀ {buff off v e}, lo ≤ off → buff ≠ [] → c.unpack buff off = .ok v → c.usize v = .error e → P e
  size : ∀ {buff off v e}, lo ≤ off → buff ≠ [] → c.unpack buff off = .ok v → c.size v = .error e → P e
  proto : ∀ {e}, c.size c.proto = .error e → P e

/-- The size of a decoded object is not zero. -/
def Advances (it : Attr) : Prop := ∀ buff off v n, buff ≠ [] → it.unpack buff off = .ok v → it.usize v = .ok n → 0 < n

end Pyof.Spec
