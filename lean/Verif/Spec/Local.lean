import Verif.Model.Struct
/-!
# Specification: decoding depends neither on the bytes before the offset nor on the bytes after the window
-/
namespace Pyof.Spec

/-- Two non-empty buffers and two offsets of at least `lo`: if what follows the offset is the same, decoding does the same (it gives the
same object or raises the same exception). -/
def Local (lo : Nat) (c : Attr) : Prop :=
  ∀ buff buff' off off', buff ≠ [] → buff' ≠ [] → lo ≤ off → lo ≤ off' → buff.drop off = buff'.drop off' →
    c.unpack buff off = c.unpack buff' off'

/-- Decoding gave an object that takes `n` bytes, and the buffer goes on after them: then decoding any other buffer that is the same up to
there gives the same object. -/
def Follow (c : Attr) : Prop :=
  ∀ buff buff' off u n, buff ≠ [] → buff' ≠ [] → c.unpack buff off = .ok u → c.usize u = .ok n → off + n < buff.length →
    buff'.take (off + n) = buff.take (off + n) → c.unpack buff' off = .ok u

end Pyof.Spec
