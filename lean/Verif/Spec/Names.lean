import Verif.Model.Text
/-!
# Texts that name what was on the wire (C77)
-/
namespace Pyof.Props

/-- The text `str(x)` of what the attribute `a` decodes

* can be given to a constructor: the object `make` gives for it packs to the bytes that were decoded, and has the same text;
* tells apart what is different on the wire, and only that.

`win buff off` is the part of the buffer that `a` decodes. -/
def Named (member : Int → Str) (a : Attr) (win : Bytes → Nat → Bytes) (make : Str → Res Val) : Prop :=
  ∀ buff off x, a.unpack buff off = .ok x → ∃ s, strOf member x = .ok s ∧
    (∃ y, make s = .ok y ∧ a.pack y = .ok (win buff off) ∧ strOf member y = .ok s) ∧
    ∀ buff' off' x', a.unpack buff' off' = .ok x' → (strOf member x' = .ok s ↔ win buff' off' = win buff off)

/-- `k` bytes. -/
def window (k : Nat) (buff : Bytes) (off : Nat) : Bytes := slice buff off (off + k)

end Pyof.Props
