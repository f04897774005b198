import Verif.Model.Threads
/-!
# What is asked of messages that several threads pack at once
-/
namespace Pyof.Threads

/-- No ActionSetField in the tree has to be padded: each holds a TLV that packs to 4 bytes more than a multiple of 8, if at all. -/
def NoPad (v : Val) : Prop :=
  ∀ p t l f, at? v p = some (.obj "04.ActionSetField" [t, l, f]) → ∀ b, V04.oxm.pack f = .ok b → b.length % 8 = 4

/-- The ActionSetField at the place `p` has to be padded. -/
def Padded (v : Val) (p : Path) : Prop :=
  ∃ t l f b, at? v p = some (.obj "04.ActionSetField" [t, l, f]) ∧ V04.oxm.pack f = .ok b ∧ b.length % 8 ≠ 4

/-- A thread that has a result. -/
def Finished {α : Type} (t : Prog α) : Prop := ∃ r, t = .ret r

/-- A thread that can go on. -/
def CanStep {α : Type} (t : Prog α) (w : Val) : Prop := ∃ c, Step (t, w) c

end Pyof.Threads
