import Verif.Spec.Union
/-!
# Specification: layouts used by OpenFlow 1.3

Structures that carry their own total length, zero padding to a multiple of 8, and contents that are
only expressible under a side condition.
-/
namespace Pyof.Spec

/-- Fields `fs₁`, the total length in bytes on two bytes, fields `fs₂`.  The length is not part of the
content: whatever the `length` attribute of the object holds is ignored. -/
def ownLen (cls : String) (fs₁ fs₂ : FieldFmts) : Fmt where
  den := fun v =>
    match v with
    | .obj c vs =>
      if c = cls ∧ fs₁.length < vs.length then
        match denAll fs₁ (vs.take fs₁.length), denAll fs₂ (vs.drop (fs₁.length + 1)) with
        | some ds, some es => some (.record (ds ++ es))
        | _, _ => none
      else none
    | _ => none
  enc := fun d =>
    match d with
    | .record ds =>
      match encAll fs₁ (ds.take fs₁.length), encAll fs₂ (ds.drop fs₁.length) with
      | some b₁, some b₂ =>
        if b₁.length + 2 + b₂.length < 65536 then some (b₁ ++ be 2 (b₁.length + 2 + b₂.length) ++ b₂) else none
      | _, _ => none
    | _ => none
  ok := fun d => match d with | .record ds => okAll fs₁ (ds.take fs₁.length) ∧ okAll fs₂ (ds.drop fs₁.length) | _ => False

/-- Zeros up to the next multiple of 8. -/
def zeros8 (n : Nat) : Bytes := List.replicate ((8 - n % 8) % 8) 0

/-- `f` followed by zeros up to a multiple of 8 bytes. -/
def pad8 (f : Fmt) : Fmt where
  den := f.den
  enc := fun d => (f.enc d).map fun b => b ++ zeros8 b.length
  ok := f.ok

/-- An attribute left at `None` has content `d`. -/
def orDefault (d : Data) (f : Fmt) : Fmt where
  den := fun v => match v with | .none => some d | v => f.den v
  enc := f.enc
  ok := f.ok

/-- The bytes carry their own total length on two bytes at position `k`. -/
def Sized (k : Nat) (b : Bytes) : Prop := slice b k (k + 2) = be 2 b.length ∧ b.length < 65536

instance (k b) : Decidable (Sized k b) := by unfold Sized; infer_instance

/-- Only objects whose length attribute is right have a content. -/
def exact (k : Nat) (f : Fmt) : Fmt where
  den := fun v =>
    match f.den v with
    | some d => (match f.enc d with | some b => if Sized k b then some d else none | none => some d)
    | none => none
  enc := fun d => match f.enc d with | some b => if Sized k b then some b else none | none => none
  ok := f.ok

/-- A list held in a plain `FixedTypeList`. -/
def bareList (f : Fmt) : Fmt :=
  { list f with
    den := fun v => match v with | .none => some (.arr []) | .list true xs => (list f).den (.list true xs) | _ => none }

/-- A list that has to be empty. -/
def noItems : Fmt where
  den := fun v => match v with | .none => some (.arr []) | .list true [] => some (.arr []) | _ => none
  enc := fun d => match d with | .arr [] => some [] | _ => none
  ok := fun _ => True

/-- Uninterpreted bytes, a multiple of 8 of them. -/
def rest8 : Fmt where
  den := fun v => match rest.den v with | some (.raw b) => if b.length % 8 = 0 then some (.raw b) else none | _ => none
  enc := fun d => match d with | .raw b => if b.length % 8 = 0 then some b else none | _ => none
  ok := fun _ => True

end Pyof.Spec
