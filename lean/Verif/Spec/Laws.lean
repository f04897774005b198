import Verif.Model.Struct
import Verif.Spec.Fmt
/-!
# Specification: further laws of attributes and formats

Each law is about the observable behaviour of one attribute (or one format); `Verif/Lemmas` shows that every
basic type has it and that structs, lists and variants preserve it.
-/
namespace Pyof.Spec

/-- The values a (possibly nested) list argument stands for, in order. -/
def flat : Val → List Val
  | .list _ xs => flats xs
  | v => [v]
where
  flats : List Val → List Val
    | [] => []
    | x :: xs => flat x ++ flats xs

/-- Two lists of the same length whose elements are related one by one. -/
inductive Each {α β : Type} (R : α → β → Prop) : List α → List β → Prop
  | nil : Each R [] []
  | cons {a b as bs} : R a b → Each R as bs → Each R (a :: as) (b :: bs)

/-- `len(attribute.pack(v)) == attribute.get_size(v)` whenever `pack` succeeds. -/
def SizeOK (c : Attr) (v : Val) : Prop := ∀ b, c.pack v = .ok b → c.size v = .ok b.length

/-- The same for an object's own methods: `len(x.pack()) == x.get_size()`. -/
def OwnSizeOK (c : Attr) (v : Val) : Prop := ∀ b, c.pack v = .ok b → c.usize v = .ok b.length

/-- The attribute occupies exactly `n` bytes and its decoding only depends on them. -/
structure Window (c : Attr) (n : Nat) : Prop where
  usize : ∀ buff off u, buff ≠ [] → c.unpack buff off = .ok u → c.usize u = .ok n
  size : ∀ buff off u, buff ≠ [] → c.unpack buff off = .ok u → c.size u = .ok n
  same : ∀ buff buff' off off', buff ≠ [] → buff' ≠ [] →
    slice buff off (off + n) = slice buff' off' (off' + n) → c.unpack buff off = c.unpack buff' off'

/-- The attribute occupies `n` bytes, its decoding can only fail with `UnpackException`, and does so when
fewer than `need` bytes are available. -/
structure Needs (c : Attr) (n need : Nat) : Prop where
  usize : ∀ buff off u, buff ≠ [] → c.unpack buff off = .ok u → c.usize u = .ok n
  size : ∀ buff off u, buff ≠ [] → c.unpack buff off = .ok u → c.size u = .ok n
  err : ∀ buff off e, buff ≠ [] → c.unpack buff off = .error e → e = .unpack
  short : ∀ buff off, buff ≠ [] → 0 < need → buff.length < off + need → c.unpack buff off = .error .unpack

/-- How many of the bytes of consecutive attributes `(size, needed)` must be there: everything up to the last
needed byte. -/
def needed : List (Nat × Nat) → Nat
  | [] => 0
  | (n, k) :: r => if needed r = 0 then k else n + needed r

/-- No two contents have encodings one of which continues the other (`tail = false`), or at least no two
contents have the same encoding (`tail = true`). -/
def Uniq (f : Fmt) (tail : Bool) : Prop :=
  ∀ d d' b b' r r', f.enc d = some b → f.enc d' = some b' → (tail = true → r = [] ∧ r' = []) →
    b ++ r = b' ++ r' → d = d'

end Pyof.Spec
