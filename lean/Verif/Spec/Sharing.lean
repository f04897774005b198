import Verif.Spec.Threads
import Verif.Model.Sharing
/-!
# Which objects may be shared
-/
namespace Pyof.Threads

/-- In a message of class `m` with attributes `vs`, the value `v` is at the place `p`, which is typed by the class attribute `a`:
an attribute of the message, an item of a list, or an attribute of such an object. -/
inductive Place (m : PMsg) (vs : List Val) : Path → PAttr → Val → Prop
  | attr {j : Nat} {n : String} {a : PAttr} {v : Val} : m.body[j]? = some (n, a) → n ≠ "actions_len" → vs[j + 1]? = some v → Place m vs [j + 1] a v
  | item {p : Path} {isItem : Val → Bool} {it : PAttr} {f : Bool} {xs : List Val} {k : Nat} {v : Val} : Place m vs p (listP isItem it) (.list f xs) →
      xs[k]? = some v → (∀ g ys, v ≠ .list g ys) → Place m vs (p ++ [k]) it v
  | bareItem {p : Path} {isItem : Val → Bool} {it : PAttr} {xs : List Val} {k : Nat} {v : Val} : Place m vs p (bareListP isItem it) (.list true xs) →
      xs[k]? = some v → Place m vs (p ++ [k]) it v
  /-- an attribute of an instruction, such as its actions -/
  | field {p : Path} {a : Attr} {cs : List PCls} {c c' : String} {us : List Val} {fs : PFields} {i j : Nat} {n : String} {b : PAttr} {v : Val} :
      Place m vs p (oneOf a cs) (.obj c us) → cs.find? (fun k => k.name == c) = some (autoCls c' fs i) → fs[j]? = some (n, b) → j ≠ i →
      us[j]? = some v → Place m vs (p ++ [j]) b v
  /-- the TLVs of a match -/
  | tlvs {p : Path} {us : List Val} {v : Val} : Place m vs p matchP (.obj "04.Match" us) → us[2]? = some v → Place m vs (p ++ [2]) oxmsP v
  /-- the TLV of an ActionSetField -/
  | tlv {p : Path} {t l v : Val} : Place m vs p actionP (.obj "04.ActionSetField" [t, l, v]) → Place m vs (p ++ [2]) oxmP v
  /-- an attribute of a bucket, such as its actions -/
  | bucket {p : Path} {us : List Val} {j : Nat} {n : String} {b : PAttr} {v : Val} : Place m vs p (oneOf V04.bucket [bucketCls]) (.obj "04.Bucket" us) →
      bucketFieldsP[j]? = some (n, b) → us[j]? = some v → Place m vs (p ++ [j]) b v

/-- `p` and `q` are places for the same kind of value, and the same value is at both. -/
def Sharable (ms : List (PMsg × List Val)) (p q : Path) : Prop :=
  ∃ i j p' q' e e' a v, p = i :: p' ∧ q = j :: q' ∧ ms[i]? = some e ∧ ms[j]? = some e' ∧ Place e.1 e.2 p' a v ∧ Place e'.1 e'.2 q' a v

/-- A message that has all its attributes. -/
def Whole (e : PMsg × List Val) : Prop := e.2.length = e.1.body.length + 1

/-- Thread `k` packs message `idx[k]`.  No ActionSetField that has to be padded is in the messages of two threads; two threads that pack the same
message have all of it in common. -/
def PadsApart (pairs : List (Path × Path)) (w : Val) (idx : List Nat) : Prop :=
  ∀ (k k' i i' : Nat) p p', idx[k]? = some i → idx[k']? = some i' → k ≠ k' → Same pairs (i :: p) (i' :: p') → ¬ Padded w (i :: p)

/-- Messages are packed in rounds.  In each, some threads are started, each with one of the messages; they run for a while and are then given up,
each finished or not. -/
inductive Rounds (pairs : List (Path × Path)) (ms : List (PMsg × List Val)) : Val → Prop
  | start : Rounds pairs ms (world ms)
  | round {w w' : Val} {idx : List Nat} {ts : List (Prog (Res Bytes))} : Rounds pairs ms w → (∀ i ∈ idx, i < ms.length) →
      PadsApart pairs (world ms) idx → SRuns pairs (idx.map (packing ms), w) (ts, w') → Rounds pairs ms w'

/-- A thread that can go on. -/
def CanSStep {α : Type} (pairs : List (Path × Path)) (t : Prog α) (w : Val) : Prop := ∃ c, SStep pairs (t, w) c

end Pyof.Threads
