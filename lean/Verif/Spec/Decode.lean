import Verif.Model.DecodeNet
/-!
# What is asked of objects that several threads decode into
-/
namespace Pyof.Decode

/-- In the memory `w` the object `o` has the dictionary `d`. -/
def Has (w : Mem) (o : Nat) (d : Dict) : Prop :=
  (d.map (·.1)).Nodup ∧ ∃ refs, w.objs[o]? = some refs ∧ refs.map (fun r => (r.1, w.heap[r.2]?)) = d.map fun p => (p.1, some p.2)

instance (w : Mem) (o : Nat) (d : Dict) : Decidable (Has w o d) :=
  match h : w.objs[o]? with
  | none => isFalse fun x => by obtain ⟨_, refs, h1, _⟩ := x; rw [h] at h1; cases h1
  | some refs => decidable_of_iff ((d.map (·.1)).Nodup ∧ refs.map (fun r => (r.1, w.heap[r.2]?)) = d.map fun p => (p.1, some p.2))
      ⟨fun x => ⟨x.1, refs, h, x.2⟩, fun x => by obtain ⟨h1, refs', h2, h3⟩ := x; rw [h] at h2; cases h2; exact ⟨h1, h3⟩⟩

/-- All message classes. -/
def classes : List MsgCls := (libs.flatMap (·.classes)).map (·.2)

/-- A call of `unpack(buff, offset)` on the object `o` of the class `cls`.  `mid` and `junk` are the values an attribute has while it is decoded, and when
that has failed: any values. -/
structure Job where
  cls : Cls
  o : Nat
  buff : Bytes
  offset : Nat
  mid : String → List Val
  junk : Val

/-- The steps of the call. -/
def Job.steps (j : Job) : Steps Unit := j.cls.steps j.o j.mid j.junk j.buff j.offset

/-- The call on its own, on an object with the dictionary `d`: what it returns or raises, and the dictionary afterwards. -/
def Job.alone (j : Job) (d : Dict) : Res Unit × Dict := (j.cls.method j.junk j.buff j.offset).run d

/-- The call leaves the attribute `n` the same whatever the object held before. -/
def Job.Overwrites (j : Job) (n : String) : Prop := ∀ d d', (j.alone d).2.lookup n = (j.alone d').2.lookup n

/-- The class is one of those of the library. -/
def Cls.Known : Cls → Prop
  | .message m => m ∈ classes
  | _ => True

/-- The call is on an object of its class: there it has all attributes. -/
def Job.Fits (j : Job) (w : Mem) : Prop := j.cls.Known ∧ ∃ d, Has w j.o d ∧ ∀ n ∈ j.cls.names, n ∈ d.map (·.1)

/-- Different calls are on different objects, except those of classes whose `unpack` only stores into the object. -/
def Apart (js : List Job) : Prop :=
  ∀ (i k : Nat) j j', js[i]? = some j → js[k]? = some j' → j.o = j'.o → i = k ∨ (j.cls.stores ∧ j'.cls.stores)

end Pyof.Decode
