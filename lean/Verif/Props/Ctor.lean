import Verif.Model.Ctor
import Verif.Lemmas.Truth
import Verif.Props.Messages
import Verif.Props.Structures
/-!
# C60: what a constructor is given is what is sent
-/
namespace Pyof.Props
open Pyof Pyof.Spec

/-- A call with positional arguments `pos` and keyword arguments `kw` passes `v` for the parameter `n`; `names` are the parameters in
order. -/
def Passed (names : List String) (pos : List Val) (kw : List (String × Val)) (n : String) (v : Val) : Prop :=
  (n, v) ∈ kw ∨ ∃ i : Nat, names[i]? = some n ∧ pos[i]? = some v

/-- The attribute `n` of an object with the attributes `names`. -/
def attrOf (names : List String) (vs : List Val) (n : String) : Option Val := (names.zip vs).lookup n

/-- The value `v` an attribute `n` should hold after a call that passes arguments as `passed` tells.  An argument is stored as it is,
except that some constructors replace a false one, or `None`, by an empty list or structure of their own (`init`). -/
inductive Stored (c : Ctor) (passed : String → Val → Prop) (n : String) : Val → Prop
  | given {p v} : p ∈ c.params → p.name = n → passed n v → (p.init = .given ∨ ¬ Falsy v) → Stored c passed n v
  | replaced {p v d} : p ∈ c.params → p.name = n → passed n v → p.init = .orElse d → Falsy v → Stored c passed n d
  | unlessNone {p v d} : p ∈ c.params → p.name = n → passed n v → p.init = .unlessNone d → v ≠ .none → Stored c passed n v
  | isNone {p d} : p ∈ c.params → p.name = n → passed n .none → p.init = .unlessNone d → Stored c passed n d
  | dflt {p} : p ∈ c.params → p.name = n → (∀ v, ¬ passed n v) → Stored c passed n (p.init.apply p.dflt)
  | fixed {v} : (n, some v) ∈ c.attrs → Stored c passed n v

private theorem lookup_of_mem {α : Type} {l : List (String × α)} (hn : (l.map (·.1)).Nodup) {k a} (h : (k, a) ∈ l) :
    l.lookup k = some a := by
  induction l with
  | nil => cases h
  | cons p l ih =>
    obtain ⟨k', a'⟩ := p
    simp only [List.map_cons, List.nodup_cons] at hn
    simp only [List.lookup_cons]
    rcases List.mem_cons.mp h with h1 | h1
    · cases h1; simp
    · have : k ≠ k' := by
        rintro rfl
        exact hn.1 (List.mem_map.mpr ⟨(k, a), h1, rfl⟩)
      rw [beq_eq_false_iff_ne.mpr this]
      exact ih hn.2 h1

private theorem mem_of_lookup {α : Type} {l : List (String × α)} {k a} (h : l.lookup k = some a) : (k, a) ∈ l := by
  induction l with
  | nil => cases h
  | cons p l ih =>
    obtain ⟨k', a'⟩ := p
    rw [List.lookup_cons] at h
    by_cases e : k = k'
    · subst e; simp at h; subst h; simp
    · rw [beq_eq_false_iff_ne.mpr e] at h
      exact List.mem_cons_of_mem _ (ih h)

private theorem nodup_inj {l : List String} (hn : l.Nodup) {i j : Nat} (hi : i < l.length) (hj : j < l.length) (h : l[i] = l[j]) :
    i = j := by
  rw [List.nodup_iff_pairwise_ne, List.pairwise_iff_getElem] at hn
  rcases Nat.lt_trichotomy i j with h1 | h1 | h1
  · exact absurd h (hn i j hi hj h1)
  · exact h1
  · exact absurd h.symm (hn j i hj hi h1)

private theorem bind_ok {ps pos kw vals} (h : bindArgs ps pos kw = .ok vals) :
    pos.length ≤ ps.length ∧ (∀ a ∈ kw, ∃ p ∈ ps.drop pos.length, p.name = a.1) ∧
      vals = pos ++ (ps.drop pos.length).map fun p => match kw.lookup p.name with | some v => v | none => p.dflt := by
  simp only [bindArgs] at h
  split at h
  · cases h
  · split at h
    · rename_i h1 h2
      cases h
      refine ⟨by omega, fun a ha => ?_, rfl⟩
      have := List.all_eq_true.mp h2 a ha
      rw [List.any_eq_true] at this
      obtain ⟨p, hp, he⟩ := this
      exact ⟨p, hp, by simpa using he⟩
    · cases h

private theorem bind_length {ps pos kw vals} (h : bindArgs ps pos kw = .ok vals) : vals.length = ps.length := by
  obtain ⟨h1, _, rfl⟩ := bind_ok h
  simp; omega

/-- The value bound to the `i`-th parameter. -/
theorem bind_get {ps : List Param} {pos kw vals} (h : bindArgs ps pos kw = .ok vals) (hn : (ps.map (·.name)).Nodup)
    (hk : (kw.map (·.1)).Nodup) {i : Nat} {p : Param} (hp : ps[i]? = some p) :
    ∃ v, vals[i]? = some v ∧ (∀ w, Passed (ps.map (·.name)) pos kw p.name w → w = v) ∧
      ((∀ w, ¬ Passed (ps.map (·.name)) pos kw p.name w) → v = p.dflt) := by
  obtain ⟨h1, h2, rfl⟩ := bind_ok h
  have hi : i < ps.length := (List.getElem?_eq_some_iff.mp hp).1
  have inj : ∀ {j : Nat} {n}, (ps.map (·.name))[j]? = some n → n = p.name → j = i := by
    intro j n hj he
    subst he
    have hj' := List.getElem?_eq_some_iff.mp hj
    have hi' : (ps.map (·.name))[i]? = some p.name := by simp [hp]
    have hi'' := List.getElem?_eq_some_iff.mp hi'
    exact nodup_inj hn hj'.1 hi''.1 (hj'.2.trans hi''.2.symm)
  by_cases hlt : i < pos.length
  · refine ⟨pos[i], by rw [List.getElem?_append_left hlt, List.getElem?_eq_getElem hlt], ?_, ?_⟩
    · rintro w (hw | ⟨j, hj, hw⟩)
      · exfalso
        obtain ⟨q, hq, he⟩ := h2 _ hw
        obtain ⟨k, hk1⟩ := List.mem_iff_getElem?.mp hq
        rw [List.getElem?_drop] at hk1
        have := inj (j := pos.length + k) (n := q.name) (by simp [hk1]) he
        omega
      · cases inj hj rfl
        rw [List.getElem?_eq_getElem hlt] at hw
        exact (Option.some.inj hw).symm
    · intro hno
      exact absurd (.inr ⟨i, by simp [hp], List.getElem?_eq_getElem hlt⟩) (hno pos[i])
  · have hge : pos.length ≤ i := by omega
    refine ⟨match kw.lookup p.name with | some v => v | none => p.dflt, ?_, ?_, ?_⟩
    · rw [List.getElem?_append_right hge, List.getElem?_map, List.getElem?_drop, show pos.length + (i - pos.length) = i by omega, hp]
      rfl
    · rintro w (hw | ⟨j, hj, hw⟩)
      · rw [lookup_of_mem hk hw]
      · cases inj hj rfl
        rw [List.getElem?_eq_none hge] at hw
        cases hw
    · intro hno
      cases hl : kw.lookup p.name with
      | none => rfl
      | some v => exact absurd (.inl (mem_of_lookup hl)) (hno v)

private theorem find_zip {ps : List Param} {vals : List Val} (hn : (ps.map (·.name)).Nodup) {i : Nat} {p v} (hp : ps[i]? = some p)
    (hv : vals[i]? = some v) : (ps.zip vals).find? (fun q => q.1.name == p.name) = some (p, v) := by
  induction ps generalizing vals i with
  | nil => cases hp
  | cons a l ih =>
    cases vals with
    | nil => cases hv
    | cons w ws =>
      simp only [List.map_cons, List.nodup_cons] at hn
      cases i with
      | zero => simp only [List.getElem?_cons_zero, Option.some.injEq] at hp hv; subst hp hv; simp
      | succ i =>
        simp only [List.getElem?_cons_succ] at hp hv
        have : a.name ≠ p.name := by
          intro e
          exact hn.1 (e ▸ List.mem_map.mpr ⟨p, List.mem_of_getElem? hp, rfl⟩)
        rw [List.zip_cons_cons, List.find?_cons_of_neg (by simpa using this)]
        exact ih hn.2 hp hv

/-- A constructor as they all are: distinct parameters, each with an attribute of its name and no other value for it. -/
structure Plain (c : Ctor) : Prop where
  params : (("xid" :: c.params.map (·.name))).Nodup
  attrs : (c.attrs.map (·.1)).Nodup
  stored : ∀ p ∈ c.params, (p.name, none) ∈ c.attrs
  rest : ∀ a ∈ c.attrs, a.2 = none → a.1 ∈ c.params.map (·.name)

private theorem fill_lookup {c : Ctor} (hc : Plain c) {vals : List Val} {i : Nat} {p v} (hp : c.params[i]? = some p)
    (hv : vals[i]? = some v) : attrOf (c.attrs.map (·.1)) (c.fill vals) p.name = some (p.init.apply v) := by
  have hf := find_zip (List.nodup_cons.mp hc.params).2 hp hv
  have hm := hc.stored p (List.mem_of_getElem? hp)
  have hn := hc.attrs
  simp only [attrOf, Ctor.fill]
  generalize c.attrs = l at hm hn
  induction l with
  | nil => cases hm
  | cons a l ih =>
    obtain ⟨k, b⟩ := a
    simp only [List.map_cons, List.nodup_cons] at hn
    simp only [List.map_cons, List.zip_cons_cons, List.lookup_cons]
    rcases List.mem_cons.mp hm with h | h
    · cases h
      simp [hf]
    · have : p.name ≠ k := by
        rintro rfl
        exact hn.1 (List.mem_map.mpr ⟨_, h, rfl⟩)
      rw [beq_eq_false_iff_ne.mpr this]
      exact ih h hn.2

private theorem fill_fixed {c : Ctor} (hc : Plain c) {vals : List Val} {n v} (h : (n, some v) ∈ c.attrs) :
    attrOf (c.attrs.map (·.1)) (c.fill vals) n = some v := by
  have hn := hc.attrs
  simp only [attrOf, Ctor.fill]
  generalize c.attrs = l at h hn
  induction l with
  | nil => cases h
  | cons a l ih =>
    obtain ⟨k, b⟩ := a
    simp only [List.map_cons, List.nodup_cons] at hn
    simp only [List.map_cons, List.zip_cons_cons, List.lookup_cons]
    rcases List.mem_cons.mp h with h1 | h1
    · cases h1
      simp
    · have : n ≠ k := by
        rintro rfl
        exact hn.1 (List.mem_map.mpr ⟨_, h1, rfl⟩)
      rw [beq_eq_false_iff_ne.mpr this]
      exact ih h1 hn.2

theorem fill_holds {c : Ctor} (hc : Plain c) {vals : List Val} {passed : String → Val → Prop}
    (hv : ∀ (i : Nat) p, c.params[i]? = some p → ∃ v, vals[i]? = some v ∧ (∀ w, passed p.name w → w = v) ∧
      ((∀ w, ¬ passed p.name w) → v = p.dflt)) {n w} (h : Stored c passed n w) :
    attrOf (c.attrs.map (·.1)) (c.fill vals) n = some w := by
  have key : ∀ p ∈ c.params, ∃ v, attrOf (c.attrs.map (·.1)) (c.fill vals) p.name = some (p.init.apply v) ∧
      (∀ w, passed p.name w → w = v) ∧ ((∀ w, ¬ passed p.name w) → v = p.dflt) := by
    intro p hp
    obtain ⟨i, hi⟩ := List.mem_iff_getElem?.mp hp
    obtain ⟨v, h1, h2, h3⟩ := hv i p hi
    exact ⟨v, fill_lookup hc hi h1, h2, h3⟩
  cases h with
  | @given p _ hp hn hw ht =>
    subst hn
    obtain ⟨v, h1, h2, _⟩ := key _ hp
    cases h2 _ hw
    rw [h1]
    rcases ht with ht | ht
    · rw [ht]; rfl
    · rw [← true_iff] at ht
      cases hi : p.init with
      | given => rfl
      | orElse d => simp [Init.apply, ht]
      | unlessNone d =>
        have : w ≠ .none := by rintro rfl; cases ht
        simp [Init.apply, this]
  | replaced hp hn hw hi ht =>
    subst hn
    obtain ⟨v, h1, h2, _⟩ := key _ hp
    cases h2 _ hw
    rw [h1, hi]
    simp [Init.apply, (falsy_iff _).mpr ht]
  | unlessNone hp hn hw hi ht =>
    subst hn
    obtain ⟨v, h1, h2, _⟩ := key _ hp
    cases h2 _ hw
    rw [h1, hi]
    simp [Init.apply, ht]
  | isNone hp hn hw hi =>
    subst hn
    obtain ⟨v, h1, h2, _⟩ := key _ hp
    cases h2 _ hw
    rw [h1, hi]
    simp [Init.apply]
  | dflt hp hn hw =>
    subst hn
    obtain ⟨v, h1, _, h3⟩ := key _ hp
    rw [h1, h3 hw]
  | fixed hm => exact fill_fixed hc hm

def isPlain (c : Ctor) : Bool :=
  decide ("xid" :: c.params.map (·.name)).Nodup && decide (c.attrs.map (·.1)).Nodup &&
  c.params.all (fun p => decide ((p.name, none) ∈ c.attrs)) &&
  c.attrs.all (fun a => a.2.isSome || decide (a.1 ∈ c.params.map (·.name))) &&
  (match c.auto with
   | none => true
   | some (_, i) => decide ((c.attrs.map (·.1))[i]? = some "length") && c.params.all (fun p => p.name != "length"))

theorem plain_of {c : Ctor} (h : isPlain c = true) : Plain c := by
  simp only [isPlain, Bool.and_eq_true, decide_eq_true_eq, List.all_eq_true, Bool.or_eq_true, Option.isSome_iff_exists] at h
  exact ⟨h.1.1.1.1, h.1.1.1.2, h.1.1.2, fun a ha hn => (h.1.2 a ha).resolve_left (by rintro ⟨_, h⟩; simp [hn] at h)⟩

/-- The constructors of the messages, and those of the structures, of both versions. -/
def messageCtors : List Ctor := V01.New.messages ++ V04.New.messages
def structureCtors : List Ctor := V01.New.structures ++ V04.New.structures

private theorem all_plain : (messageCtors ++ structureCtors).all isPlain = true := by decide +kernel

private theorem plain {c : Ctor} (h : c ∈ messageCtors ∨ c ∈ structureCtors) : Plain c :=
  plain_of (List.all_eq_true.mp all_plain c (List.mem_append.mpr h))

/-- The names a call of a message constructor can use, in order. -/
def msgParams (c : Ctor) : List String := "xid" :: c.params.map (·.name)

private theorem newMessage_ok {c : Ctor} {m r pos kw v} (h : c.newMessage m r pos kw = .ok v) :
    ∃ xid vals, bindArgs (⟨"xid", .none, .given⟩ :: c.params) pos kw = .ok (xid :: vals) ∧
      v = .obj c.cls (newHeader m xid r :: c.fill vals) := by
  simp only [Ctor.newMessage] at h
  split at h
  · rename_i xid vals hb
    cases h
    exact ⟨xid, vals, hb, rfl⟩
  · cases h
  · cases h

/-- C60.  Every attribute of a new message holds the argument passed for the parameter of its name, or the default, or, if it has no
parameter, its fixed value. -/
theorem C60_message {c : Ctor} (hc : c ∈ messageCtors) {m : MsgCls} {r : Nat} {pos : List Val} {kw : List (String × Val)}
    (hk : (kw.map (·.1)).Nodup) {cls : String} {hdr : Val} {vs : List Val} (h : c.newMessage m r pos kw = .ok (.obj cls (hdr :: vs)))
    {n : String} {v : Val} (hs : Stored c (Passed (msgParams c) pos kw) n v) : attrOf (c.attrs.map (·.1)) vs n = some v := by
  obtain ⟨xid, vals, hb, he⟩ := newMessage_ok h
  cases he
  have hp := plain (.inl hc)
  refine fill_holds hp (fun i p hi => ?_) hs
  exact bind_get hb (i := i + 1) (p := p) (by simpa using hp.params) hk (by simpa using hi)

/-- C60.  The transaction id of a new message is the one passed, or the random number if none or `None` is passed. -/
theorem C60_xid {c : Ctor} (hc : c ∈ messageCtors) {m : MsgCls} {r : Nat} {pos : List Val} {kw : List (String × Val)}
    (hk : (kw.map (·.1)).Nodup) {cls : String} {hdr : Val} {vs : List Val} (h : c.newMessage m r pos kw = .ok (.obj cls (hdr :: vs))) :
    ∃ x, hdr = .obj (hdrName m.ver) [.ub 1 (.int m.ver), .enum m.code, .none, x] ∧
      (∀ w, Passed (msgParams c) pos kw "xid" w → w ≠ .none → x = w) ∧
      ((Passed (msgParams c) pos kw "xid" .none ∨ ∀ w, ¬ Passed (msgParams c) pos kw "xid" w) → x = .int r) := by
  obtain ⟨xid, vals, hb, he⟩ := newMessage_ok h
  cases he
  obtain ⟨v, h1, h2, h3⟩ := bind_get hb (i := 0) (p := ⟨"xid", .none, .given⟩) (by simpa using (plain (.inl hc)).params) hk rfl
  cases Option.some.inj h1
  refine ⟨_, rfl, fun w hw hn => ?_, ?_⟩
  · have := h2 w hw
    subst this
    cases w <;> first | rfl | exact absurd rfl hn
  · rintro (hw | hw)
    · cases h2 _ hw; rfl
    · rw [h3 hw]; rfl

example := C60_xid (c := V04.New.setConfig) (by simp [messageCtors, V04.New.messages]) (m := V04.setConfig) (r := 5) (pos := [.int 9]) (kw := []) (by decide)
  (show _ = Except.ok (Val.obj "04.SetConfig" (newHeader V04.setConfig (.int 9) 5 :: [.enum 0, .enum 65535])) by decide +kernel)

/-- C60.  Every attribute of a new structure holds what it should, except that a computed `length` replaces the fixed one. -/
theorem C60_structure {c : Ctor} (hc : c ∈ structureCtors) {pos : List Val} {kw : List (String × Val)} (hk : (kw.map (·.1)).Nodup)
    {cls : String} {vs : List Val} (h : c.new pos kw = .ok (.obj cls vs)) {n : String} {v : Val}
    (hs : Stored c (Passed (c.params.map (·.name)) pos kw) n v) (hn : c.auto.isSome → n ≠ "length") :
    attrOf (c.attrs.map (·.1)) vs n = some v := by
  have hp := plain (.inr hc)
  have ha := List.all_eq_true.mp all_plain c (List.mem_append.mpr (.inr hc))
  simp only [Ctor.new] at h
  split at h
  · cases h
  · rename_i vals hb
    have key := fill_holds hp (fun i p hi => bind_get hb (List.nodup_cons.mp hp.params).2 hk hi) hs
    split at h
    · cases h; exact key
    · rename_i fs i hau
      simp only [isPlain, hau, Bool.and_eq_true, decide_eq_true_eq] at ha
      split at h
      · cases h
      · rename_i ws hw
        cases h
        simp only [withLength] at hw
        split at hw
        · cases hw
        · rename_i hz
          cases hw
          have hl := ha.2.1
          have hne := hn (by simp [hau])
          generalize c.fill vals = us at *
          generalize c.attrs.map (·.1) = ns at *
          clear hb hs ha hp hau hz
          simp only [attrOf] at key ⊢
          induction ns generalizing us i with
          | nil => cases key
          | cons k ns ih =>
            cases us with
            | nil => cases key
            | cons u us =>
              cases i with
              | zero =>
                cases Option.some.inj hl
                simp only [List.set_cons_zero, List.zip_cons_cons, List.lookup_cons] at key ⊢
                rw [beq_eq_false_iff_ne.mpr hne] at key ⊢
                exact key
              | succ i =>
                simp only [List.set_cons_succ, List.zip_cons_cons, List.lookup_cons] at key ⊢
                split
                · rename_i he; rw [he] at key; exact key
                · rename_i he; rw [he] at key
                  exact ih _ _ hl key

/-- C60.  A call is accepted exactly when there are not too many positional arguments and each keyword is the name of a parameter that
has no positional argument; otherwise it is a `TypeError`. -/
theorem C60_accepted {c : Ctor} {m : MsgCls} {r : Nat} {pos : List Val} {kw : List (String × Val)} :
    let ok := pos.length ≤ (msgParams c).length ∧ ∀ a ∈ kw, a.1 ∈ (msgParams c).drop pos.length
    (ok → ∃ v, c.newMessage m r pos kw = .ok v) ∧ (¬ ok → c.newMessage m r pos kw = .error .type) := by
  refine ⟨?_, ?_⟩
  · rintro ⟨h1, h2⟩
    have : ∃ vals, bindArgs (⟨"xid", .none, .given⟩ :: c.params) pos kw = .ok vals := by
      simp only [bindArgs]
      rw [if_neg (by simp [msgParams] at h1 ⊢; omega), if_pos]
      · exact ⟨_, rfl⟩
      · rw [List.all_eq_true]
        intro a ha
        have := h2 a ha
        rw [List.any_eq_true]
        have e : msgParams c = (⟨"xid", .none, .given⟩ :: c.params : List Param).map (·.name) := by simp [msgParams]
        rw [e, ← List.map_drop, List.mem_map] at this
        obtain ⟨p, hp, he⟩ := this
        exact ⟨p, hp, by simpa using he⟩
    obtain ⟨vals, hb⟩ := this
    cases vals with
    | nil => simpa using bind_length hb
    | cons x vals => exact ⟨.obj c.cls (newHeader m x r :: c.fill vals), by simp only [Ctor.newMessage, hb]⟩
  · intro hno
    have : bindArgs (⟨"xid", .none, .given⟩ :: c.params) pos kw = .error .type := by
      cases hb : bindArgs (⟨"xid", .none, .given⟩ :: c.params) pos kw with
      | error e =>
        simp only [bindArgs] at hb
        split at hb
        · cases hb; rfl
        · split at hb
          · cases hb
          · cases hb; rfl
      | ok vals =>
        obtain ⟨h1, h2, _⟩ := bind_ok hb
        refine absurd ⟨by simpa [msgParams] using h1, fun a ha => ?_⟩ hno
        obtain ⟨p, hp, he⟩ := h2 a ha
        have e : msgParams c = (⟨"xid", .none, .given⟩ :: c.params : List Param).map (·.name) := by simp [msgParams]
        rw [e, ← List.map_drop, List.mem_map]
        exact ⟨p, hp, he⟩
    simp only [Ctor.newMessage, this]

example := (C60_accepted (c := V04.New.setConfig) (m := V04.setConfig) (r := 5) (pos := [.int 9]) (kw := [("flags", .int 1)])).1 (by decide +kernel)
example := (C60_accepted (c := V04.New.setConfig) (m := V04.setConfig) (r := 5) (pos := [.int 9, .int 1]) (kw := [("flags", .int 1)])).2 (by decide +kernel)

/-- The messages whose packet is the sequence of their fields: class name, version, type number, fields. -/
def fieldMsgs : List (String × Nat × Nat × FieldFmts) :=
  Spec.V01.plainMsgs.map (fun m => (m.1, 1, m.2.1, m.2.2)) ++ Spec.V04.plainMsgs.map (fun m => (m.1, 4, m.2.1, m.2.2))

private theorem field_names : fieldMsgs.all (fun s => messageCtors.all fun c =>
    c.cls != s.1 || decide (c.attrs.map (·.1) = s.2.2.2.map (·.1))) = true := by decide +kernel

private theorem field_msg {name ver code fs} (h : (name, ver, code, fs) ∈ fieldMsgs) :
    ∃ s ∈ messages, s.name = name ∧ s.ver = ver ∧ s.code = code ∧ s.fmt = struct name fs := by
  rcases List.mem_append.mp h with h | h
  · obtain ⟨m, hm, he⟩ := List.mem_map.mp h
    cases he
    exact ⟨Spec.V01.plain m.1 m.2.1 m.2.2, List.mem_append_left _ (List.mem_append_left _ (List.mem_map.mpr ⟨m, hm, rfl⟩)), rfl, rfl, rfl, rfl⟩
  · obtain ⟨m, hm, he⟩ := List.mem_map.mp h
    cases he
    exact ⟨Spec.V04.plain m.1 m.2.1 m.2.2, List.mem_append_right _ (List.mem_append_left _ (List.mem_map.mpr ⟨m, hm, rfl⟩)), rfl, rfl, rfl, rfl⟩

private theorem denAll_of_attrs {fs : FieldFmts} {vs : List Val} {ds : List Data} (hn : (fs.map (·.1)).Nodup) (hl : vs.length = fs.length)
    (hd : ds.length = fs.length)
    (h : ∀ (i : Nat) n f d, fs[i]? = some (n, f) → ds[i]? = some d → ∃ v, attrOf (fs.map (·.1)) vs n = some v ∧ f.den v = some d) :
    denAll fs vs = some ds := by
  induction fs generalizing vs ds with
  | nil =>
    cases vs <;> cases ds <;> first | rfl | simp at hl hd
  | cons p fs ih =>
    obtain ⟨n, f⟩ := p
    cases vs with
    | nil => simp at hl
    | cons v vs =>
      cases ds with
      | nil => simp at hd
      | cons d ds =>
        simp only [List.map_cons, List.nodup_cons] at hn
        obtain ⟨v', h1, h2⟩ := h 0 n f d rfl rfl
        simp only [attrOf, List.map_cons, List.zip_cons_cons, List.lookup_cons, beq_self_eq_true, Option.some.injEq] at h1
        subst h1
        have := ih (vs := vs) (ds := ds) hn.2 (by simpa using hl) (by simpa using hd) (fun i n' f' d' hi hd' => by
          obtain ⟨w, h3, h4⟩ := h (i + 1) n' f' d' (by simpa using hi) (by simpa using hd')
          refine ⟨w, ?_, h4⟩
          simp only [attrOf, List.map_cons, List.zip_cons_cons, List.lookup_cons] at h3 ⊢
          have hne : n' ≠ n := by
            rintro rfl
            exact hn.1 (List.mem_map.mpr ⟨_, List.mem_of_getElem? hi, rfl⟩)
          rw [beq_eq_false_iff_ne.mpr hne] at h3
          exact h3)
        simp only [denAll, h2, this]

/-- C60.  Arguments to bytes: if the values the arguments leave in the fields have contents `ds`, and `x` is the number of the
transaction id, then packing the new message gives the packet of `ds`. -/
theorem C60_sent {name : String} {ver code : Nat} {fs : FieldFmts} (hm : (name, ver, code, fs) ∈ fieldMsgs) {c : Ctor}
    (hc : c ∈ messageCtors) (hn : c.cls = name) {m : MsgCls} (hcls : libs.findSome? (fun l => l.named name) = some m) {r : Nat}
    {pos : List Val} {kw : List (String × Val)} (hk : (kw.map (·.1)).Nodup) {v : Val} (h : c.newMessage m r pos kw = .ok v)
    {x : Nat} (hx : (∃ w, Passed (msgParams c) pos kw "xid" w ∧ numOf w = some x) ∨ (∀ w, ¬ Passed (msgParams c) pos kw "xid" w) ∧ x = r)
    {ds : List Data} (hl : ds.length = fs.length)
    (hd : ∀ (i : Nat) n f d, fs[i]? = some (n, f) → ds[i]? = some d →
      ∃ a, Stored c (Passed (msgParams c) pos kw) n a ∧ f.den a = some d) (p : Bytes) :
    pyPack libs v = .ok p ↔
      ∃ body, encAll fs ds = some body ∧ 8 + body.length < 65536 ∧ x < 4294967296 ∧ p = packet ver code x body := by
  obtain ⟨s, hs, rfl, rfl, rfl, hf⟩ := field_msg hm
  obtain ⟨l, m', k⟩ := known hs
  cases Option.some.inj (hcls.symm.trans k.named)
  have hnames : c.attrs.map (·.1) = fs.map (·.1) := by
    have h1 := List.all_eq_true.mp field_names _ hm
    have h2 := List.all_eq_true.mp h1 c hc
    simpa [hn] using h2
  obtain ⟨xid, vals, hb, rfl⟩ := newMessage_ok h
  have hden : denAll fs (c.fill vals) = some ds := by
    refine denAll_of_attrs (hnames ▸ (plain (.inl hc)).attrs) ?_ hl (fun i n f d h1 h2 => ?_)
    · have := congrArg List.length hnames
      simpa [Ctor.fill] using this
    · obtain ⟨a, h3, h4⟩ := hd i n f d h1 h2
      exact ⟨a, hnames ▸ C60_message hc hk h h3, h4⟩
  obtain ⟨y, h1, h2, h3⟩ := C60_xid hc hk h
  have hy : numOf y = some x := by
    rcases hx with ⟨w, hw, hx⟩ | ⟨hw, hx⟩
    · rw [h2 w hw (by rintro rfl; cases hx)]
      exact hx
    · rw [h3 (.inr hw), hx]
      simp [numOf]
  have hmsg : msgDen s (.obj s.name (newHeader m xid r :: c.fill vals)) = some (x, .record ds) := by
    simp only [msgDen, if_true, hf, struct, hden, Option.map_some]
    rw [h1, hdrDen, if_pos ⟨by rw [k.ok.hdr, k.ok.ver], .inr (by rw [k.ok.ver]; simp [numOf]), by rw [k.ok.code]; simp [numOf]⟩, hy]
  rw [hn]
  have := (k.pack hmsg).ok p
  rw [hf] at this
  exact this

/-- The model of each structure class as attribute, with its constructor. -/
def structureAttrs : List (Ctor × Attr) :=
  [(V01.New.actionHeader, V01.action), (V01.New.phyPort, V01.phyPort), (V01.New.queuePropHeader, V01.queuePropHeader),
   (V01.New.packetQueue, V01.packetQueue), (V01.New.queuePropMinRate, V01.queuePropMinRate),
   (V01.New.aggregateStatsReply, V01.aggregateStatsReply), (V01.New.aggregateStatsRequest, V01.aggregateStatsRequest),
   (V01.New.descStats, V01.descStats), (V01.New.flowStats, V01.flowStats), (V01.New.flowStatsRequest, V01.flowStatsRequest),
   (V01.New.portStats, V01.portStats), (V01.New.portStatsRequest, V01.portStatsRequest), (V01.New.queueStats, V01.queueStats),
   (V01.New.queueStatsRequest, V01.queueStatsRequest), (V01.New.tableStats, V01.tableStats),
   (V01.New.vendorStats, V01.vendorStats), (V04.New.actionHeader, V04.action), (V04.New.instruction, V04.instruction),
   (V04.New.oxmTLV, V04.oxm), (V04.New.«match», V04.«match»), (V04.New.oxmExperimenterHeader, V04.oxmExperimenter),
   (V04.New.port, V04.port), (V04.New.queuePropHeader, V04.queuePropHeader), (V04.New.packetQueue, V04.packetQueue),
   (V04.New.queuePropExperimenter, V04.queuePropExperimenter), (V04.New.queuePropMaxRate, V04.queuePropMaxRate),
   (V04.New.queuePropMinRate, V04.queuePropMinRate), (V04.New.bucket, V04.bucket), (V04.New.bucketCounter, V04.bucketCounter),
   (V04.New.experimenterMultipartHeader, V04.experimenterMultipart), (V04.New.property, V04.property),
   (V04.New.tableFeatures, V04.tableFeatures), (V04.New.meterBandHeader, V04.band),
   (V04.New.aggregateStatsReply, V04.aggregateStatsReply), (V04.New.desc, V04.desc), (V04.New.flowStats, V04.flowStats),
   (V04.New.portStats, V04.portStats), (V04.New.queueStats, V04.queueStats), (V04.New.groupDescStats, V04.groupDescStats),
   (V04.New.groupFeatures, V04.groupFeatures), (V04.New.groupStats, V04.groupStats), (V04.New.meterConfig, V04.meterConfig),
   (V04.New.meterFeatures, V04.meterFeatures), (V04.New.bandStats, V04.bandStats), (V04.New.meterStats, V04.meterStats),
   (V04.New.tableStats, V04.tableStats), (V04.New.aggregateStatsRequest, V04.aggregateStatsRequest),
   (V04.New.flowStatsRequest, V04.flowStatsRequest), (V04.New.portStatsRequest, V04.portStatsRequest),
   (V04.New.queueStatsRequest, V04.queueStatsRequest), (V04.New.groupStatsRequest, V04.groupStatsRequest),
   (V04.New.meterMultipartRequest, V04.meterMultipartRequest), (V04.New.helloElemHeader, V04.helloElem)]

/-- The classes of actions, instructions, table properties and meter bands. -/
def variantClasses : List (Ctor × Sub) :=
  [(V01.New.actionOutput, V01.actionOutput), (V01.New.actionStripVlan, V01.actionStripVlan),
   (V01.New.actionEnqueue, V01.actionEnqueue), (V01.New.actionVlanVid, V01.actionVlanVid),
   (V01.New.actionVlanPCP, V01.actionVlanPCP), (V01.New.actionDLAddr, V01.actionDLAddr), (V01.New.actionNWAddr, V01.actionNWAddr),
   (V01.New.actionNWTos, V01.actionNWTos), (V01.New.actionTPPort, V01.actionTPPort),
   (V01.New.actionVendorHeader, V01.actionVendorHeader), (V04.New.actionExperimenter, V04.actionExperimenter),
   (V04.New.actionGroup, V04.actionGroup), (V04.New.actionDecMPLSTTL, V04.actionDecMPLSTTL),
   (V04.New.actionSetMPLSTTL, V04.actionSetMPLSTTL), (V04.New.actionCopyTTLIn, V04.actionCopyTTLIn),
   (V04.New.actionCopyTTLOut, V04.actionCopyTTLOut), (V04.New.actionPopVLAN, V04.actionPopVLAN),
   (V04.New.actionPopPBB, V04.actionPopPBB), (V04.New.actionDecNWTTL, V04.actionDecNWTTL),
   (V04.New.actionSetNWTTL, V04.actionSetNWTTL), (V04.New.actionOutput, V04.actionOutput),
   (V04.New.actionPopMPLS, V04.actionPopMPLS), (V04.New.actionPush, V04.actionPush), (V04.New.actionSetField, V04.actionSetField),
   (V04.New.actionSetQueue, V04.actionSetQueue), (V04.New.instructionApplyAction, V04.instructionApplyAction),
   (V04.New.instructionClearAction, V04.instructionClearAction), (V04.New.instructionGotoTable, V04.instructionGotoTable),
   (V04.New.instructionMeter, V04.instructionMeter), (V04.New.instructionWriteAction, V04.instructionWriteAction),
   (V04.New.instructionWriteMetadata, V04.instructionWriteMetadata), (V04.New.instructionsProperty, V04.instructionsProperty),
   (V04.New.nextTablesProperty, V04.nextTablesProperty), (V04.New.actionsProperty, V04.actionsProperty),
   (V04.New.oxmProperty, V04.oxmProperty), (V04.New.meterBandDrop, V04.bandDrop),
   (V04.New.meterBandDscpRemark, V04.bandDscpRemark), (V04.New.meterBandExperimenter, V04.bandExperimenter)]

/-- C60.  The attribute a struct class holds for a nested structure is `Cls()`. -/
theorem C60_nested : ∀ p ∈ structureAttrs, p.1.new [] [] = .ok p.2.proto := by
  have : structureAttrs.all (fun p => decide (p.1.new [] [] = .ok p.2.proto)) = true := by decide +kernel
  intro p hp
  simpa using List.all_eq_true.mp this p hp

example := C60_nested _ (List.mem_of_getElem? (l := structureAttrs) (i := 3) rfl)

/-- C60.  The constructor of an action, instruction, table property or meter band sets exactly the attributes of the class, in their
order. -/
theorem C60_variants : ∀ p ∈ variantClasses, p.1.cls = p.2.name ∧ p.1.attrs.map (·.1) = p.2.fields.map (·.1) := by
  have : variantClasses.all (fun p => decide (p.1.cls = p.2.name ∧ p.1.attrs.map (·.1) = p.2.fields.map (·.1))) = true := by
    decide +kernel
  intro p hp
  simpa using List.all_eq_true.mp this p hp

example := C60_variants _ (List.mem_of_getElem? (l := variantClasses) (i := 3) rfl)

/-- C60.  The same for the messages, and every message class has a constructor. -/
theorem C60_classes {l : Lib} (hl : l ∈ libs) {m : MsgCls} {code : Nat} (hm : (code, m) ∈ l.classes) :
    ∃ c ∈ messageCtors, c.cls = m.name ∧ c.attrs.map (·.1) = m.body.map (·.1) := by
  have : libs.all (fun l => l.classes.all fun p => messageCtors.any fun c =>
      decide (c.cls = p.2.name ∧ c.attrs.map (·.1) = p.2.body.map (·.1))) = true := by decide +kernel
  have h := List.all_eq_true.mp (List.all_eq_true.mp this l hl) _ hm
  obtain ⟨c, h1, h2⟩ := List.any_eq_true.mp h
  exact ⟨c, h1, by simpa using h2⟩

example := C60_classes (l := V04.lib) (by simp [libs]) (List.mem_of_getElem? (l := V04.lib.classes) (i := 3) rfl)

/-- C60.  Arguments to bytes for every message, also those with a body of their own format (errors, packet-out, statistics and
multipart): packing gives the packet of the content the attributes have. -/
theorem C60_packed {s : MsgFmt} (hs : s ∈ messages) {c : Ctor} (hc : c ∈ messageCtors) (hn : c.cls = s.name) {m : MsgCls}
    (hcls : libs.findSome? (fun l => l.named s.name) = some m) {r : Nat} {pos : List Val} {kw : List (String × Val)}
    (hk : (kw.map (·.1)).Nodup) {hdr : Val} {vs : List Val} (h : c.newMessage m r pos kw = .ok (.obj s.name (hdr :: vs))) {x : Nat}
    (hx : (∃ w, Passed (msgParams c) pos kw "xid" w ∧ numOf w = some x) ∨ (∀ w, ¬ Passed (msgParams c) pos kw "xid" w) ∧ x = r)
    {d : Data} (hd : s.fmt.den (.obj s.name vs) = some d) : PackOk s x d (pyPack libs (.obj s.name (hdr :: vs))) := by
  obtain ⟨l, m', k⟩ := known hs
  cases Option.some.inj (hcls.symm.trans k.named)
  obtain ⟨y, rfl, h2, h3⟩ := C60_xid hc hk h
  have hy : numOf y = some x := by
    rcases hx with ⟨w, hw, hx⟩ | ⟨hw, hx⟩
    · rw [h2 w hw (by rintro rfl; cases hx)]
      exact hx
    · rw [h3 (.inr hw), hx]
      simp [numOf]
  refine k.pack ?_
  simp only [msgDen, if_true, hd]
  rw [hdrDen, if_pos ⟨by rw [k.ok.hdr, k.ok.ver], .inr (by rw [k.ok.ver]; simp [numOf]), by rw [k.ok.code]; simp [numOf]⟩, hy]

/-- C60.  Positional arguments fill the attributes in the order these have in the class, which is the order on the wire.  The one other
constructor is `OxmTLV`, whose `oxm_field` and `oxm_hasmask` are not attributes of the class. -/
theorem C60_order {c : Ctor} (hc : c ∈ messageCtors ++ structureCtors) (hn : c.cls ≠ "04.OxmTLV") :
    (c.params.map (·.name)).Sublist (c.attrs.map (·.1)) := by
  have : (messageCtors ++ structureCtors).all (fun c => c.cls == "04.OxmTLV" ||
      (c.params.map (·.name)).isSublist (c.attrs.map (·.1))) = true := by decide +kernel
  have := List.all_eq_true.mp this c hc
  rw [Bool.or_eq_true] at this
  rcases this with h | h
  · exact absurd (eq_of_beq h) hn
  · exact List.isSublist_iff_sublist.mp h

example := C60_order (c := V04.New.setConfig) (by simp [messageCtors, V04.New.messages]) (by decide)

/-- C60.  An attribute of a message that has no parameter is a copy of the class attribute. -/
theorem C60_rest {l : Lib} (hl : l ∈ libs) {m : MsgCls} {code : Nat} (hm : (code, m) ∈ l.classes) {c : Ctor} (hc : c ∈ messageCtors)
    (hn : c.cls = m.name) {n : String} {v : Val} (ha : (n, some v) ∈ c.attrs) : ∃ a, (n, a) ∈ m.body ∧ v = a.proto := by
  have : libs.all (fun l => l.classes.all fun p => messageCtors.all fun c => c.cls != p.2.name || c.attrs.all fun a =>
      match a.2 with
      | none => true
      | some v => p.2.body.any fun b => b.1 == a.1 && v == b.2.proto) = true := by decide +kernel
  have h := List.all_eq_true.mp (List.all_eq_true.mp (List.all_eq_true.mp this l hl) _ hm) c hc
  simp only [hn, bne_self_eq_false, Bool.false_or] at h
  have h := List.all_eq_true.mp h _ ha
  obtain ⟨⟨k, b⟩, h1, h2⟩ := List.any_eq_true.mp h
  simp only [Bool.and_eq_true, beq_iff_eq] at h2
  obtain ⟨rfl, rfl⟩ := h2
  exact ⟨b, h1, rfl⟩

example := C60_rest (l := V01.lib) (by simp [libs]) (m := V01.packetIn) (List.mem_of_getElem? (i := 10) rfl) (c := V01.New.packetIn)
  (by simp [messageCtors, V01.New.messages]) rfl (n := "pad") (v := .pad 1) (by simp [V01.New.packetIn])

/-- The number an omitted argument stands for, where it is not `None`, with the name the OpenFlow specification has for it.  Match type 1 is
`OFPMT_OXM`, class 0x8000 `OFPXMC_OPENFLOW_BASIC`, flow-mod flag 1 `OFPFF_SEND_FLOW_REM`, meter flag 8 `OFPMF_STATS`.  The default of
`InstructionGotoTable` is no table (C61). -/
def omitted : List (String × String × Nat) :=
  [
   -- `OFP_NO_BUFFER`
   ("01.PacketIn", "buffer_id", 0xffffffff), ("01.FlowMod", "buffer_id", 0xffffffff), ("01.PacketOut", "buffer_id", 0xffffffff),
   ("04.FlowMod", "buffer_id", 0xffffffff), ("04.PacketOut", "buffer_id", 0xffffffff),
   -- `OFPCML_NO_BUFFER`: the whole packet
   ("01.ActionOutput", "max_length", 0xffff), ("04.ActionOutput", "max_length", 0xffff), ("04.SetConfig", "miss_send_len", 0xffff),
   -- `OFPTT_ALL`
   ("01.AggregateStatsRequest", "table_id", 0xff), ("01.FlowStatsRequest", "table_id", 0xff),
   ("04.TableFeatures", "table_id", 0xff), ("04.AggregateStatsRequest", "table_id", 0xff),
   ("04.FlowStatsRequest", "table_id", 0xff), ("04.TableMod", "table_id", 0xff),
   -- `OFPP_NONE` of OpenFlow 1.0
   ("01.AggregateStatsRequest", "out_port", 0xffff), ("01.FlowStatsRequest", "out_port", 0xffff),
   ("01.PortStatsRequest", "port_no", 0xffff), ("01.FlowMod", "out_port", 0xffff), ("01.PacketOut", "in_port", 0xffff),
   -- `OFPM_ALL`
   ("04.InstructionGotoTable", "table_id", 0xffffffff), ("04.InstructionMeter", "meter_id", 0xffffffff),
   ("04.MeterMultipartRequest", "meter_id", 0xffffffff),
   -- all bits, or the largest number
   ("04.TableFeatures", "metadata_match", 0xffffffffffffffff), ("04.TableFeatures", "metadata_write", 0xffffffffffffffff),
   ("04.RoleReply", "generation_id", 0xffffffffffffffff),
   -- `OFPP_ANY`
   ("04.FlowMod", "out_port", 0xffffffff), ("04.AggregateStatsRequest", "out_port", 0xffffffff),
   ("04.FlowStatsRequest", "out_port", 0xffffffff), ("04.PortStatsRequest", "port_no", 0xffffffff),
   ("04.QueueStatsRequest", "port_no", 0xffffffff),
   -- `OFPG_ANY`
   ("04.FlowMod", "out_group", 0xffffffff), ("04.AggregateStatsRequest", "out_group", 0xffffffff),
   ("04.FlowStatsRequest", "out_group", 0xffffffff),
   -- `OFPQ_ALL`
   ("04.QueueStatsRequest", "queue_id", 0xffffffff),
   -- `OFPG_ALL`
   ("04.GroupStatsRequest", "group_id", 0xfffffffc),
   -- `OFPP_CONTROLLER`
   ("04.PacketOut", "in_port", 0xfffffffd),
   ("01.PhyPort", "config", 0), ("01.PhyPort", "state", 0), ("01.PhyPort", "curr", 0), ("01.PhyPort", "advertised", 0),
   ("01.PhyPort", "supported", 0), ("01.PhyPort", "peer", 0), ("01.FlowMod", "cookie", 0), ("01.FlowMod", "idle_timeout", 0),
   ("01.FlowMod", "hard_timeout", 0), ("01.FlowMod", "priority", 0), ("01.StatsRequest", "flags", 0),
   ("04.InstructionWriteMetadata", "metadata", 0), ("04.InstructionWriteMetadata", "metadata_mask", 0),
   ("04.OxmTLV", "oxm_hasmask", 0), ("04.InstructionsProperty", "property_type", 0), ("04.TableFeatures", "config", 0),
   ("04.TableFeatures", "max_entries", 0), ("04.FlowMod", "cookie", 0), ("04.FlowMod", "cookie_mask", 0),
   ("04.FlowMod", "table_id", 0), ("04.FlowMod", "idle_timeout", 0), ("04.FlowMod", "hard_timeout", 0),
   ("04.FlowMod", "priority", 0), ("04.MultipartRequest", "flags", 0), ("04.AggregateStatsRequest", "cookie", 0),
   ("04.AggregateStatsRequest", "cookie_mask", 0), ("04.FlowStatsRequest", "cookie", 0), ("04.FlowStatsRequest", "cookie_mask", 0),
   ("04.RoleReply", "role", 0), ("04.SetConfig", "flags", 0),
   ("01.FlowMod", "flags", 1), ("04.Match", "match_type", 1), ("04.FlowMod", "flags", 1),
   ("04.OxmTLV", "oxm_class", 32768),
   ("04.NextTablesProperty", "property_type", 2),
   ("04.ActionsProperty", "property_type", 4),
   ("04.OxmProperty", "property_type", 8), ("04.MeterConfig", "flags", 8),
   ("04.TableMod", "config", 3)]

/-- C60.  An argument that is not passed and whose default is a number has the number of this table. -/
theorem C60_omitted {c : Ctor} (hc : c ∈ messageCtors ++ structureCtors) {p : Param} (hp : p ∈ c.params) {n : Nat}
    (hn : numOf p.dflt = some n) : (c.cls, p.name, n) ∈ omitted := by
  have : (messageCtors ++ structureCtors).all (fun c => c.params.all fun p =>
      match numOf p.dflt with
      | some n => omitted.contains (c.cls, p.name, n)
      | none => true) = true := by decide +kernel
  have h := List.all_eq_true.mp (List.all_eq_true.mp this c hc) p hp
  rw [hn] at h
  simpa using h

example := C60_omitted (c := V04.New.setConfig) (by simp [messageCtors, V04.New.messages]) (p := V04.New.setConfig.params[1]) (List.getElem_mem _) (n := 65535) rfl

private def noBytes : Val := .bytes []
private def noText : Val := .str []
private def plainList : Val := .list false []
private def typedList : Val := .list true []
private def anyMatch01 : Val := .obj "01.Match" V01.matchInit
private def anyMatch04 : Val := .obj "04.Match" [.enum 1, .int 4, .list true []]
private def anOxm : Val := .obj "04.OxmTLV" [.enum 0x8000, .none, .none, .none, .none, .int 0]

/-- What is stored for an omitted argument, where it is neither `None` nor a number: no bytes, no text, an empty Python list, an empty
list of the class of the attribute, `Match()` or `OxmTLV()`. -/
def emptied : List (String × String × Val) :=
  [("01.ErrorMsg", "data", noBytes), ("01.PacketIn", "data", noBytes), ("01.VendorStats", "body", noBytes),
   ("01.PacketOut", "data", noBytes), ("01.StatsReply", "body", noBytes), ("01.StatsRequest", "body", noBytes),
   ("04.ErrorMsg", "data", noBytes), ("04.ErrorExperimenterMsg", "data", noBytes), ("04.PacketIn", "data", noBytes),
   ("04.MultipartReply", "body", noBytes), ("04.MultipartRequest", "body", noBytes), ("04.PacketOut", "data", noBytes),
   ("04.EchoReply", "data", noBytes), ("04.EchoRequest", "data", noBytes), ("04.ExperimenterHeader", "data", noBytes),
   ("04.HelloElemHeader", "content", noBytes),
   ("01.PacketQueue", "properties", plainList), ("01.FlowStats", "actions", plainList), ("01.FeaturesReply", "ports", plainList),
   ("01.FlowMod", "actions", plainList), ("01.PacketOut", "actions", plainList), ("01.QueueGetConfigReply", "queues", plainList),
   ("04.InstructionApplyAction", "actions", plainList), ("04.InstructionClearAction", "actions", plainList),
   ("04.InstructionWriteAction", "actions", plainList), ("04.PacketQueue", "properties", plainList),
   ("04.InstructionsProperty", "instruction_ids", plainList), ("04.FlowStats", "instructions", plainList),
   ("04.MeterConfig", "bands", plainList), ("04.MeterStats", "band_stats", plainList), ("04.PacketOut", "actions", plainList),
   ("04.QueueGetConfigReply", "queues", plainList),
   ("01.AggregateStatsRequest", "match", anyMatch01), ("01.FlowStatsRequest", "match", anyMatch01),
   ("01.FlowMod", "match", anyMatch01),
   ("04.ActionSetField", "field", anOxm),
   ("04.Match", "oxm_match_fields", typedList), ("04.NextTablesProperty", "next_table_ids", typedList),
   ("04.ActionsProperty", "action_ids", typedList), ("04.OxmProperty", "oxm_ids", typedList),
   ("04.TableFeatures", "properties", typedList), ("04.FlowMod", "instructions", typedList),
   ("04.TableFeatures", "name", noText),
   ("04.FlowMod", "match", anyMatch04), ("04.AggregateStatsRequest", "match", anyMatch04),
   ("04.FlowStatsRequest", "match", anyMatch04)]

/-- C60.  For an omitted argument a number of the table `omitted`, a value of the table `emptied`, or `None` is stored. -/
theorem C60_emptied {c : Ctor} (hc : c ∈ messageCtors ++ structureCtors) {p : Param} (hp : p ∈ c.params) :
    p.init.apply p.dflt = .none ∨ (c.cls, p.name, p.init.apply p.dflt) ∈ emptied ∨
      ∃ n, numOf (p.init.apply p.dflt) = some n ∧ (c.cls, p.name, n) ∈ omitted := by
  have : (messageCtors ++ structureCtors).all (fun c => c.params.all fun p =>
      decide (p.init.apply p.dflt = .none) || decide ((c.cls, p.name, p.init.apply p.dflt) ∈ emptied) ||
      match numOf (p.init.apply p.dflt) with
      | some n => omitted.contains (c.cls, p.name, n)
      | none => false) = true := by decide +kernel
  have h := List.all_eq_true.mp (List.all_eq_true.mp this c hc) p hp
  simp only [Bool.or_eq_true, decide_eq_true_eq] at h
  rcases h with (h | h) | h
  · exact .inl h
  · exact .inr (.inl h)
  · cases hn : numOf (p.init.apply p.dflt) with
    | none => rw [hn] at h; cases h
    | some n => rw [hn] at h; exact .inr (.inr ⟨n, rfl, by simpa using h⟩)

example := C60_emptied (c := V04.New.setConfig) (by simp [messageCtors, V04.New.messages]) (p := V04.New.setConfig.params[1]) (List.getElem_mem _)

/-- C60.  Each line of the table `emptied` is such a default. -/
theorem C60_emptied_all {cls name : String} {v : Val} (h : (cls, name, v) ∈ emptied) :
    ∃ c ∈ messageCtors ++ structureCtors, c.cls = cls ∧ ∃ p ∈ c.params, p.name = name ∧ p.init.apply p.dflt = v := by
  have : emptied.all (fun o => (messageCtors ++ structureCtors).any fun c => c.cls == o.1 && c.params.any fun p =>
      p.name == o.2.1 && decide (p.init.apply p.dflt = o.2.2)) = true := by decide +kernel
  obtain ⟨c, hc, h1⟩ := List.any_eq_true.mp (List.all_eq_true.mp this _ h)
  simp only [Bool.and_eq_true, beq_iff_eq] at h1
  obtain ⟨p, hp, h2⟩ := List.any_eq_true.mp h1.2
  simp only [Bool.and_eq_true, beq_iff_eq, decide_eq_true_eq] at h2
  exact ⟨c, hc, h1.1, p, hp, h2⟩

example := C60_emptied_all (List.mem_of_getElem? (l := emptied) (i := 0) rfl)

/-- C60.  And every line of the table is such a default. -/
theorem C60_omitted_all {cls name : String} {n : Nat} (h : (cls, name, n) ∈ omitted) :
    ∃ c ∈ messageCtors ++ structureCtors, c.cls = cls ∧ ∃ p ∈ c.params, p.name = name ∧ numOf p.dflt = some n := by
  have : omitted.all (fun o => (messageCtors ++ structureCtors).any fun c => c.cls == o.1 && c.params.any fun p =>
      p.name == o.2.1 && numOf p.dflt == some o.2.2) = true := by decide +kernel
  obtain ⟨c, hc, h1⟩ := List.any_eq_true.mp (List.all_eq_true.mp this _ h)
  simp only [Bool.and_eq_true, beq_iff_eq] at h1
  obtain ⟨p, hp, h2⟩ := List.any_eq_true.mp h1.2
  simp only [Bool.and_eq_true, beq_iff_eq] at h2
  exact ⟨c, hc, h1.1, p, hp, h2⟩

example := C60_omitted_all (List.mem_of_getElem? (l := omitted) (i := 0) rfl)

/-- C60.  An attribute of an action, instruction, table property or meter band that has no parameter, other than the type and the length,
is a copy of the class attribute. -/
theorem C60_variants_rest {q : Ctor × Sub} (hq : q ∈ variantClasses) {n : String} {v : Val} (ha : (n, some v) ∈ q.1.attrs.drop 2) :
    ∃ a, (n, a) ∈ q.2.fields ∧ v = a.proto := by
  have : variantClasses.all (fun q => (q.1.attrs.drop 2).all fun a =>
      match a.2 with
      | none => true
      | some v => q.2.fields.any fun b => b.1 == a.1 && v == b.2.proto) = true := by decide +kernel
  have h := List.all_eq_true.mp (List.all_eq_true.mp this q hq) _ ha
  obtain ⟨⟨k, b⟩, h1, h2⟩ := List.any_eq_true.mp h
  simp only [Bool.and_eq_true, beq_iff_eq] at h2
  obtain ⟨rfl, rfl⟩ := h2
  exact ⟨b, h1, rfl⟩

example := C60_variants_rest (List.mem_of_getElem? (l := variantClasses) (i := 4) rfl) (n := "pad") (v := .pad 3) (by simp [V01.New.actionVlanPCP])

/-- The messages that can be sent without arguments, and what then follows the header: no buffer, no port and no actions; the maximal
generation id; the maximal length of packets to the controller; all tables, and two deprecated flags. -/
def bare : List (String × Bytes) :=
  [("01.Hello", []), ("01.EchoRequest", []), ("01.EchoReply", []), ("01.FeaturesRequest", []), ("01.GetConfigRequest", []),
   ("01.BarrierRequest", []), ("01.BarrierReply", []), ("01.PacketOut", [255, 255, 255, 255, 255, 255, 0, 0]),
   ("04.Hello", []), ("04.EchoRequest", []), ("04.EchoReply", []), ("04.FeaturesRequest", []), ("04.GetConfigRequest", []),
   ("04.BarrierRequest", []), ("04.BarrierReply", []), ("04.GetAsyncRequest", []),
   ("04.PacketOut", [255, 255, 255, 255, 255, 255, 255, 253, 0, 0, 0, 0, 0, 0, 0, 0]),
   ("04.RoleReply", [0, 0, 0, 0, 0, 0, 0, 0, 255, 255, 255, 255, 255, 255, 255, 255]), ("04.SetConfig", [0, 0, 255, 255]),
   ("04.TableMod", [255, 0, 0, 0, 0, 0, 0, 3])]

/-- What `Cls()` leaves in the attributes. -/
private def dflts (c : Ctor) : List Val := c.fill (c.params.map (·.dflt))

/-- C60.  The packets of the messages made without arguments other than a transaction id. -/
theorem C60_bare {s : MsgFmt} (hs : s ∈ messages) {body : Bytes} (hb : (s.name, body) ∈ bare) {c : Ctor} (hc : c ∈ messageCtors)
    (hn : c.cls = s.name) {m : MsgCls} (hcls : libs.findSome? (fun l => l.named s.name) = some m) {r x : Nat} (hx : x < 4294967296)
    {v : Val} (h : c.newMessage m r [.int x] [] = .ok v) : pyPack libs v = .ok (packet s.ver s.code x body) := by
  have : messages.all (fun s => bare.all fun b => b.1 != s.name || messageCtors.all fun c => c.cls != s.name ||
      match s.fmt.den (.obj s.name (dflts c)) with
      | some d => s.fmt.enc d == some b.2 && decide (b.2.length < 100)
      | none => false) = true := by decide +kernel
  have h1 := List.all_eq_true.mp (List.all_eq_true.mp this s hs) _ hb
  simp only [bne_self_eq_false, Bool.false_or] at h1
  have h1 := List.all_eq_true.mp h1 c hc
  simp only [hn, bne_self_eq_false, Bool.false_or] at h1
  split at h1
  · rename_i d hd
    simp only [Bool.and_eq_true, beq_iff_eq, decide_eq_true_eq] at h1
    have hv : v = .obj s.name (newHeader m (.int x) r :: dflts c) := by
      have := h
      simp [Ctor.newMessage, bindArgs] at this
      rw [← this, hn]
      rfl
    subst hv
    have hx' : Passed (msgParams c) [.int x] [] "xid" (.int x) := .inr ⟨0, rfl, rfl⟩
    exact (C60_packed hs hc hn hcls (by simp) h (.inl ⟨_, hx', by simp [numOf]⟩) hd).ok _ |>.mpr ⟨body, h1.1, by omega, hx, rfl⟩
  · cases h1

example : V04.New.setConfig.newMessage V04.setConfig 0 [.int 9] [] = .ok (.obj "04.SetConfig"
    [newHeader V04.setConfig (.int 9) 0, .enum 0, .enum 65535]) := by decide +kernel

/-! ## Examples -/

/-- `PacketIn(7, buffer_id=1, total_len=2, in_port=3, reason=0, data=b'\x09')` of OpenFlow 1.0, with keywords in another order. -/
def exArgs : List (String × Val) := [("data", .bytes [9]), ("in_port", .int 3), ("reason", .int 0), ("total_len", .int 2)]
example : V01.New.packetIn.newMessage V01.packetIn 0 [.int 7, .int 1] exArgs = .ok (.obj "01.PacketIn"
    [.obj "01.Header" [.ub 1 (.int 1), .enum 10, .none, .int 7], .int 1, .int 2, .int 3, .int 0, .pad 1, .bytes [9]]) := by
  decide +kernel
example : (exArgs.map (·.1)).Nodup := by decide
example : Passed (msgParams V01.New.packetIn) [.int 7, .int 1] exArgs "buffer_id" (.int 1) := .inr ⟨1, rfl, rfl⟩
example : Stored V01.New.packetIn (Passed (msgParams V01.New.packetIn) [.int 7, .int 1] exArgs) "in_port" (.int 3) :=
  .given (p := ⟨"in_port", .none, .given⟩) (by simp [V01.New.packetIn]) rfl (.inl (by simp [exArgs])) (.inl rfl)
example : pyPack libs (.obj "01.PacketIn"
    [.obj "01.Header" [.ub 1 (.int 1), .enum 10, .none, .int 7], .int 1, .int 2, .int 3, .int 0, .pad 1, .bytes [9]]) =
    .ok [1, 10, 0, 19, 0, 0, 0, 7, 0, 0, 0, 1, 0, 2, 0, 3, 0, 0, 9] := by decide +kernel
/-- Given twice, unknown, too many. -/
example : V01.New.packetIn.newMessage V01.packetIn 0 [.int 7, .int 1] [("buffer_id", .int 2)] = .error .type := by decide +kernel
example : V01.New.packetIn.newMessage V01.packetIn 0 [] [("port", .int 2)] = .error .type := by decide +kernel
example : V01.New.barrierReply.newMessage V01.barrierReply 0 [.int 1, .int 2] [] = .error .type := by decide +kernel
/-- A structure: `Match(oxm_match_fields=None)` gets an empty list of its own and a computed length. -/
example : V04.New.match.new [] [("oxm_match_fields", .none)] = .ok (.obj "04.Match" [.enum 1, .int 4, .list true []]) := by
  decide +kernel
example : Stored V04.New.match (Passed ["match_type", "oxm_match_fields"] [] [("oxm_match_fields", .none)]) "oxm_match_fields"
    (.list true []) :=
  .replaced (v := .none) (p := ⟨"oxm_match_fields", .none, .orElse (.list true [])⟩) (by simp [V04.New.match]) rfl (.inl (by simp)) rfl
    .none
example : ("01.PacketIn", 1, 10, [("buffer_id", Spec.V01.u32), ("total_len", Spec.V01.u16), ("in_port", Spec.V01.u16),
    ("reason", uint 1 (some [0, 1])), ("pad", pad 1), ("data", rest)]) ∈ fieldMsgs :=
  List.mem_append_left _ (List.mem_of_getElem? (i := 9) rfl)

example : attrOf (V01.New.packetIn.attrs.map (·.1)) [.int 1, .int 2, .int 3, .int 0, .pad 1, .bytes [9]] "in_port" = some (.int 3) :=
  C60_message (c := V01.New.packetIn) (by simp [messageCtors, V01.New.messages]) (m := V01.packetIn) (r := 0) (pos := [.int 7, .int 1]) (kw := exArgs)
    (by decide) (show _ = Except.ok (Val.obj "01.PacketIn" (.obj "01.Header" [.ub 1 (.int 1), .enum 10, .none, .int 7] ::
      [.int 1, .int 2, .int 3, .int 0, .pad 1, .bytes [9]])) by decide +kernel)
    (.given (p := ⟨"in_port", .none, .given⟩) (by simp [V01.New.packetIn]) rfl (.inl (by simp [exArgs])) (.inl rfl))

example : attrOf (V04.New.match.attrs.map (·.1)) [.enum 1, .int 4, .list true []] "oxm_match_fields" = some (.list true []) :=
  C60_structure (c := V04.New.match) (by simp [structureCtors, V04.New.structures]) (pos := []) (kw := [("oxm_match_fields", .none)]) (by decide)
    (show _ = Except.ok (Val.obj "04.Match" [.enum 1, .int 4, .list true []]) by decide +kernel)
    (.replaced (v := .none) (p := ⟨"oxm_match_fields", .none, .orElse (.list true [])⟩) (by simp [V04.New.match]) rfl (.inl (by simp)) rfl .none)
    (by decide)

/-- What is sent for the arguments of a barrier request and of an echo request. -/
example := C60_packed (s := Spec.V01.messages[1]'(by decide +kernel)) (List.mem_append_left _ (List.getElem_mem _))
  (c := V01.New.echoRequest) (by simp [messageCtors, V01.New.messages]) rfl (m := V01.echoRequest) rfl (r := 3) (pos := []) (kw := [("data", .bytes [9])])
  (by decide) (show _ = Except.ok (Val.obj "01.EchoRequest" (.obj "01.Header" [.ub 1 (.int 1), .enum 2, .none, .int 3] :: [.bytes [9]])) by decide +kernel)
  (x := 3) (.inr ⟨by intro w h; simp [Passed, msgParams] at h, rfl⟩) rfl

/-- What `SetConfig(9, miss_send_len=128)` of OpenFlow 1.3 sends. -/
example (p : Bytes) := C60_sent (name := "04.SetConfig") (ver := 4) (code := 9) (fs := Spec.V04.switchConfig)
  (List.mem_append_right _ (List.mem_of_getElem? (i := 8) rfl))
  (c := V04.New.setConfig) (by simp [messageCtors, V04.New.messages]) rfl (m := V04.setConfig) rfl (r := 0) (pos := [.int 9]) (kw := [("miss_send_len", .int 128)])
  (by decide) (v := .obj "04.SetConfig" [newHeader V04.setConfig (.int 9) 0, .enum 0, .int 128]) (by decide +kernel) (x := 9) (.inl ⟨.int 9, .inr ⟨0, rfl, rfl⟩, rfl⟩)
  (ds := [.num 0, .num 128]) rfl (fun i n f d hf hd => by
    match i, hf, hd with
    | 0, hf, hd => cases hf; cases hd; exact ⟨_, .dflt (p := ⟨"flags", .enum 0, .given⟩) (by simp [V04.New.setConfig]) rfl (by
        rintro v (h | ⟨i, h1, h2⟩)
        · simp at h
        · match i, h1, h2 with
          | 0, h1, _ => simp [msgParams] at h1
          | _ + 1, _, h2 => cases h2), rfl⟩
    | 1, hf, hd => cases hf; cases hd; exact ⟨.int 128, .given (p := ⟨"miss_send_len", .enum 65535, .given⟩) (by simp [V04.New.setConfig]) rfl (.inl (by simp)) (.inl rfl), rfl⟩) p

end Pyof.Props
