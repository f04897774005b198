import Verif.Lemmas.Assign
import Verif.Props.Threads
import Verif.Props.Size
import Verif.Props.Ip
import Verif.Model.NetThreads
/-!
# C78: attributes assigned by other threads while a message is packed
-/
namespace Pyof.Props
open Threads

private theorem named {m : PMsg} (hm : m ∈ messages) (vs : List Val) : pyPack libs (.obj m.cls.name vs) = m.cls.pack (.obj m.cls.name vs) := by
  unfold messages at hm
  repeat (
    rcases List.mem_cons.1 hm with rfl | hm
    · rfl)
  cases hm

private theorem through_first {α : Type} {a b : List (Prog α) × Val} {ws : List Val} (h : Through a ws b) : a.2 ∈ ws := by
  induction h with
  | refl => simp
  | step _ _ ih => simp [ih]

private theorem answers {m : PMsg} (hm : m ∈ messages) {hc : String} {a t l x : Val} {vs : List Val} {A : Path → Val → Prop}
    (hA : ∀ p y, A p y → Swap m vs p y) {ts0 : List (Prog Answer)} (h0 : ∀ (i : Nat) t, ts0[i]? = some t → (∃ c, t = m.call c) ∨ Assigns A t)
    (hl : vs.length = m.body.length)
    (hf : (∀ i j : Nat, ts0[i]? = some (m.call .pack) → ts0[j]? = some (m.call .pack) → i = j) ∨ NoPad (.obj m.cls.name (.obj hc [a, t, l, x] :: vs)))
    {ts : List (Prog Answer)} {ws : List Val} {w : Val} (hr : Through (ts0, .obj m.cls.name (.obj hc [a, t, l, x] :: vs)) ws (ts, w))
    {i : Nat} (hi : ts0[i]? = some (m.call .pack)) {r : Answer} (hi' : ts[i]? = some (.ret r)) :
    ∃ b, r = .bytes b ∧ Answers m m.cls.name hc a t l x vs (fun p y => A p y ∧ ∃ w, w ∈ ws ∧ at? w p = some y) b := by
  obtain ⟨X, W, hX, hS, hp, _, hQ, hI⟩ := assign_inv (mix_messages m hm) (c := m.cls.name) (hc := hc) (a := a) (t := t) (l := l) (x := x) hA h0 hl hf
    (· ∈ ws)
  have hI' := Mix.runs hX hr (by rw [hS]; exact fun w h => h) hI
  rcases Mix.can hI' (Or.inl (by rw [hp]; exact hi)) hi' with ⟨r', e, hq⟩ | ⟨c, hc⟩
  · cases e; exact (hQ _ _ hq).1 hi
  · cases hc

/-- While other threads assign attributes of a message, in any order and at any moment, a thread that packs it returns the packet (or raises the
exception) of `pack()` for a message whose attributes all had these values at some moment during the call, though not all at the same one.  So no
attribute is torn.  The others may run any code; they replace attributes by values of the same
size (`Swap`), and read what they like.  Some of them may pack or measure the message too, but
only one may pack it if an action has to be padded. -/
theorem C78_packet_partial {m : PMsg} (hm : m ∈ messages) {hc : String} {a t l x : Val} {vs : List Val} {ts0 : List (Prog Answer)}
    (h0 : ∀ (i : Nat) t, ts0[i]? = some t → (∃ c, t = m.call c) ∨ Assigns (Swap m vs) t)
    (hl : vs.length = m.body.length)
    (hf : (∀ i j : Nat, ts0[i]? = some (m.call .pack) → ts0[j]? = some (m.call .pack) → i = j) ∨ NoPad (.obj m.cls.name (.obj hc [a, t, l, x] :: vs)))
    {ts : List (Prog Answer)} {ws : List Val} {w : Val} (hr : Through (ts0, .obj m.cls.name (.obj hc [a, t, l, x] :: vs)) ws (ts, w))
    {i : Nat} (hi : ts0[i]? = some (m.call .pack)) {r : Answer} (hi' : ts[i]? = some (.ret r)) :
    ∃ a' t' l' x' us, us.length = vs.length ∧ Mixed ws us [a', t', l', x'] ∧ r = .bytes (pyPack libs (.obj m.cls.name (.obj hc [a', t', l', x'] :: us))) := by
  obtain ⟨b, rfl, a', t', x', us, h1, h2, h3, h4, h5⟩ := answers hm (fun _ _ h => h) h0 hl hf hr hi hi'
  have first := through_first hr
  refine ⟨a', t', l, x', us, h4.1, ⟨?_, ?_⟩, by rw [named hm, ← h5]⟩
  · intro k y hk
    match k, hk with
    | 0, hk => cases hk; rcases h1 with rfl | h; exact ⟨_, first, rfl⟩; exact h.2
    | 1, hk => cases hk; rcases h2 with rfl | h; exact ⟨_, first, rfl⟩; exact h.2
    | 2, hk => cases hk; exact ⟨_, first, rfl⟩
    | 3, hk => cases hk; rcases h3 with rfl | h; exact ⟨_, first, rfl⟩; exact h.2
    | k + 4, hk => simp at hk
  · intro j y hj
    have hlt := (List.getElem?_eq_some_iff.1 hj).1
    have hv : vs[j]? = some (vs[j]'(by rw [← h4.1]; exact hlt)) := List.getElem?_eq_getElem _
    rcases h4.2 j _ y hv hj with rfl | h
    · exact ⟨_, first, by rw [at?_obj]; simpa using hv⟩
    · exact h.2

private theorem honest_all {vs : List Val} : Spec.honestAll vs = true ↔ ∀ v ∈ vs, Spec.honest v = true := by
  induction vs with
  | nil => simp [Spec.honestAll]
  | cons v vs ih => simp [Spec.honestAll, ih]

private theorem honest_at : ∀ (p : Path) {v x : Val}, Spec.honest v = true → at? v p = some x → Spec.honest x = true
  | [], v, x, hv, h => by cases h; exact hv
  | i :: p, v, x, hv, h => by
    have key : ∀ xs : List Val, Spec.honestAll xs = true → (match xs[i]? with | some u => at? u p | none => none) = some x → Spec.honest x = true := by
      intro xs hxs h
      cases hi : xs[i]? with
      | none => rw [hi] at h; cases h
      | some u => rw [hi] at h; exact honest_at p (honest_all.1 hxs u (List.mem_of_getElem? hi)) h
    cases v with
    | obj c vs => simp only [Spec.honest, Bool.and_eq_true] at hv; exact key vs hv.1 h
    | list g xs => exact key xs (by simpa [Spec.honest] using hv) h
    | _ => cases h

private theorem fits_names {m : PMsg} (hm : m ∈ messages) (hn : m.cls.name ≠ "04.MeterMod") (vs : List Val) : Spec.fits m.cls.name vs = true := by
  unfold messages at hm
  repeat (
    rcases List.mem_cons.1 hm with rfl | hm
    · first | rfl | exact absurd rfl hn)
  cases hm

/-- If get_size() is right for every state of the message (`honest`, C08), then so is the length in the header of what is packed meanwhile. -/
theorem C78_length_partial {m : PMsg} (hm : m ∈ messages) (hn : m.cls.name ≠ "04.MeterMod") {a t l x : Val} {vs : List Val} {ts0 : List (Prog Answer)}
    (h0 : ∀ (i : Nat) t, ts0[i]? = some t → (∃ c, t = m.call c) ∨ Assigns (Swap m vs) t)
    (hl : vs.length = m.body.length)
    (hf : (∀ i j : Nat, ts0[i]? = some (m.call .pack) → ts0[j]? = some (m.call .pack) → i = j) ∨
      NoPad (.obj m.cls.name (.obj (hdrName m.cls.ver) [a, t, l, x] :: vs)))
    {ts : List (Prog Answer)} {ws : List Val} {w : Val}
    (hr : Through (ts0, .obj m.cls.name (.obj (hdrName m.cls.ver) [a, t, l, x] :: vs)) ws (ts, w)) (hw : ∀ w ∈ ws, Spec.honest w = true)
    {i : Nat} (hi : ts0[i]? = some (m.call .pack)) {p : Bytes} (hi' : ts[i]? = some (.ret (.bytes (.ok p)))) : beVal (slice p 2 4) = p.length ∧ p.length ≤ 65535 := by
  obtain ⟨a', t', l', x', us, _, ⟨h1, h2⟩, h3⟩ := C78_packet_partial hm h0 hl hf hr hi hi'
  refine C17_any_object _ ?_ p (Answer.bytes.inj h3).symm
  simp only [Spec.honest, Spec.honestAll, Bool.and_eq_true, fits_names hm hn, and_true]
  refine ⟨⟨⟨?_, ?_, ?_, ?_⟩, ?_⟩, honest_all.2 fun u hu => ?_⟩
  · obtain ⟨w, hw', e⟩ := h1 0 a' rfl; exact honest_at _ (hw w hw') e
  · obtain ⟨w, hw', e⟩ := h1 1 t' rfl; exact honest_at _ (hw w hw') e
  · obtain ⟨w, hw', e⟩ := h1 2 l' rfl; exact honest_at _ (hw w hw') e
  · obtain ⟨w, hw', e⟩ := h1 3 x' rfl; exact honest_at _ (hw w hw') e
  · unfold messages at hm
    repeat (
      rcases List.mem_cons.1 hm with rfl | hm
      · rfl)
    cases hm
  · obtain ⟨j, hj⟩ := List.getElem?_of_mem hu
    obtain ⟨w, hw', e⟩ := h2 j u hj
    exact honest_at _ (hw w hw') e

/-- If they all assign the same attribute, the packet is that of the message with one of the values this attribute had during the call: the
calls of `pack()` and the assignments are atomic. -/
theorem C78_one_attribute {m : PMsg} (hm : m ∈ messages) {hc : String} {a t l x : Val} {vs : List Val} {p : Path} {ts0 : List (Prog Answer)}
    (h0 : ∀ (i : Nat) t, ts0[i]? = some t → (∃ c, t = m.call c) ∨ Assigns (fun q y => q = p ∧ Swap m vs q y) t)
    (hl : vs.length = m.body.length)
    (hf : (∀ i j : Nat, ts0[i]? = some (m.call .pack) → ts0[j]? = some (m.call .pack) → i = j) ∨ NoPad (.obj m.cls.name (.obj hc [a, t, l, x] :: vs)))
    {ts : List (Prog Answer)} {ws : List Val} {w : Val} (hr : Through (ts0, .obj m.cls.name (.obj hc [a, t, l, x] :: vs)) ws (ts, w))
    {i : Nat} (hi : ts0[i]? = some (m.call .pack)) {r : Answer} (hi' : ts[i]? = some (.ret r)) :
    r = .bytes (pyPack libs (.obj m.cls.name (.obj hc [a, t, l, x] :: vs))) ∨
    ∃ y, (∃ w ∈ ws, at? w p = some y) ∧ r = .bytes (pyPack libs (put (.obj m.cls.name (.obj hc [a, t, l, x] :: vs)) p y)) := by
  obtain ⟨b, rfl, a', t', x', us, h1, h2, h3, ⟨hu', h4⟩, h5⟩ := answers hm (fun _ _ h => h.2) h0 hl hf hr hi hi'
  rw [← named hm] at h5
  simp only [Answer.bytes.injEq]
  have attrs : (∀ j, p ≠ [j + 1]) → us = vs := by
    intro hp
    refine List.ext_getElem? fun j => ?_
    cases hj : vs[j]? with
    | none => rw [List.getElem?_eq_none_iff] at hj ⊢; omega
    | some v =>
      have hlt := (List.getElem?_eq_some_iff.1 hj).1
      have hu : us[j]? = some (us[j]'(by omega)) := List.getElem?_eq_getElem _
      rcases h4 j v _ hj hu with h | h
      · rw [hu, h]
      · exact absurd h.1.1.symm (hp j)
  have head : ∀ {k : Nat} {u u' : Val}, p ≠ [0, k] → (u' = u ∨ (([0, k] : Path) = p ∧ Swap m vs [0, k] u') ∧ ∃ w, w ∈ ws ∧ at? w [0, k] = some u') → u' = u := by
    intro k u u' hp h
    rcases h with h | h
    · exact h
    · exact absurd h.1.1.symm hp
  by_cases hp : ∃ k, p = [0, k] ∧ (k = 0 ∨ k = 1 ∨ k = 3)
  · obtain ⟨k, rfl, hk⟩ := hp
    have hus := attrs (by simp)
    subst hus
    rcases hk with rfl | rfl | rfl
    · have e2 := head (by simp) h2
      have e3 := head (by simp) h3
      subst e2; subst e3
      rcases h1 with rfl | h
      · exact Or.inl h5
      · exact Or.inr ⟨a', h.2, h5⟩
    · have e1 := head (by simp) h1
      have e3 := head (by simp) h3
      subst e1; subst e3
      rcases h2 with rfl | h
      · exact Or.inl h5
      · exact Or.inr ⟨t', h.2, h5⟩
    · have e1 := head (by simp) h1
      have e2 := head (by simp) h2
      subst e1; subst e2
      rcases h3 with rfl | h
      · exact Or.inl h5
      · exact Or.inr ⟨x', h.2, h5⟩
  · have e1 := head (fun e => hp ⟨0, e, by simp⟩) h1
    have e2 := head (fun e => hp ⟨1, e, by simp⟩) h2
    have e3 := head (fun e => hp ⟨3, e, by simp⟩) h3
    subst e1; subst e2; subst e3
    by_cases hj : ∃ j, p = [j + 1]
    · obtain ⟨j, rfl⟩ := hj
      have rest : ∀ k, k ≠ j → us[k]? = vs[k]? := by
        intro k hk
        cases hv : vs[k]? with
        | none => rw [List.getElem?_eq_none_iff] at hv ⊢; omega
        | some v =>
          have hlt := (List.getElem?_eq_some_iff.1 hv).1
          have hu : us[k]? = some (us[k]'(by omega)) := List.getElem?_eq_getElem _
          rcases h4 k v _ hv hu with h | h
          · rw [hu, h]
          · have := h.1.1; simp at this; exact absurd this hk
      cases hv : vs[j]? with
      | none =>
        have : us = vs := by
          refine List.ext_getElem? fun k => ?_
          by_cases hk : k = j
          · subst hk; rw [hv]; rw [List.getElem?_eq_none_iff] at hv ⊢; omega
          · exact rest k hk
        subst this
        exact Or.inl h5
      | some v =>
        have hlt := (List.getElem?_eq_some_iff.1 hv).1
        have hu : us[j]? = some (us[j]'(by omega)) := List.getElem?_eq_getElem _
        have hset : vs.set j (us[j]'(by omega)) = us := by
          refine List.ext_getElem? fun k => ?_
          by_cases hk : j = k
          · subst hk; rw [List.getElem?_set_self hlt, hu]
          · rw [List.getElem?_set_ne hk]; exact (rest k (Ne.symm hk)).symm
        rcases h4 j v _ hv hu with h | h
        · left
          have : us = vs := by
            rw [← hset, h]
            refine List.ext_getElem? fun k => ?_
            by_cases hk : j = k
            · subst hk; rw [List.getElem?_set_self hlt, hv]
            · rw [List.getElem?_set_ne hk]
          subst this; exact h5
        · refine Or.inr ⟨_, h.2, ?_⟩
          have : put (.obj m.cls.name (.obj hc [a', t', l, x'] :: vs)) [j + 1] (us[j]'(by omega)) = .obj m.cls.name (.obj hc [a', t', l, x'] :: us) := by
            simp only [put, List.modify_succ_cons]
            congr 2
            refine Eq.trans ?_ hset
            refine List.ext_getElem? fun k => ?_
            rw [List.getElem?_modify]
            by_cases hk : j = k
            · subst hk; simp [hv, hlt, put]
            · rw [List.getElem?_set_ne hk]; simp [hk]
          rw [this]; exact h5
    · have hus := attrs (fun j e => hj ⟨j, e⟩)
      subst hus
      exact Or.inl h5

/-- Whatever has happened, a thread that packs or measures has returned or can go on, and returns if it is let run. -/
theorem C78_returns {m : PMsg} (hm : m ∈ messages) {hc : String} {a t l x : Val} {vs : List Val} {ts0 : List (Prog Answer)}
    (h0 : ∀ (i : Nat) t, ts0[i]? = some t → (∃ c, t = m.call c) ∨ Assigns (Swap m vs) t)
    (hl : vs.length = m.body.length)
    (hf : (∀ i j : Nat, ts0[i]? = some (m.call .pack) → ts0[j]? = some (m.call .pack) → i = j) ∨ NoPad (.obj m.cls.name (.obj hc [a, t, l, x] :: vs)))
    {ts : List (Prog Answer)} {ws : List Val} {w : Val} (hr : Through (ts0, .obj m.cls.name (.obj hc [a, t, l, x] :: vs)) ws (ts, w))
    {i : Nat} {c : Call} (hi : ts0[i]? = some (m.call c)) {s : Prog Answer} (hs : ts[i]? = some s) :
    (Finished s ∨ CanStep s w) ∧ ∃ r w', Runs (ts, w) (ts.set i (.ret r), w') := by
  obtain ⟨X, W, hX, hS, hp, hz, _, hI⟩ := assign_inv (mix_messages m hm) (c := m.cls.name) (hc := hc) (a := a) (t := t) (l := l) (x := x) (fun _ _ h => h)
    h0 hl hf (fun _ => True)
  have hI' := Mix.runs hX hr (by rw [hS]; exact fun w _ => trivial) hI
  have hi0 : X.packs i ∨ X.reads i := by
    cases c
    · exact Or.inl (by rw [hp]; exact hi)
    · exact Or.inr (by rw [hz]; exact hi)
  refine ⟨?_, ?_⟩
  · rcases Mix.can hI' hi0 hs with ⟨r, e, _⟩ | h
    · exact Or.inl ⟨r, e⟩
    · exact Or.inr h
  · obtain ⟨r, w', h, _⟩ := Mix.finish hX (by rw [hS]; exact fun _ => trivial) hi0 s hI' hs
    exact ⟨r, w', h⟩

private theorem sized {m : PMsg} (hm : m ∈ messages) (h : Val) (vs : List Val) :
    pySize libs (.obj m.cls.name (h :: vs)) = sizeAttrs m.cls.fields (h :: vs) := by
  have key : libs.findSome? (fun l => l.named m.cls.name) = some m.cls := by
    unfold messages at hm
    repeat (
      rcases List.mem_cons.1 hm with rfl | hm
      · rfl)
    cases hm
  simp only [pySize, key, (sizable_messages m hm).size, MsgCls.fields, sizeAttrs]
  cases (headerAttr m.cls.ver m.cls.types m.cls.code).size h with
  | error e => rfl
  | ok n => cases sizeAttrs m.cls.body vs <;> rfl

/-- Meanwhile `get_size()` returns what it would have returned before all of this, whatever the others assign and pack. -/
theorem C78_size {m : PMsg} (hm : m ∈ messages) {hc : String} {a t l x : Val} {vs : List Val} {ts0 : List (Prog Answer)}
    (h0 : ∀ (i : Nat) t, ts0[i]? = some t → (∃ c, t = m.call c) ∨ Assigns (Swap m vs) t)
    (hl : vs.length = m.body.length)
    (hf : (∀ i j : Nat, ts0[i]? = some (m.call .pack) → ts0[j]? = some (m.call .pack) → i = j) ∨ NoPad (.obj m.cls.name (.obj hc [a, t, l, x] :: vs)))
    {ts : List (Prog Answer)} {ws : List Val} {w : Val} (hr : Through (ts0, .obj m.cls.name (.obj hc [a, t, l, x] :: vs)) ws (ts, w))
    {i : Nat} (hi : ts0[i]? = some (m.call .size)) {r : Answer} (hi' : ts[i]? = some (.ret r)) :
    r = .size (pySize libs (.obj m.cls.name (.obj hc [a, t, l, x] :: vs))) := by
  obtain ⟨X, W, hX, hS, _, hz, hQ, hI⟩ := assign_inv (mix_messages m hm) (c := m.cls.name) (hc := hc) (a := a) (t := t) (l := l) (x := x) (fun _ _ h => h)
    h0 hl hf (fun _ => True)
  have hI' := Mix.runs hX hr (by rw [hS]; exact fun w _ => trivial) hI
  rw [sized hm]
  rcases Mix.can hI' (Or.inr (by rw [hz]; exact hi)) hi' with ⟨r', e, hq⟩ | ⟨c, hc⟩
  · cases e; exact (hQ _ _ hq).2 hi
  · cases hc

/-! ## Cases -/

/-- A thread that gives a flow mod a new xid and a new cookie, then a priority that depends on the one it had. -/
def asWriter : Prog Answer :=
  .set [0, 3] (.int 8) (.set [1] (.int 77) (.get [7] fun v => .set [7] (if v = .int 5 then .int 6 else .int 5) (.ret (.bytes (.ok [])))))

theorem asWriter_ok : Assigns (Swap thFlowMod thFlow.tail) asWriter := by
  refine ⟨Or.inr (Or.inr rfl), ⟨"cookie", _, .int 1, rfl, by decide, rfl, by decide +kernel, by decide +kernel⟩, fun v => ⟨?_, trivial⟩⟩
  split <;> exact ⟨"priority", _, .int 5, rfl, by decide, rfl, by decide +kernel, by decide +kernel⟩

def asThreads : List (Prog Answer) := [thFlowMod.call .pack, asWriter, thFlowMod.call .pack, asWriter, thFlowMod.call .size]

theorem asThreads_ok (i : Nat) (t : Prog Answer) (h : asThreads[i]? = some t) : (∃ c, t = thFlowMod.call c) ∨ Assigns (Swap thFlowMod thFlow.tail) t := by
  match i, h with
  | 0, h => cases h; exact Or.inl ⟨_, rfl⟩
  | 1, h => cases h; exact Or.inr asWriter_ok
  | 2, h => cases h; exact Or.inl ⟨_, rfl⟩
  | 3, h => cases h; exact Or.inr asWriter_ok
  | 4, h => cases h; exact Or.inl ⟨_, rfl⟩
  | i + 5, h => simp [asThreads] at h

example {ts : List (Prog Answer)} {ws : List Val} {w : Val} (hr : Through (asThreads, .obj "04.FlowMod" thFlow) ws (ts, w)) {r : Answer}
    (h : ts[2]? = some (.ret r)) :
    ∃ a' t' l' x' us, us.length = 14 ∧ Mixed ws us [a', t', l', x'] ∧
      r = .bytes (pyPack libs (.obj "04.FlowMod" (.obj (hdrName 4) [a', t', l', x'] :: us))) :=
  C78_packet_partial (m := thFlowMod) (vs := thFlow.tail) (by simp [messages, thFlowMod]) asThreads_ok rfl (Or.inr (noPad_of _ (by decide +kernel))) hr
    (i := 2) rfl h

example {ts : List (Prog Answer)} {ws : List Val} {w : Val} (hr : Through (asThreads, .obj "04.FlowMod" thFlow) ws (ts, w)) {t : Prog Answer}
    (h : ts[0]? = some t) : (Finished t ∨ CanStep t w) ∧ ∃ r w', Runs (ts, w) (ts.set 0 (.ret r), w') :=
  C78_returns (m := thFlowMod) (vs := thFlow.tail) (by simp [messages, thFlowMod]) asThreads_ok rfl (Or.inr (noPad_of _ (by decide +kernel))) hr
    (i := 0) (c := .pack) rfl h

example {ts : List (Prog Answer)} {ws : List Val} {w : Val} (hr : Through (asThreads, .obj "04.FlowMod" thFlow) ws (ts, w)) {r : Answer}
    (h : ts[4]? = some (.ret r)) : r = .size (.ok 104) :=
  (C78_size (m := thFlowMod) (vs := thFlow.tail) (by simp [messages, thFlowMod]) asThreads_ok rfl (Or.inr (noPad_of _ (by decide +kernel))) hr
    (i := 4) rfl h).trans (congrArg _ (by decide +kernel))

/-- Such a run, in which the second thread has changed all three while the first one packs: the packet has the old xid, the old cookie and the
new priority. -/
example : ∃ ws ts w, Through (asThreads, .obj "04.FlowMod" thFlow) ws (ts, w) ∧
    resultOf 0 (ts, w) = some (.bytes (pyPack libs (put (.obj "04.FlowMod" thFlow) [7] (.int 6)))) := by
  obtain ⟨ws, ts, w, h1, h2, _⟩ := through_find (List.replicate 55 0 ++ List.replicate 4 1 ++ List.replicate 300 0) (asThreads, .obj "04.FlowMod" thFlow)
    (fun c => resultOf 0 c = some (.bytes (pyPack libs (put (.obj "04.FlowMod" thFlow) [7] (.int 6))))) (by decide +kernel)
  exact ⟨ws, ts, w, h1, h2⟩

/-- All states in such a run are honest. -/
example : ∃ ws ts w p, Through (asThreads, .obj "04.FlowMod" thFlow) ws (ts, w) ∧ (∀ w ∈ ws, Spec.honest w = true) ∧ ts[0]? = some (.ret (.bytes (.ok p))) ∧
    beVal (slice p 2 4) = p.length := by
  obtain ⟨ws, ts, w, h1, ⟨h2, h4⟩, h3⟩ := through_find ((List.replicate 4 [0, 1, 2, 3]).flatten ++ List.replicate 300 0) (asThreads, .obj "04.FlowMod" thFlow)
    (fun c => ((resultOf 0 c).bind fun r => match r with | .bytes (.ok p) => some p | _ => none).isSome = true ∧
      (seen ((List.replicate 4 [0, 1, 2, 3]).flatten ++ List.replicate 300 0) (asThreads, Val.obj "04.FlowMod" thFlow)).all Spec.honest = true)
    (by decide +kernel)
  have hw : ∀ w ∈ ws, Spec.honest w = true := fun w hw => List.all_eq_true.1 h4 w (h3 w hw)
  cases hr : resultOf 0 (ts, w) with
  | none => rw [hr] at h2; cases h2
  | some r =>
    rw [hr] at h2
    match r with
    | .size n => cases h2
    | .bytes (.error e) => cases h2
    | .bytes (.ok p) =>
      have hp := resultOf_some hr
      exact ⟨ws, ts, w, p, h1, hw, hp, (C78_length_partial (m := thFlowMod) (vs := thFlow.tail) (by simp [messages, thFlowMod]) (by decide) asThreads_ok rfl
        (Or.inr (noPad_of _ (by decide +kernel))) h1 hw (i := 0) rfl hp).1⟩

/-- Two threads that take turns in assigning the priority. -/
example {ts : List (Prog Answer)} {ws : List Val} {w : Val} {r : Answer}
    (hr : Through ([thFlowMod.call .pack, .set [7] (.int 6) (.set [7] (.int 8) (.ret (.bytes (.ok []))))], .obj "04.FlowMod" thFlow) ws (ts, w))
    (h : ts[0]? = some (.ret r)) : r = .bytes (pyPack libs (.obj "04.FlowMod" thFlow)) ∨
    ∃ y, (∃ w ∈ ws, at? w [7] = some y) ∧ r = .bytes (pyPack libs (put (.obj "04.FlowMod" thFlow) [7] y)) :=
  C78_one_attribute (m := thFlowMod) (vs := thFlow.tail) (by simp [messages, thFlowMod])
    (fun i t h => by
      match i, h with
      | 0, h => cases h; exact Or.inl ⟨_, rfl⟩
      | 1, h =>
        cases h
        exact Or.inr ⟨⟨rfl, "priority", _, .int 5, rfl, by decide, rfl, by decide +kernel, by decide +kernel⟩,
          ⟨rfl, "priority", _, .int 5, rfl, by decide, rfl, by decide +kernel, by decide +kernel⟩, trivial⟩
      | i + 2, h => simp at h)
    rfl (Or.inr (noPad_of _ (by decide +kernel))) hr (i := 0) rfl h

/-! ## What does not hold -/

def asConfig : PMsg := plainMsg [] V04.setConfig

def asOld : List Val := [thHdr 4 9, .enum 0, .int 128]

/-- A thread assigns two attributes of a set config, one after the other, while another one packs it.  The packet may have the old value of the
first and the new value of the second attribute, which the message never had: it is the packet of none of the states of the message. -/
theorem C78_two_attributes_counterexample :
    ∃ (m : PMsg) (vs : List Val) (x y : Val) (ws : List Val) (ts : List (Prog Answer)) (w : Val) (b : Bytes), m ∈ messages ∧
      Swap m vs.tail [1] x ∧ Swap m vs.tail [2] y ∧
      Through ([m.call .pack, .set [1] x (.set [2] y (.ret (.bytes (.ok []))))], .obj m.cls.name vs) ws (ts, w) ∧
      ts[0]? = some (.ret (.bytes (.ok b))) ∧ ∀ w' ∈ ws, pyPack libs w' ≠ .ok b := by
  obtain ⟨ws, ts, w, h1, h2, h3⟩ := through_find (List.replicate 16 0 ++ [1, 1] ++ List.replicate 100 0)
    ([asConfig.call .pack, .set [1] (.enum 1) (.set [2] (.int 256) (.ret (.bytes (.ok []))))], .obj asConfig.cls.name asOld)
    (fun c => resultOf 0 c = some (.bytes (.ok [4, 9, 0, 12, 0, 0, 0, 7, 0, 0, 1, 0]))) (by decide +kernel)
  have hall : ∀ w' ∈ seen (List.replicate 16 0 ++ [1, 1] ++ List.replicate 100 0)
      ([asConfig.call .pack, .set [1] (.enum 1) (.set [2] (.int 256) (.ret (.bytes (.ok []))))], .obj asConfig.cls.name asOld),
      pyPack libs w' ≠ .ok [4, 9, 0, 12, 0, 0, 0, 7, 0, 0, 1, 0] := by decide +kernel
  exact ⟨asConfig, asOld, .enum 1, .int 256, ws, ts, w, _, by simp [asConfig, messages],
    ⟨"flags", _, .enum 0, rfl, by decide, rfl, by decide +kernel, by decide +kernel⟩,
    ⟨"miss_send_len", _, .int 128, rfl, by decide, rfl, by decide +kernel, by decide +kernel⟩, h1, resultOf_some h2, fun w' hw => hall w' (h3 w' hw)⟩

def asEcho : PMsg := plainMsg [] V04.echoRequest

/-- A thread assigns longer data to an echo request while another one packs it: the length in the header may be that of the old data and the data
the new one. -/
theorem C78_size_counterexample :
    ∃ (m : PMsg) (vs : List Val) (x : Val) (ts : List (Prog Answer)) (w : Val) (b : Bytes), m ∈ messages ∧
      (pyPack libs (.obj m.cls.name vs)).isOk = true ∧ (pyPack libs (put (.obj m.cls.name vs) [1] x)).isOk = true ∧
      Runs ([m.call .pack, .set [1] x (.ret (.bytes (.ok [])))], .obj m.cls.name vs) (ts, w) ∧
      ts[0]? = some (.ret (.bytes (.ok b))) ∧ b.length = 11 ∧ slice b 2 4 = be 2 9 := by
  obtain ⟨ts, w, h1, h2⟩ := run_find (List.replicate 7 0 ++ [1] ++ List.replicate 100 0)
    ([asEcho.call .pack, .set [1] (.bytes [1, 2, 3]) (.ret (.bytes (.ok [])))], .obj asEcho.cls.name [thHdr 4 2, .bytes [9]])
    (fun c => resultOf 0 c = some (.bytes (.ok [4, 2, 0, 9, 0, 0, 0, 7, 1, 2, 3]))) (by decide +kernel)
  exact ⟨asEcho, [thHdr 4 2, .bytes [9]], .bytes [1, 2, 3], ts, w, _, by simp [asEcho, messages], by decide +kernel, by decide +kernel, h1,
    resultOf_some h2, by decide, by decide⟩

def asPacketOut : PMsg := packetOutMsg V01.packetOut (leafP V01.actions) 3 5

def asSend : List Val := [thHdr 1 13, .int 1, .int 1, .none, .list true [], .bytes [9]]

/-- A thread assigns an `in_port` that is not allowed while another one packs the packet out: `pack()` may have validated the old one already, and
returns a packet with the new one. -/
theorem C78_validated_counterexample :
    ∃ (m : PMsg) (vs : List Val) (x : Val) (ts : List (Prog Answer)) (w : Val) (b : Bytes), m ∈ messages ∧
      (pyPack libs (.obj m.cls.name vs)).isOk = true ∧ pyPack libs (put (.obj m.cls.name vs) [2] x) = .error .validation ∧
      Runs ([m.call .pack, .set [2] x (.ret (.bytes (.ok [])))], .obj m.cls.name vs) (ts, w) ∧ ts[0]? = some (.ret (.bytes (.ok b))) ∧ slice b 12 14 = [0, 0] := by
  obtain ⟨ts, w, h1, h2⟩ := run_find (List.replicate 16 0 ++ [1] ++ List.replicate 100 0)
    ([asPacketOut.call .pack, .set [2] (.int 0) (.ret (.bytes (.ok [])))], .obj asPacketOut.cls.name asSend)
    (fun c => resultOf 0 c = some (.bytes (.ok [1, 13, 0, 17, 0, 0, 0, 7, 0, 0, 0, 1, 0, 0, 0, 0, 9]))) (by decide +kernel)
  exact ⟨asPacketOut, asSend, .int 0, ts, w, _, by simp [asPacketOut, messages], by decide +kernel, by decide +kernel, h1,
    resultOf_some h2, by decide⟩

def asIp : List Val :=
  [.int 0, .int 0, .int 0, .int 1, .int 0, .int 64, .int 6, .int 0, .str "10.0.0.1".toList, .str "10.0.0.2".toList, .bytes [], .bytes [1, 2],
   .int 4, .int 5, .int 0, .int 0, .int 0, .int 0]

/-- Network packets do not even have the property for one attribute of constant size: if a thread decrements the TTL of an IPv4 packet while another
one packs it, the checksum may be that of the old and the TTL the new one, and the sum over the header (RFC 791) is not 0xffff.  It is in both
packets, that with the old and that with the new TTL. -/
theorem C78_checksum_counterexample :
    ∃ (vs : List Val) (x : Val) (ts : List (Prog (Res Bytes))) (w : Val) (b old new : Bytes),
      Net.packNet (.obj "net.IPv4" vs) = .ok old ∧ Net.packNet (put (.obj "net.IPv4" vs) [5] x) = .ok new ∧
      onesSum (old.take 20) = 0xffff ∧ onesSum (new.take 20) = 0xffff ∧
      Runs ([Net.ipv4Steps, .set [5] x (.ret (.ok []))], .obj "net.IPv4" vs) (ts, w) ∧ ts[0]? = some (.ret (.ok b)) ∧ onesSum (b.take 20) ≠ 0xffff := by
  obtain ⟨ts, w, h1, h2⟩ := run_find (List.replicate 21 0 ++ [1] ++ List.replicate 100 0)
    ([Net.ipv4Steps, .set [5] (.int 63) (.ret (.ok []))], .obj "net.IPv4" asIp)
    (fun c => resultOf 0 c = some (.ok [69, 0, 0, 22, 0, 1, 0, 0, 63, 6, 102, 223, 10, 0, 0, 1, 10, 0, 0, 2, 1, 2])) (by decide +kernel)
  exact ⟨asIp, .int 63, ts, w, _, [69, 0, 0, 22, 0, 1, 0, 0, 64, 6, 102, 223, 10, 0, 0, 1, 10, 0, 0, 2, 1, 2],
    [69, 0, 0, 22, 0, 1, 0, 0, 63, 6, 103, 223, 10, 0, 0, 1, 10, 0, 0, 2, 1, 2], by decide +kernel, by decide +kernel, by decide, by decide, h1,
    resultOf_some h2, by decide⟩

end Pyof.Props
