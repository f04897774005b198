import Verif.Spec.Watch
import Verif.Lemmas.Decode
/-!
# Threads that read while one decodes
-/
namespace Pyof.Decode
open Pyof Pyof.Spec

/-- What the decoding thread knows of addresses: the value, and whether nobody else has the address. -/
abbrev Own := Nat → Option (Val × Bool)

/-- From here on the decoding thread stores in the object `o`, which now has the dictionary `d`, only values that satisfy `P`, and changes none
that it has stored. -/
def Wr {α : Type} (o : Nat) (P : String → Val → Prop) : Steps α → Dict → Own → Prop
  | .ret _, _, _ => True
  | .new v k, d, K => ∀ a, K a = none → Wr o P (k a) d (setK K a (v, true))
  | .link o' n a k, d, K => o' = o ∧ ∃ v, K a = some (v, true) ∧ P n v ∧ Wr o P k (d.set n v) (setK K a (v, false))
  | .put a v k, d, K => (∃ u, K a = some (u, true)) ∧ Wr o P k d (setK K a (v, true))
  | .read a k, d, K => ∃ v b, K a = some (v, b) ∧ Wr o P (k v) d K
  | .look o' n k, d, K => o' = o ∧ ∀ a v, d.lookup n = some v → (∀ x, K a = some x → x = (v, false)) → Wr o P (k a) d (setK K a (v, false))

/-- From here on the thread changes neither the object `o` nor values it has not made. -/
def Guest {α : Type} (o : Nat) : Steps α → (Nat → Prop) → Prop
  | .ret _, _ => True
  | .new _ k, S => ∀ a, Guest o (k a) (fun b => b = a ∨ S b)
  | .link o' _ _ k, S => o' ≠ o ∧ Guest o k S
  | .put a _ k, S => S a ∧ Guest o k S
  | .read _ k, S => ∀ v, Guest o (k v) S
  | .look _ _ k, S => ∀ a, Guest o (k a) S

/-- What a reading thread is about to do: `S` are the addresses whose values are settled. -/
def Reading (o : Nat) (P : String → Val → Prop) (S : Nat → Prop) (heap : List Val) (ns : List String) (t : Steps (List Val)) : Prop :=
  ∃ done got rest, ns = done ++ rest ∧ Each P done got ∧
    (t = readAll o got rest ∨ ∃ n rest' a v, rest = n :: rest' ∧ S a ∧ heap[a]? = some v ∧ P n v ∧ t = .read a fun v => readAll o (got ++ [v]) rest')

theorem each_snoc {α β : Type} {R : α → β → Prop} {as : List α} {bs : List β} (h : Each R as bs) {a : α} {b : β} (hr : R a b) :
    Each R (as ++ [a]) (bs ++ [b]) := by
  induction h with
  | nil => exact .cons hr .nil
  | cons h _ ih => exact .cons h ih

structure Watched (o : Nat) (P : String → Val → Prop) (d0 : Dict) (others : List (Steps (List Val))) (ts : List (Steps (List Val))) (w : Mem)
    (d : Dict) (K : Own) (S : Nat → Prop) (own : Nat → Nat → Prop) (refs : List (String × Nat)) : Prop where
  writer : ∀ t, ts[0]? = some t → Wr o P t d K
  obj : w.objs[o]? = some refs
  dict : ∀ n, d.lookup n = (refs.lookup n).bind (w.heap[·]?)
  settled : ∀ n a, refs.lookup n = some a → S a
  shows : ∀ n v, d.lookup n = some v → P n v
  keys : ∀ n, (d0.lookup n).isSome → (refs.lookup n).isSome
  known : ∀ a x, K a = some x → w.heap[a]? = some x.1
  mine : ∀ a v, K a = some (v, true) → ¬ S a ∧ ∀ i, ¬ own i a
  published : ∀ a v, K a = some (v, false) → S a
  old : ∀ a, S a → a < w.heap.length ∧ ∀ i, ¬ own i a
  theirs : ∀ i a, own i a → a < w.heap.length
  apart : ∀ i j a, own i a → own j a → i = j
  guests : ∀ (i : Nat) t, ts[i + 1]? = some t → Guest o t (own i)
  readers : ∀ (i : Nat) t ns, ts[i + 1]? = some t → others[i]? = some (readAll o [] ns) → (∀ n ∈ ns, (d0.lookup n).isSome) →
    Reading o P S w.heap ns t

variable {o : Nat} {P : String → Val → Prop} {d0 : Dict} {others ts : List (Steps (List Val))} {w : Mem} {d : Dict} {K : Own}
  {S : Nat → Prop} {own : Nat → Nat → Prop} {refs : List (String × Nat)}

theorem Reading.keep {S S' : Nat → Prop} {heap heap' : List Val} {ns : List String} {t : Steps (List Val)} (h : Reading o P S heap ns t)
    (hS : ∀ a, S a → S' a) (hh : ∀ a, S a → heap'[a]? = heap[a]?) : Reading o P S' heap' ns t := by
  obtain ⟨dn, got, rest, e, he, h⟩ := h
  refine ⟨dn, got, rest, e, he, h.imp_right ?_⟩
  rintro ⟨n, r, a, v, h1, h2, h3, h4, h5⟩
  exact ⟨n, r, a, v, h1, hS a h2, (hh a h2).trans h3, h4, h5⟩

/-- A step of the decoding thread. -/
theorem Watched.write (h : Watched o P d0 others ts w d K S own refs) {t t' : Steps (List Val)} {w' : Mem} (ht : ts[0]? = some t)
    (hs : Step (t, w) (t', w')) : ∃ d' K' S' refs', Watched o P d0 others (ts.set 0 t') w' d' K' S' own refs' := by
  have hw := h.writer t ht
  have at0 : ∀ s, (ts.set 0 t')[0]? = some s → s = t' := by
    intro s e
    rw [List.getElem?_set] at e
    simp only [if_true] at e
    split at e
    · exact (Option.some.inj e).symm
    · cases e
  have ats : ∀ i : Nat, (ts.set 0 t')[i + 1]? = ts[i + 1]? := fun i => by rw [List.getElem?_set_ne (by omega)]
  cases hs with
  | new v k =>
    have hfresh : K w.heap.length = none := by
      cases e : K w.heap.length with
      | none => rfl
      | some x => have := h.known _ x e; simp at this
    have hin : ∀ a, a < w.heap.length → (w.heap ++ [v])[a]? = w.heap[a]? := fun a ha => List.getElem?_append_left ha
    refine ⟨d, setK K w.heap.length (v, true), S, refs, ⟨?_, h.obj, ?_, h.settled, h.shows, h.keys, ?_, ?_, ?_, ?_, ?_, h.apart, ?_, ?_⟩⟩
    · intro s e; rw [at0 s e]; exact hw _ hfresh
    · intro n
      rw [h.dict n]
      cases e : refs.lookup n with
      | none => rfl
      | some a => exact (hin a (h.old a (h.settled n a e)).1).symm
    · intro a x e
      by_cases ha : a = w.heap.length
      · subst ha; rw [setK_self] at e; cases e; simp
      · rw [setK_ne _ _ ha] at e
        have := h.known a x e
        rw [← this]; exact hin a (List.getElem?_eq_some_iff.1 this).1
    · intro a u e
      by_cases ha : a = w.heap.length
      · subst ha
        exact ⟨fun hS => absurd (h.old _ hS).1 (by omega), fun i ho => absurd (h.theirs i _ ho) (by omega)⟩
      · rw [setK_ne _ _ ha] at e; exact h.mine a u e
    · intro a u e
      by_cases ha : a = w.heap.length
      · subst ha; rw [setK_self] at e; cases e
      · rw [setK_ne _ _ ha] at e; exact h.published a u e
    · intro a hS; exact ⟨by have := (h.old a hS).1; simp; omega, (h.old a hS).2⟩
    · intro i a ho; have := h.theirs i a ho; simp; omega
    · intro i s e; rw [ats] at e; exact h.guests i s e
    · intro i s ns e; rw [ats] at e
      exact fun h1 h2 => (h.readers i s ns e h1 h2).keep (fun _ x => x) fun a hS => hin a (h.old a hS).1
  | @link o' n a k _ r hr =>
    obtain ⟨rfl, v, hK, hP, hw⟩ := hw
    have e : r = refs := Option.some.inj (hr.symm.trans h.obj)
    subst e
    have hol : o' < w.objs.length := (List.getElem?_eq_some_iff.1 hr).1
    have hv : w.heap[a]? = some v := h.known a _ hK
    have ne : ∀ b u, K b = some (u, true) → b ≠ a → ¬ (S b ∨ b = a) := fun b u e hb => fun x => x.elim (h.mine b u e).1 hb
    refine ⟨d.set n v, setK K a (v, false), fun b => S b ∨ b = a, setRef r n a, ⟨?_, ?_, ?_, ?_, ?_, ?_, ?_, ?_, ?_, ?_, h.theirs, h.apart, ?_, ?_⟩⟩
    · intro s e; rw [at0 s e]; exact hw
    · simp only [List.getElem?_set_self hol]
    · intro m
      rw [set_lookup, setRef_lookup]
      by_cases hm : m = n
      · simp [hm, hv]
      · simp only [hm, if_false]; exact h.dict m
    · intro m b e
      rw [setRef_lookup] at e
      by_cases hm : m = n
      · simp only [hm, if_true] at e; cases e; exact .inr rfl
      · simp only [hm, if_false] at e; exact .inl (h.settled m b e)
    · intro m u e
      rw [set_lookup] at e
      by_cases hm : m = n
      · simp only [hm, if_true] at e; cases e; rw [hm]; exact hP
      · simp only [hm, if_false] at e; exact h.shows m u e
    · intro m e
      rw [setRef_lookup]
      by_cases hm : m = n
      · simp [hm]
      · simp only [hm, if_false]; exact h.keys m e
    · intro b x e
      by_cases hb : b = a
      · subst hb; rw [setK_self] at e; cases e; exact hv
      · rw [setK_ne _ _ hb] at e; exact h.known b x e
    · intro b u e
      by_cases hb : b = a
      · subst hb; rw [setK_self] at e; cases e
      · rw [setK_ne _ _ hb] at e; exact ⟨ne b u e hb, (h.mine b u e).2⟩
    · intro b u e
      by_cases hb : b = a
      · exact .inr hb
      · rw [setK_ne _ _ hb] at e; exact .inl (h.published b u e)
    · rintro b (hS | rfl)
      · exact h.old b hS
      · exact ⟨(List.getElem?_eq_some_iff.1 hv).1, (h.mine b v hK).2⟩
    · intro i s e; rw [ats] at e; exact h.guests i s e
    · intro i s ns e; rw [ats] at e
      exact fun h1 h2 => (h.readers i s ns e h1 h2).keep (fun _ x => .inl x) fun _ _ => rfl
  | @put a v k _ ha =>
    obtain ⟨⟨u, hK⟩, hw⟩ := hw
    have hn := (h.mine a u hK).1
    have hin : ∀ b, S b → (w.heap.set a v)[b]? = w.heap[b]? := fun b hb => List.getElem?_set_ne fun (e : a = b) => hn (by rw [e]; exact hb)
    refine ⟨d, setK K a (v, true), S, refs, ⟨?_, h.obj, ?_, h.settled, h.shows, h.keys, ?_, ?_, ?_, ?_, ?_, h.apart, ?_, ?_⟩⟩
    · intro s e; rw [at0 s e]; exact hw
    · intro n
      rw [h.dict n]
      cases e : refs.lookup n with
      | none => rfl
      | some b => exact (hin b (h.settled n b e)).symm
    · intro b x e
      by_cases hb : b = a
      · subst hb; rw [setK_self] at e; cases e; exact List.getElem?_set_self ha
      · rw [setK_ne _ _ hb] at e
        exact (List.getElem?_set_ne (Ne.symm hb)).trans (h.known b x e)
    · intro b u' e
      by_cases hb : b = a
      · subst hb; exact h.mine b u hK
      · rw [setK_ne _ _ hb] at e; exact h.mine b u' e
    · intro b u' e
      by_cases hb : b = a
      · subst hb; rw [setK_self] at e; cases e
      · rw [setK_ne _ _ hb] at e; exact h.published b u' e
    · intro b hS; exact ⟨by simpa using (h.old b hS).1, (h.old b hS).2⟩
    · intro i b ho; simpa using h.theirs i b ho
    · intro i s e; rw [ats] at e; exact h.guests i s e
    · intro i s ns e; rw [ats] at e
      exact fun h1 h2 => (h.readers i s ns e h1 h2).keep (fun _ x => x) hin
  | @read a v k _ ha =>
    obtain ⟨u, b, hK, hw⟩ := hw
    have : u = v := Option.some.inj ((h.known a _ hK).symm.trans ha)
    subst this
    exact ⟨d, K, S, refs, { h with
      writer := fun s e => by rw [at0 s e]; exact hw
      guests := fun i s e => by rw [ats] at e; exact h.guests i s e
      readers := fun i s ns e => by rw [ats] at e; exact h.readers i s ns e }⟩
  | @look o' n a k _ r hr hl =>
    obtain ⟨rfl, hw⟩ := hw
    have e : r = refs := Option.some.inj (hr.symm.trans h.obj)
    subst e
    have hS := h.settled n a hl
    obtain ⟨v, hv⟩ : ∃ v, w.heap[a]? = some v := ⟨_, List.getElem?_eq_getElem (h.old a hS).1⟩
    have hd : d.lookup n = some v := by rw [h.dict n, hl]; exact hv
    have hK : ∀ x, K a = some x → x = (v, false) := by
      rintro ⟨u, b⟩ e
      have e1 : u = v := Option.some.inj ((h.known a _ e).symm.trans hv)
      subst e1
      cases b with
      | false => rfl
      | true => exact absurd hS (h.mine a u e).1
    refine ⟨d, setK K a (v, false), S, r, { h with writer := ?_, known := ?_, mine := ?_, published := ?_, guests := ?_, readers := ?_ }⟩
    · intro s e; rw [at0 s e]; exact hw a v hd hK
    · intro b x e
      by_cases hb : b = a
      · subst hb; rw [setK_self] at e; cases e; exact hv
      · rw [setK_ne _ _ hb] at e; exact h.known b x e
    · intro b u e
      by_cases hb : b = a
      · subst hb; rw [setK_self] at e; cases e
      · rw [setK_ne _ _ hb] at e; exact h.mine b u e
    · intro b u e
      by_cases hb : b = a
      · subst hb; exact hS
      · rw [setK_ne _ _ hb] at e; exact h.published b u e
    · exact fun i s e => by rw [ats] at e; exact h.guests i s e
    · exact fun i s ns e => by rw [ats] at e; exact h.readers i s ns e
  | missing hr hl =>
    exact ⟨d, K, S, refs, { h with
      writer := fun s e => by rw [at0 s e]; exact trivial
      guests := fun i s e => by rw [ats] at e; exact h.guests i s e
      readers := fun i s ns e => by rw [ats] at e; exact h.readers i s ns e }⟩

/-- A step of a reading thread on its way. -/
theorem Reading.step (h : Watched o P d0 others ts w d K S own refs) {ns : List String} (hns : ∀ n ∈ ns, (d0.lookup n).isSome)
    {t t' : Steps (List Val)} {w' : Mem} (hr : Reading o P S w.heap ns t) (hs : Step (t, w) (t', w')) : w' = w ∧ Reading o P S w.heap ns t' := by
  obtain ⟨dn, got, rest, e, he, h1⟩ := hr
  rcases h1 with rfl | ⟨n, rest', a, v, rfl, hS, hv, hP, rfl⟩
  · cases rest with
    | nil => cases hs
    | cons n rest =>
      cases hs with
      | @look _ _ a _ _ r hr hl =>
        have e' : r = refs := Option.some.inj (hr.symm.trans h.obj)
        subst e'
        have hS := h.settled n a hl
        obtain ⟨v, hv⟩ : ∃ v, w.heap[a]? = some v := ⟨_, List.getElem?_eq_getElem (h.old a hS).1⟩
        exact ⟨rfl, dn, got, _, e, he, .inr ⟨n, rest, a, v, rfl, hS, hv, h.shows n v (by rw [h.dict n, hl]; exact hv), rfl⟩⟩
      | @missing _ _ _ _ r hr hl =>
        have e' : r = refs := Option.some.inj (hr.symm.trans h.obj)
        subst e'
        have := h.keys n (hns n (by rw [e]; simp))
        rw [hl] at this; cases this
  · cases hs with
    | @read _ u _ _ ha =>
      have : u = v := Option.some.inj (ha.symm.trans hv)
      subst this
      exact ⟨rfl, dn ++ [n], got ++ [u], rest', by rw [e]; simp, each_snoc he hP, .inl rfl⟩

/-- A step of another thread. -/
theorem Watched.other (h : Watched o P d0 others ts w d K S own refs) {i : Nat} {t t' : Steps (List Val)} {w' : Mem} (ht : ts[i + 1]? = some t)
    (hs : Step (t, w) (t', w')) : ∃ own', Watched o P d0 others (ts.set (i + 1) t') w' d K S own' refs := by
  have hg := h.guests i t ht
  have at0 : (ts.set (i + 1) t')[0]? = ts[0]? := by rw [List.getElem?_set_ne (by omega)]
  have ati : ∀ s, (ts.set (i + 1) t')[i + 1]? = some s → s = t' := by
    intro s e
    rw [List.getElem?_set] at e
    simp only [if_true] at e
    split at e
    · exact (Option.some.inj e).symm
    · cases e
  have atn : ∀ j : Nat, j ≠ i → (ts.set (i + 1) t')[j + 1]? = ts[j + 1]? := fun j hj => by rw [List.getElem?_set_ne (by omega)]
  have wr : ∀ s, (ts.set (i + 1) t')[0]? = some s → Wr o P s d K := fun s e => h.writer s (by rw [← at0]; exact e)
  have rd : ∀ (j : Nat) s ns, (ts.set (i + 1) t')[j + 1]? = some s → others[j]? = some (readAll o [] ns) → (∀ n ∈ ns, (d0.lookup n).isSome) →
      Reading o P S w.heap ns s := by
    intro j s ns e h1 h2
    by_cases hj : j = i
    · subst hj
      rw [ati s e]
      exact (Reading.step h h2 (h.readers j t ns ht h1 h2) hs).2
    · rw [atn j hj] at e; exact h.readers j s ns e h1 h2
  have gd : ∀ own' : Nat → Nat → Prop, (∀ j, j ≠ i → own' j = own j) → Guest o t' (own' i) →
      ∀ (j : Nat) s, (ts.set (i + 1) t')[j + 1]? = some s → Guest o s (own' j) := by
    intro own' h1 h2 j s e
    by_cases hj : j = i
    · subst hj; rw [ati s e]; exact h2
    · rw [atn j hj] at e; rw [h1 j hj]; exact h.guests j s e
  cases hs with
  | new v k =>
    have hin : ∀ a, a < w.heap.length → (w.heap ++ [v])[a]? = w.heap[a]? := fun a ha => List.getElem?_append_left ha
    refine ⟨fun j b => (j = i ∧ b = w.heap.length) ∨ own j b, ⟨wr, h.obj, ?_, h.settled, h.shows, h.keys, ?_, ?_, h.published, ?_, ?_, ?_, ?_, ?_⟩⟩
    · intro n
      rw [h.dict n]
      cases e : refs.lookup n with
      | none => rfl
      | some a => exact (hin a (h.old a (h.settled n a e)).1).symm
    · intro a x e
      have := h.known a x e
      rw [← this]; exact hin a (List.getElem?_eq_some_iff.1 this).1
    · intro a u e
      have ha := (List.getElem?_eq_some_iff.1 (h.known a _ e)).1
      exact ⟨(h.mine a u e).1, fun j x => x.elim (fun y => by omega) ((h.mine a u e).2 j)⟩
    · intro a hS
      have ha := (h.old a hS).1
      exact ⟨by simp; omega, fun j x => x.elim (fun y => by omega) ((h.old a hS).2 j)⟩
    · rintro j a (⟨_, rfl⟩ | ho)
      · simp
      · have := h.theirs j a ho; simp; omega
    · rintro j l a (⟨rfl, rfl⟩ | ho) (⟨rfl, h2⟩ | ho')
      · rfl
      · exact absurd (h.theirs l _ ho') (by omega)
      · subst h2; exact absurd (h.theirs j _ ho) (by omega)
      · exact h.apart j l a ho ho'
    · refine gd _ (fun j hj => ?_) ?_
      · funext b; simp [hj]
      · have := hg w.heap.length
        simpa using this
    · intro j s ns e h1 h2
      exact (rd j s ns e h1 h2).keep (fun _ x => x) fun a hS => hin a (h.old a hS).1
  | @link o' n a k _ r hr =>
    refine ⟨own, { h with writer := wr, obj := ?_, guests := gd own (fun _ _ => rfl) hg.2, readers := rd }⟩
    exact (List.getElem?_set_ne hg.1).trans h.obj
  | @put a v k _ ha =>
    have hin : ∀ b, (¬ own i b) → (w.heap.set a v)[b]? = w.heap[b]? := fun b hb => List.getElem?_set_ne fun (e : a = b) => hb (by rw [← e]; exact hg.1)
    refine ⟨own, ⟨wr, h.obj, ?_, h.settled, h.shows, h.keys, ?_, h.mine, h.published, ?_, ?_, h.apart, gd own (fun _ _ => rfl) hg.2, ?_⟩⟩
    · intro n
      rw [h.dict n]
      cases e : refs.lookup n with
      | none => rfl
      | some b => exact (hin b ((h.old b (h.settled n b e)).2 i)).symm
    · rintro b ⟨u, f⟩ e
      refine (hin b ?_).trans (h.known b _ e)
      cases f with
      | true => exact (h.mine b u e).2 i
      | false => exact (h.old b (h.published b u e)).2 i
    · intro b hS; exact ⟨by simpa using (h.old b hS).1, (h.old b hS).2⟩
    · intro j b ho; simpa using h.theirs j b ho
    · intro j s ns e h1 h2
      exact (rd j s ns e h1 h2).keep (fun _ x => x) fun b hS => hin b ((h.old b hS).2 i)
  | read ha => exact ⟨own, { h with writer := wr, guests := gd own (fun _ _ => rfl) (hg _), readers := rd }⟩
  | look hr hl => exact ⟨own, { h with writer := wr, guests := gd own (fun _ _ => rfl) (hg _), readers := rd }⟩
  | missing hr hl => exact ⟨own, { h with writer := wr, guests := gd own (fun _ _ => rfl) trivial, readers := rd }⟩

theorem Watched.runs {ts' : List (Steps (List Val))} {w' : Mem} (h : Watched o P d0 others ts w d K S own refs) (hr : Runs (ts, w) (ts', w')) :
    ∃ d K S own refs, Watched o P d0 others ts' w' d K S own refs := by
  generalize ha : (ts, w) = a at hr
  generalize hb : (ts', w') = b at hr
  induction hr generalizing ts' w' with
  | refl => subst ha; cases hb; exact ⟨_, _, _, _, _, h⟩
  | @step b c _ s ih =>
    subst hb
    obtain ⟨ts1, w1⟩ := b
    obtain ⟨d, K, S, own, refs, h1⟩ := ih rfl
    cases s with
    | @mk _ i t t' _ _ hi hs =>
      cases i with
      | zero => obtain ⟨d', K', S', refs', h2⟩ := h1.write hi hs; exact ⟨_, _, _, _, _, h2⟩
      | succ i => obtain ⟨own', h2⟩ := h1.other hi hs; exact ⟨_, _, _, _, _, h2⟩

/-! ## The decoding thread -/

theorem bind_assoc {α β γ : Type} (p : Steps α) (f : α → Steps β) (g : β → Steps γ) : (p.bind f).bind g = p.bind fun a => (f a).bind g := by
  induction p with
  | ret r => cases r <;> rfl
  | new v k ih => simp only [Steps.bind, ih]
  | link o n a k ih => simp only [Steps.bind, ih]
  | put a v k ih => simp only [Steps.bind, ih]
  | read a k ih => simp only [Steps.bind, ih]
  | look o n k ih => simp only [Steps.bind, ih]

theorem wr_decode {α : Type} {a : Nat} {junk : Val} {r : Res Val} {g : Unit → Steps α} (hg : ∀ v K, r = .ok v → K a = some (v, true) →
    Wr o P (g ()) d K) : ∀ (mid : List Val) {K : Own}, (∃ u, K a = some (u, true)) → Wr o P ((decodeAt a mid junk r).bind g) d K
  | v :: mid, _, hu => ⟨hu, wr_decode hg mid ⟨v, setK_self ..⟩⟩
  | [], K, hu => by
    cases r with
    | ok v => exact ⟨hu, hg v _ rfl (setK_self ..)⟩
    | error e => exact ⟨hu, trivial⟩

theorem runSets_other {ops : List (String × Val)} {n : String} (h : ∀ x ∈ ops, x.1 ≠ n) : ∀ d : Dict, (runSets d ops).lookup n = d.lookup n := by
  induction ops with
  | nil => exact fun _ => rfl
  | cons x ops ih =>
    intro d
    have := ih (fun y hy => h y (List.mem_cons_of_mem _ hy)) (d.set x.1 x.2)
    rw [set_lookup, if_neg (Ne.symm (h x (List.mem_cons_self ..)))] at this
    exact this

theorem sets_other {α : Type} {names : List String} {p : Meth α} (hp : OnlySets names p) {n : String} (hn : n ∉ names) (d : Dict) :
    (p.run d).2.lookup n = d.lookup n := by
  obtain ⟨ops, h1, h2⟩ := hp d
  rw [h2]
  exact runSets_other (fun x hx (e : x.1 = n) => hn (by rw [← e]; exact h1 x hx)) d

/-- One attribute: made, stored when it is complete, then the rest. -/
theorem wr_attribute {n : String} {c : Attr} {a : Nat} {mid : List Val} {junk : Val} {r : Res Val} {rest : Nat → Steps Unit} {f : Unit → Steps α}
    {K : Own} (hu : ∃ u, K a = some (u, true)) (h : ∀ v K, r = .ok v → P n v ∧ ∀ size, c.usize v = .ok size → Wr o P ((rest size).bind f) (d.set n v) K) :
    Wr o P (((decodeAt a mid junk r).bind fun _ => .link o n a (.read a fun v => (Steps.ret (c.usize v)).bind rest)).bind f) d K := by
  rw [bind_assoc]
  refine wr_decode (fun v K' e hK => ?_) mid hu
  refine ⟨rfl, v, hK, (h v K' e).1, v, false, setK_self .., ?_⟩
  show Wr o P (((Steps.ret (c.usize v)).bind rest).bind f) _ _
  rw [bind_assoc]
  cases hs : c.usize v with
  | error _ => exact trivial
  | ok size => exact (h v _ e).2 size hs

theorem wr_ethernet {f : Unit → Steps α} (hf : ∀ d K, Wr o P (f ()) d K) (mid : String → List Val) (junk : Val) (len : Nat) :
    ∀ {fs : Fields} (_ : (fs.map (·.1)).Nodup) (buff : Bytes) (b : Nat) (d : Dict) (K : Own),
      (∀ n v, n ∈ fs.map (·.1) → ((Net.ethernetLoopInto len fs buff b).run d).2.lookup n = some v → P n v) →
      Wr o P ((ethernetLoopInto o mid junk len fs buff b).bind f) d K
  | [], _, _, _, d, K, _ => hf d K
  | (n, c) :: fs, hn, buff, b, d, K, hP => by
    have hn := List.nodup_cons.1 hn
    intro a ha
    refine wr_attribute ⟨_, setK_self ..⟩ fun v K' e => ?_
    have run : ((Net.ethernetLoopInto len ((n, c) :: fs) buff b).run d).2 = match c.usize v with
        | .ok size => ((Net.ethernetLoopInto len fs buff (b + size)).run (d.set n v)).2
        | .error _ => d.set n v := by
      rw [Net.ethernetLoopInto]
      have : (if n = "vlans" then Meth.call (c.unpack (slice buff b (b + len)) 0) else Meth.call (c.unpack buff b)).run d = (.ok v, d) := by
        split
        · rename_i h; rw [if_pos h] at e; rw [e]; rfl
        · rename_i h; rw [if_neg h] at e; rw [e]; rfl
      simp only [bind_eq, this, setattr_eq, call_eq]
      cases c.usize v <;> rfl
    constructor
    · refine hP n v (by simp) ?_
      rw [run]
      split
      · rw [(ethernetLoop_sees fs hn.2 buff _).2 _ _ hn.1, set_lookup, if_pos rfl]
      · rw [set_lookup, if_pos rfl]
    · intro size hs
      rw [hs] at run
      refine wr_ethernet hf mid junk len hn.2 buff (b + size) (d.set n v) K' (fun m u hm h2 => ?_)
      exact hP m u (by simp only [List.map_cons, List.mem_cons]; exact .inr hm) (by rw [run]; exact h2)

theorem wr_packetOut {f : Unit → Steps α} (hf : ∀ d K, Wr o P (f ()) d K) (mid : String → List Val) (junk : Val) :
    ∀ {fs : Fields} (_ : (fs.map (·.1)).Nodup) (buff : Bytes) (b : Nat) (d : Dict) (K : Own),
      (∀ n v, n ∈ fs.map (·.1) → ((Pyof.packetOutInto fs buff b).run d).2.lookup n = some v → P n v) →
      Wr o P ((packetOutInto o mid junk fs buff b).bind f) d K
  | [], _, _, _, d, K, _ => hf d K
  | (n, c) :: fs, hn, buff, b, d, K, hP => by
    have hn := List.nodup_cons.1 hn
    intro a ha
    have go : ∀ (r : Res Val) (K : Own), (∃ u, K a = some (u, true)) →
        (∀ v, r = .ok v → (if n = "actions" then Meth.getattr "actions_len" >>= fun l => Meth.call (c.unpack (slice buff b (b + gotNum l)) 0)
          else Meth.call (c.unpack buff b)).run d = (.ok v, d)) →
        Wr o P (((decodeAt a (mid n) junk r).bind fun _ => .link o n a (.read a fun v => (Steps.ret (c.usize v)).bind fun size =>
          packetOutInto o mid junk fs buff (b + size))).bind f) d K := by
      intro r K hu hr
      refine wr_attribute hu fun v K' e => ?_
      have run : ((Pyof.packetOutInto ((n, c) :: fs) buff b).run d).2 = match c.usize v with
          | .ok size => ((Pyof.packetOutInto fs buff (b + size)).run (d.set n v)).2
          | .error _ => d.set n v := by
        rw [Pyof.packetOutInto]
        have := hr v e
        simp only [bind_eq, this, setattr_eq, call_eq] at this ⊢
        cases c.usize v <;> rfl
      constructor
      · refine hP n v (by simp) ?_
        rw [run]
        split
        · rw [sets_other (sets_packetOut (self_names fs)) hn.1, set_lookup, if_pos rfl]
        · rw [set_lookup, if_pos rfl]
      · intro size hs
        rw [hs] at run
        refine wr_packetOut hf mid junk hn.2 buff (b + size) (d.set n v) K' (fun m u hm h2 => ?_)
        exact hP m u (by simp only [List.map_cons, List.mem_cons]; exact .inr hm) (by rw [run]; exact h2)
    by_cases hact : n = "actions"
    · simp only [hact, if_true] at go ⊢
      rw [bind_assoc, bind_assoc]
      refine ⟨rfl, fun a' l hl hK => ⟨l, false, setK_self .., ?_⟩⟩
      show Wr o P ((decodeAt a _ junk (c.unpack (slice buff b (b + gotNum l)) 0)).bind _) d _
      have : a ≠ a' := by
        rintro rfl
        have := hK _ (setK_self ..)
        simp at this
      have := go (c.unpack (slice buff b (b + gotNum l)) 0) (setK (setK K a (c.proto, true)) a' (l, false))
        ⟨_, by rw [setK_ne _ _ this, setK_self]⟩ (fun v e => by simp only [bind_eq, Meth.getattr, hl, e, call_eq])
      rw [bind_assoc] at this
      exact this
    · simp only [hact, if_false] at go ⊢
      exact go _ _ ⟨_, setK_self ..⟩ fun v e => by rw [e]; rfl

theorem wr_set {n : String} {v : Val} {f : Unit → Steps α} (hP : P n v) (h : ∀ K, Wr o P (f ()) (d.set n v) K) (K : Own) :
    Wr o P ((setattr o n v).bind f) d K := fun a _ => ⟨rfl, v, setK_self .., hP, h _⟩

/-! ## The others -/

theorem guest_bind {α β : Type} {p : Steps α} {f : α → Steps β} (hf : ∀ a S, Guest o (f a) S) : ∀ {S : Nat → Prop}, Guest o p S →
    Guest o (p.bind f) S := by
  induction p with
  | ret r => intro S _; cases r with
    | ok a => exact hf a S
    | error e => exact trivial
  | new v k ih => intro S h a; exact ih a (h a)
  | link o n a k ih => intro S h; exact ⟨h.1, ih h.2⟩
  | put a v k ih => intro S h; exact ⟨h.1, ih h.2⟩
  | read a k ih => intro S h v; exact ih v (h v)
  | look o n k ih => intro S h a; exact ih a (h a)

theorem guest_decodeAt {a : Nat} {junk : Val} {r : Res Val} {S : Nat → Prop} (h : S a) : ∀ mid : List Val, Guest o (decodeAt a mid junk r) S
  | _ :: mid => ⟨h, guest_decodeAt h mid⟩
  | [] => by cases r <;> exact ⟨h, trivial⟩

/-- Whatever it has made. -/
def Harmless {α : Type} (o : Nat) (p : Steps α) : Prop := ∀ S, Guest o p S

variable {o' : Nat}

theorem Harmless.bind {α β : Type} {p : Steps α} {f : α → Steps β} (hp : Harmless o p) (hf : ∀ a, Harmless o (f a)) : Harmless o (p.bind f) :=
  fun S => guest_bind (fun a => hf a) (hp S)
theorem Harmless.then {α β : Type} {p : Steps α} {f : α → Steps β} (hp : Harmless o p) (hf : ∀ a, Harmless o (f a)) : Harmless o (p >>= f) := hp.bind hf
theorem Harmless.ret {α : Type} (r : Res α) : Harmless o (.ret r) := fun _ => trivial
theorem Harmless.pure {α : Type} (a : α) : Harmless o (Pure.pure a : Steps α) := fun _ => trivial
theorem Harmless.raise {α : Type} (e : Err) : Harmless o (Decode.raise e : Steps α) := fun _ => trivial
theorem Harmless.setattr (ho : o' ≠ o) (n : String) (v : Val) : Harmless o (setattr o' n v) := fun _ _ => ⟨ho, trivial⟩
theorem Harmless.getattr (n : String) : Harmless o (getattr o' n) := fun _ _ _ => trivial

theorem harmless_attribute (ho : o' ≠ o) (mid : List Val) (junk : Val) (n : String) (c : Attr) (buff : Bytes) (b : Nat) :
    Harmless o (unpackAttribute o' mid junk n c buff b) := by
  intro S a
  refine ⟨ho, ?_⟩
  split
  · exact trivial
  · refine guest_bind ?_ (guest_decodeAt (.inl rfl) mid)
    exact fun _ _ _ => trivial

theorem harmless_loop (ho : o' ≠ o) (mid : String → List Val) (junk : Val) (buff : Bytes) : ∀ (fs : Fields) (b : Nat),
    Harmless o (unpackLoop o' mid junk fs buff b)
  | [], _ => .ret _
  | (n, c) :: fs, b => (harmless_attribute ho _ _ _ _ _ _).bind fun _ => harmless_loop ho mid junk buff fs _

theorem harmless_replace (ho : o' ≠ o) (mid : List Val) (junk v0 : Val) (r : Res Val) : Harmless o (replaceBody o' mid junk v0 r) := by
  intro S a
  refine guest_bind ?_ (guest_decodeAt (.inl rfl) mid)
  exact fun _ _ => ⟨ho, trivial⟩

theorem harmless_packetOut (ho : o' ≠ o) (mid : String → List Val) (junk : Val) (buff : Bytes) : ∀ (fs : Fields) (b : Nat),
    Harmless o (packetOutInto o' mid junk fs buff b)
  | [], _ => .ret _
  | (n, c) :: fs, b => by
    intro S a
    refine guest_bind ?_ ?_
    · intro _ S
      refine ⟨ho, fun v => ?_⟩
      exact (Harmless.ret _).bind (fun _ => harmless_packetOut ho mid junk buff fs _) S
    · split
      · exact fun _ _ => guest_decodeAt (.inl rfl) _
      · exact guest_decodeAt (.inl rfl) _

theorem harmless_ethernet (ho : o' ≠ o) (mid : String → List Val) (junk : Val) (len : Nat) (buff : Bytes) : ∀ (fs : Fields) (b : Nat),
    Harmless o (ethernetLoopInto o' mid junk len fs buff b)
  | [], _ => .ret _
  | (n, c) :: fs, b => by
    intro S a
    refine guest_bind ?_ (guest_decodeAt (.inl rfl) _)
    intro _ S
    refine ⟨ho, fun v => ?_⟩
    exact (Harmless.ret _).bind (fun _ => harmless_ethernet ho mid junk len buff fs _) S

theorem harmless_assign (ho : o' ≠ o) : ∀ ops : List (String × Val), Harmless o (assignInto o' ops)
  | [] => .ret _
  | _ :: ops => (Harmless.setattr ho _ _).bind fun _ => harmless_assign ho ops

/-- Statement by statement. -/
macro "harmless" ho:ident : tactic => `(tactic| repeat' first
  | exact Harmless.raise _ | exact Harmless.pure _ | exact Harmless.ret _ | exact Harmless.setattr $ho _ _ | exact Harmless.getattr _
  | exact harmless_loop $ho _ _ _ _ _ | exact harmless_attribute $ho _ _ _ _ _ _ | exact harmless_replace $ho _ _ _ _ | exact harmless_packetOut $ho _ _ _ _ _
  | exact harmless_ethernet $ho _ _ _ _ _ _ | exact harmless_assign $ho _
  | (refine Harmless.then ?_ fun _ => ?_) | (refine Harmless.bind ?_ fun _ => ?_) | split)

theorem harmless_job {j : Job} (ho : j.o ≠ o) : Harmless o j.steps := by
  unfold Job.steps Cls.steps
  split
  · unfold unpackInto errorInto statsRequestInto statsReplyInto multipartInto
    harmless ho
    · exact fun _ _ => ⟨ho, trivial⟩
    · exact fun _ _ => ⟨ho, guest_decodeAt (.inl rfl) _⟩
  · harmless ho
  · unfold cutInto
    harmless ho
    refine fun S a => ⟨ho, guest_bind ?_ (guest_decodeAt (.inl rfl) _)⟩
    intro _
    show Harmless o _
    harmless ho
  · harmless ho
  · unfold oxmInto; harmless ho
  · unfold matchInto; harmless ho
  · unfold arpInto; harmless ho
  · unfold vlanInto; harmless ho
  · exact harmless_ethernet ho _ _ _ _ _ _
  · unfold tlvInto; harmless ho
  · unfold subTlvInto; harmless ho
  · unfold ipv4Into num text raw; harmless ho
  · unfold ipv6Into num text raw; harmless ho

theorem harmless_read (o' : Nat) : ∀ (ns : List String) (got : List Val), Harmless o (readAll o' got ns)
  | [], _ => .ret _
  | _ :: ns, _ => fun S _ _ => harmless_read o' ns _ S

theorem harmless_bystander {t : Steps (List Val)} (h : Bystander o t) : Harmless o t := by
  rcases h with ⟨o', ns, rfl⟩ | ⟨j, ho, rfl⟩
  · exact harmless_read o' ns []
  · exact (harmless_job ho).bind fun _ => .ret _

/-! ## All together -/

theorem writes_job {j : Job} (hc : j.cls.Complete) {d : Dict} {K : Own} (hP : ∀ n v, (j.alone d).2.lookup n = some v → P n v) :
    Wr j.o P (decoding j.steps) d K := by
  have hf : ∀ d K, Wr j.o P ((fun _ => .ret (.ok []) : Unit → Steps (List Val)) ()) d K := fun _ _ => trivial
  obtain ⟨cls, o, buff, off, mid, junk⟩ := j
  unfold decoding Job.steps
  unfold Job.alone at hP
  cases cls with
  | message m =>
    obtain ⟨hm, hn⟩ := hc
    have hnd : (m.body.map (·.1)).Nodup := by
      have : ∀ m ∈ classes, (m.body.map (·.1)).Nodup := by decide +kernel
      exact this m hm
    simp only [Cls.steps, unpackInto, hn, if_true]
    simp only [Cls.method, MsgCls.unpackInto, hn, if_true] at hP
    exact wr_packetOut hf mid junk hnd buff off d K fun n v _ h => hP n v h
  | ethernet => exact wr_ethernet hf mid junk _ (by decide) buff off d K fun n v _ h => hP n v h
  | tlv =>
    simp only [Cls.steps, tlvInto]
    simp only [Cls.method, Net.tlvInto] at hP
    split
    · exact trivial
    · rename_i h e
      rw [e] at hP
      simp only [bind_eq, setattr_eq] at hP
      show Wr o P ((Steps.bind (setattr o _ _) fun _ => setattr o _ _).bind _) d K
      rw [bind_assoc]
      refine wr_set (hP _ _ (by simp [set_lookup])) (fun K => wr_set (hP _ _ (by simp [set_lookup])) (fun _ => ?_) K) K
      exact trivial
  | subTlv =>
    simp only [Cls.steps, subTlvInto]
    simp only [Cls.method, Net.subTlvInto] at hP
    split
    · exact trivial
    · rename_i h e
      rw [e] at hP
      simp only [bind_eq, setattr_eq] at hP
      show Wr o P ((Steps.bind (setattr o _ _) fun _ => _).bind _) d K
      rw [bind_assoc]
      cases e1 : unpackFrom 1 (slice buff (off + 2) (off + 3)) 0 with
      | none =>
        rw [e1] at hP
        simp only [raise_eq] at hP
        refine wr_set (hP _ _ (by simp [set_lookup])) (fun K => ?_) K
        exact trivial
      | some sb =>
        rw [e1] at hP
        simp only [bind_eq, setattr_eq] at hP
        refine wr_set (hP _ _ (by simp [set_lookup])) (fun K => ?_) K
        show Wr o P ((Steps.bind (setattr o _ _) fun _ => setattr o _ _).bind _) _ K
        rw [bind_assoc]
        refine wr_set (hP _ _ (by simp [set_lookup])) (fun K => wr_set (hP _ _ (by simp [set_lookup])) (fun _ => ?_) K) K
        exact trivial
  | _ => exact hc.elim

theorem watched_start {j : Job} (hc : j.cls.Complete) {d0 : Dict} {w : Mem} (h : Has w j.o d0) {others : List (Steps (List Val))}
    (ho : ∀ t ∈ others, Bystander j.o t) :
    ∃ refs, Watched j.o (fun n v => d0.lookup n = some v ∨ (j.alone d0).2.lookup n = some v) d0 others (decoding j.steps :: others) w d0
      (fun _ => none) (fun a => a < w.heap.length) (fun _ _ => False) refs := by
  obtain ⟨hn, refs, h1, h2⟩ := h
  have hl : ∀ n, d0.lookup n = (refs.lookup n).bind (w.heap[·]?) ∧ ((d0.lookup n).isSome ↔ (refs.lookup n).isSome) := by
    intro n
    obtain ⟨e, hs⟩ := refs_lookup n h2
    refine ⟨e, ?_⟩
    rw [e]
    cases hl : refs.lookup n with
    | none => exact Iff.rfl
    | some a => simpa using hs a hl
  refine ⟨refs, ⟨?_, h1, fun n => (hl n).1, ?_, fun _ _ => .inl, fun n => (hl n).2.1, nofun, nofun, nofun, fun _ h => ⟨h, fun _ h => h⟩, fun _ _ h => h.elim,
    fun _ _ _ h => h.elim, ?_, ?_⟩⟩
  · intro t e
    cases e
    exact writes_job hc fun n v => .inr
  · intro n a e
    have h3 := (hl n).2.2 (by rw [e]; rfl)
    rw [(hl n).1, e] at h3
    simp only [Option.bind_some] at h3
    exact (List.getElem?_eq_some_iff.1 (Option.some_get h3).symm).1
  · intro i t e
    exact harmless_bystander (ho t (List.mem_of_getElem? (by simpa using e))) _
  · intro i t ns e h _
    have : t = readAll j.o [] ns := by
      have e' : others[i]? = some t := by simpa using e
      exact Option.some.inj (e'.symm.trans h)
    exact ⟨[], [], ns, rfl, .nil, .inl this⟩

end Pyof.Decode
