import Verif.Lemmas.WatchMany
/-!
# What a reading thread sees is what the call on its own goes through
-/
namespace Pyof.Decode
open Pyof Pyof.Spec

/-- What the decoding thread may still write to: values the object does not hold yet, and those it holds under a name. -/
abbrev Free := Nat → Option (Option String)

/-- After `a` has been stored under the name `n`: what was there is not written to any more. -/
def relink (F : Free) (n : String) (a : Nat) : Free := fun b => if b = a then some (some n) else if F b = some (some n) then none else F b

/-- The calls do the same from here on, at addresses that correspond to each other. -/
def Rel {α : Type} (o : Nat) : Steps α → Steps α → (Nat → Nat → Prop) → Free → Prop
  | .ret r, s, _, _ => s = .ret r
  | .new v k, s, ρ, F => ∃ k', s = .new v k' ∧ ∀ a b, Rel o (k a) (k' b) (fun x y => (x = a ∧ y = b) ∨ ρ x y) (setK F a none)
  | .link o' n a k, s, ρ, F => ∃ b k', s = .link o n b k' ∧ o' = o ∧ ρ a b ∧ F a = some none ∧ Rel o k k' ρ (relink F n a)
  | .put a v k, s, ρ, F => ∃ b k', s = .put b v k' ∧ ρ a b ∧ (F a).isSome ∧ Rel o k k' ρ F
  | .read a k, s, ρ, F => ∃ b k', s = .read b k' ∧ ρ a b ∧ ∀ v, Rel o (k v) (k' v) ρ F
  | .look o' n k, s, ρ, F => ∃ k', s = .look o n k' ∧ o' = o ∧ ∀ a b, ρ a b → Rel o (k a) (k' b) ρ F

/-- The reader has found `a` as `n`: the object still holds it, or it is settled and was seen. -/
def Found (o : Nat) (c0 : Steps (List Val) × Mem) (refs : List (String × Nat)) (ρ : Nat → Nat → Prop) (F : Free) (heap : List Val)
    (c : Steps (List Val) × Mem) (a : Nat) (n : String) (dn : List String) (got : List Val) : Prop :=
  (refs.lookup n = some a ∧ Seen o c0 dn got c) ∨
    (F a = none ∧ (∃ b, ρ a b) ∧ ∃ v, heap[a]? = some v ∧ Seen o c0 (dn ++ [n]) (got ++ [v]) c)

/-- What a reading thread is about to do. -/
def Track (o : Nat) (A : Nat → String → List String → List Val → Prop) (B : List String → List Val → Prop) (ns : List String) (t : Steps (List Val)) :
    Prop :=
  ∃ dn got rest, ns = dn ++ rest ∧ ((t = readAll o got rest ∧ B dn got) ∨
    ∃ n rest' a, rest = n :: rest' ∧ A a n dn got ∧ t = .read a fun v => readAll o (got ++ [v]) rest')

theorem Track.keep {o : Nat} {A A' : Nat → String → List String → List Val → Prop} {B B' : List String → List Val → Prop} {ns : List String}
    {t : Steps (List Val)} (h : Track o A B ns t) (hA : ∀ a n dn got, A a n dn got → A' a n dn got) (hB : ∀ dn got, B dn got → B' dn got) :
    Track o A' B' ns t := by
  obtain ⟨dn, got, rest, e, h⟩ := h
  refine ⟨dn, got, rest, e, h.imp (fun x => ⟨x.1, hB _ _ x.2⟩) ?_⟩
  rintro ⟨n, r, a, h1, h2, h3⟩
  exact ⟨n, r, a, h1, hA a n _ _ h2, h3⟩

structure Solo (o : Nat) (c0 : Steps (List Val) × Mem) (d0 : Dict) (others ts : List (Steps (List Val))) (w : Mem) (s : Steps (List Val)) (u : Mem)
    (ρ : Nat → Nat → Prop) (F : Free) (own : Nat → Nat → Prop) (refs refs' : List (String × Nat)) : Prop where
  rel : ∀ t, ts[0]? = some t → Rel o t s ρ F
  obj : w.objs[o]? = some refs
  obj' : u.objs[o]? = some refs'
  same : ∀ n, (refs.lookup n = none ∧ refs'.lookup n = none) ∨ ∃ a b, refs.lookup n = some a ∧ refs'.lookup n = some b ∧ ρ a b
  vals : ∀ a b, ρ a b → ∃ v, w.heap[a]? = some v ∧ u.heap[b]? = some v
  inj : ∀ a b a' b', ρ a b → ρ a' b' → (a = a' ↔ b = b')
  pairs : ∀ a x, F a = some x → ∃ b, ρ a b
  free : ∀ a n, F a = some none → refs.lookup n ≠ some a
  live : ∀ a n m, F a = some (some n) → refs.lookup m = some a → m = n
  keys : ∀ n, (d0.lookup n).isSome → (refs.lookup n).isSome
  mine : ∀ a b i, ρ a b → ¬ own i a
  theirs : ∀ i a, own i a → a < w.heap.length
  apart : ∀ i j a, own i a → own j a → i = j
  guests : ∀ (i : Nat) t, ts[i + 1]? = some t → Guest o t (own i)
  readers : ∀ (i : Nat) t ns, ts[i + 1]? = some t → others[i]? = some (readAll o [] ns) → (∀ n ∈ ns, (d0.lookup n).isSome) →
    Track o (Found o c0 refs ρ F w.heap (s, u)) (fun dn got => Seen o c0 dn got (s, u)) ns t

variable {o : Nat} {c0 : Steps (List Val) × Mem} {d0 : Dict} {others ts : List (Steps (List Val))} {w : Mem} {s : Steps (List Val)} {u : Mem}
  {ρ : Nat → Nat → Prop} {F : Free} {own : Nat → Nat → Prop} {refs refs' : List (String × Nat)}

/-- What the object holds now the object of the call on its own shows at this moment. -/
theorem Solo.now (h : Solo o c0 d0 others ts w s u ρ F own refs refs') {n : String} {a : Nat} (hn : refs.lookup n = some a) :
    (∃ b, ρ a b) ∧ ∃ v, w.heap[a]? = some v ∧ Shows u o n v := by
  rcases h.same n with ⟨e, _⟩ | ⟨a', b, h1, h2, h3⟩
  · rw [e] at hn; cases hn
  · have : a' = a := Option.some.inj (h1.symm.trans hn)
    subst this
    obtain ⟨v, h4, h5⟩ := h.vals a' b h3
    exact ⟨⟨b, h3⟩, v, h4, refs', b, h.obj', h2, h5⟩

theorem Solo.found (h : Solo o c0 d0 others ts w s u ρ F own refs refs') {n : String} {a : Nat} {dn : List String} {got : List Val}
    (hn : Found o c0 refs ρ F w.heap (s, u) a n dn got) : ∃ v, w.heap[a]? = some v ∧ Seen o c0 (dn ++ [n]) (got ++ [v]) (s, u) := by
  rcases hn with ⟨hn, hs⟩ | ⟨_, _, h2⟩
  · obtain ⟨_, v, h1, h2⟩ := h.now hn
    exact ⟨v, h1, hs.see h2⟩
  · exact h2

/-- A step of the decoding thread. -/
theorem Solo.write (h : Solo o c0 d0 others ts w s u ρ F own refs refs') {t t' : Steps (List Val)} {w' : Mem} (ht : ts[0]? = some t)
    (hs : Step (t, w) (t', w')) : ∃ s' u' ρ' F' refs1 refs1', Solo o c0 d0 others (ts.set 0 t') w' s' u' ρ' F' own refs1 refs1' := by
  have hw := h.rel t ht
  have at0 : ∀ x, (ts.set 0 t')[0]? = some x → x = t' := by
    intro x e
    rw [List.getElem?_set] at e
    simp only [if_true] at e
    split at e
    · exact (Option.some.inj e).symm
    · cases e
  have ats : ∀ i : Nat, (ts.set 0 t')[i + 1]? = ts[i + 1]? := fun i => by rw [List.getElem?_set_ne (by omega)]
  have gs : ∀ (i : Nat) x, (ts.set 0 t')[i + 1]? = some x → Guest o x (own i) := fun i x e => h.guests i x (by rw [← ats]; exact e)
  have rd : ∀ {A : Nat → String → List String → List Val → Prop} {c' : Steps (List Val) × Mem}, Step (s, u) c' →
      (∀ a n dn got, Found o c0 refs ρ F w.heap (s, u) a n dn got → A a n dn got) → ∀ (i : Nat) x ns, (ts.set 0 t')[i + 1]? = some x →
      others[i]? = some (readAll o [] ns) → (∀ n ∈ ns, (d0.lookup n).isSome) → Track o A (fun dn got => Seen o c0 dn got c') ns x := by
    intro A c' st hA i x ns e h1 h2
    rw [ats] at e
    exact (h.readers i x ns e h1 h2).keep hA fun _ _ x => x.step st
  have mv : ∀ {c' : Steps (List Val) × Mem}, Step (s, u) c' → ∀ a n dn got, Found o c0 refs ρ F w.heap (s, u) a n dn got →
      Found o c0 refs ρ F w.heap c' a n dn got := by
    rintro c' st a n dn got (⟨h1, h2⟩ | ⟨h1, h2, v, h3, h4⟩)
    · exact .inl ⟨h1, h2.step st⟩
    · exact .inr ⟨h1, h2, v, h3, h4.step st⟩
  have bw : ∀ a b, ρ a b → a < w.heap.length ∧ b < u.heap.length := by
    intro a b e
    obtain ⟨v, h1, h2⟩ := h.vals a b e
    exact ⟨(List.getElem?_eq_some_iff.1 h1).1, (List.getElem?_eq_some_iff.1 h2).1⟩
  cases hs with
  | new v k =>
    obtain ⟨k', rfl, hk⟩ := hw
    have hin : ∀ a, a < w.heap.length → (w.heap ++ [v])[a]? = w.heap[a]? := fun a ha => List.getElem?_append_left ha
    have hin' : ∀ a, a < u.heap.length → (u.heap ++ [v])[a]? = u.heap[a]? := fun a ha => List.getElem?_append_left ha
    have st : Step (.new v k', u) (_, _) := .new v k' u
    refine ⟨_, { u with heap := u.heap ++ [v] }, _, _, refs, refs', ⟨fun x e => by rw [at0 x e]; exact hk w.heap.length u.heap.length, h.obj, h.obj', ?_, ?_, ?_, ?_,
      ?_, ?_, h.keys, ?_, ?_, h.apart, gs, rd st ?_⟩⟩
    · intro n
      refine (h.same n).imp_right ?_
      rintro ⟨a, b, h1, h2, h3⟩
      exact ⟨a, b, h1, h2, .inr h3⟩
    · rintro a b (⟨rfl, rfl⟩ | e)
      · exact ⟨v, by simp, by simp⟩
      · obtain ⟨x, h1, h2⟩ := h.vals a b e
        exact ⟨x, (hin a (bw a b e).1).trans h1, (hin' b (bw a b e).2).trans h2⟩
    · rintro a b a' b' (⟨rfl, rfl⟩ | e) (⟨rfl, rfl⟩ | e')
      · simp
      · have := bw _ _ e'; omega
      · have := bw _ _ e; omega
      · exact h.inj a b a' b' e e'
    · intro a x e
      by_cases ha : a = w.heap.length
      · exact ⟨_, .inl ⟨ha, rfl⟩⟩
      · rw [setK_ne _ _ ha] at e
        obtain ⟨b, hb⟩ := h.pairs a x e
        exact ⟨b, .inr hb⟩
    · intro a n e hl
      by_cases ha : a = w.heap.length
      · obtain ⟨⟨b, hb⟩, _⟩ := h.now hl
        have := bw a b hb; omega
      · rw [setK_ne _ _ ha] at e; exact h.free a n e hl
    · intro a n m e
      by_cases ha : a = w.heap.length
      · subst ha; rw [setK_self] at e; cases e
      · rw [setK_ne _ _ ha] at e; exact h.live a n m e
    · rintro a b i (⟨rfl, rfl⟩ | e) ho
      · exact absurd (h.theirs i _ ho) (by omega)
      · exact h.mine a b i e ho
    · intro i a ho; have := h.theirs i a ho; simp; omega
    · rintro a n dn got (⟨e, hn⟩ | ⟨h1, ⟨b, hb⟩, x, h2, h3⟩)
      · exact .inl ⟨e, hn.step st⟩
      · have := (bw a b hb).1
        exact .inr ⟨by rw [setK_ne _ _ (by omega)]; exact h1, ⟨b, .inr hb⟩, x, (hin a this).trans h2, h3.step st⟩
  | @link o' n a k _ r hr =>
    obtain ⟨b, k', rfl, rfl, hab, hF, hk⟩ := hw
    have e : r = refs := Option.some.inj (hr.symm.trans h.obj)
    subst e
    have hol : o' < w.objs.length := (List.getElem?_eq_some_iff.1 hr).1
    have hol' : o' < u.objs.length := (List.getElem?_eq_some_iff.1 h.obj').1
    have hfr : ∀ m, r.lookup m ≠ some a := fun m => h.free a m hF
    have st : Step (.link o' n b k', u) (_, _) := .link h.obj'
    refine ⟨_, { u with objs := u.objs.set o' (setRef refs' n b) }, ρ, _, setRef r n a, setRef refs' n b, ⟨fun x e => by rw [at0 x e]; exact hk, List.getElem?_set_self hol,
      List.getElem?_set_self hol', ?_, h.vals, h.inj, ?_, ?_, ?_, ?_, h.mine, h.theirs, h.apart, gs, rd st ?_⟩⟩
    · intro m
      rw [setRef_lookup, setRef_lookup]
      by_cases hm : m = n
      · simp only [hm, if_true]; exact .inr ⟨a, b, rfl, rfl, hab⟩
      · simp only [hm, if_false]; exact h.same m
    · intro c x e
      by_cases hc : c = a
      · exact ⟨b, by rw [hc]; exact hab⟩
      · simp only [relink, hc, if_false] at e
        split at e
        · cases e
        · exact h.pairs c x e
    · intro c m e
      by_cases hc : c = a
      · simp [relink, hc] at e
      · simp only [relink, hc, if_false] at e
        split at e
        · cases e
        · rw [setRef_lookup]
          by_cases hm : m = n
          · simp only [hm, if_true]; intro e'; exact hc (Option.some.inj e').symm
          · simp only [hm, if_false]; exact h.free c m e
    · intro c m m' e
      rw [setRef_lookup]
      by_cases hc : c = a
      · simp only [relink, hc, if_true] at e
        have e : n = m := Option.some.inj (Option.some.inj e)
        by_cases hm : m' = n
        · intro _; rw [hm, e]
        · simp only [hm, if_false]; intro e'; exact absurd (hc ▸ e') (hfr m')
      · simp only [relink, hc, if_false] at e
        split at e
        · cases e
        · by_cases hm : m' = n
          · simp only [hm, if_true]; intro e'; exact absurd (Option.some.inj e').symm hc
          · simp only [hm, if_false]; exact h.live c m m' e
    · intro m e
      rw [setRef_lookup]
      by_cases hm : m = n
      · simp [hm]
      · simp only [hm, if_false]; exact h.keys m e
    · intro c m dn got hc
      have dead : F c = none ∨ F c = some (some n) → c ≠ a → relink F n a c = none := by
        intro h1 h2
        simp only [relink, h2, if_false]
        rcases h1 with h1 | h1
        · simp [h1]
        · simp [h1]
      rcases hc with ⟨e, hn⟩ | ⟨h1, h2, x, h3, h4⟩
      · have hca : c ≠ a := fun x => hfr m (by rw [e, x])
        by_cases hm : m = n
        · subst hm
          obtain ⟨hb, v, h1, h2⟩ := h.now e
          refine .inr ⟨dead ?_ hca, hb, v, h1, (hn.see h2).step st⟩
          cases hFc : F c with
          | none => exact .inl rfl
          | some x =>
            cases x with
            | none => exact absurd e (h.free c m hFc)
            | some m' => have := h.live c m' m hFc e; subst this; exact .inr rfl
        · left; rw [setRef_lookup]; simp only [hm, if_false]; exact ⟨e, hn.step st⟩
      · refine .inr ⟨dead (.inl h1) ?_, h2, x, h3, h4.step st⟩
        rintro rfl
        rw [hF] at h1; cases h1
  | @put a v k _ ha =>
    obtain ⟨b, k', rfl, hab, hF, hk⟩ := hw
    have st : Step (.put b v k', u) (_, _) := .put (bw a b hab).2
    refine ⟨_, { u with heap := u.heap.set b v }, ρ, F, refs, refs', ⟨fun x e => by rw [at0 x e]; exact hk, h.obj, h.obj', h.same, ?_, h.inj, h.pairs, h.free,
      h.live, h.keys, h.mine, ?_, h.apart, gs, rd st ?_⟩⟩
    · intro c d e
      by_cases hc : c = a
      · have : d = b := (h.inj c d a b e hab).1 hc
        subst hc this
        exact ⟨v, List.getElem?_set_self ha, List.getElem?_set_self (bw _ _ hab).2⟩
      · have : d ≠ b := fun x => hc ((h.inj c d a b e hab).2 x)
        obtain ⟨x, h1, h2⟩ := h.vals c d e
        exact ⟨x, (List.getElem?_set_ne (Ne.symm hc)).trans h1, (List.getElem?_set_ne (Ne.symm this)).trans h2⟩
    · intro i c ho; simpa using h.theirs i c ho
    · rintro c m dn got (⟨e, hn⟩ | ⟨h1, h2, x, h3, h4⟩)
      · exact .inl ⟨e, hn.step st⟩
      · have : c ≠ a := by rintro rfl; rw [h1] at hF; cases hF
        exact .inr ⟨h1, h2, x, (List.getElem?_set_ne (Ne.symm this)).trans h3, h4.step st⟩
  | @read a v k _ ha =>
    obtain ⟨b, k', rfl, hab, hk⟩ := hw
    obtain ⟨x, h1, h2⟩ := h.vals a b hab
    have : x = v := Option.some.inj (h1.symm.trans ha)
    subst this
    have st : Step (.read b k', u) (_, _) := .read h2
    exact ⟨_, _, ρ, F, refs, refs', { h with rel := fun y e => by rw [at0 y e]; exact hk x, guests := gs, readers := rd st (mv st) }⟩
  | @look o' n a k _ r hr hl =>
    obtain ⟨k', rfl, rfl, hk⟩ := hw
    have e : r = refs := Option.some.inj (hr.symm.trans h.obj)
    subst e
    rcases h.same n with ⟨e, _⟩ | ⟨a', b, h1, h2, h3⟩
    · rw [e] at hl; cases hl
    · have : a' = a := Option.some.inj (h1.symm.trans hl)
      subst this
      have st : Step (.look o' n k', u) (_, _) := .look h.obj' h2
      exact ⟨_, _, ρ, F, r, refs', { h with rel := fun y e => by rw [at0 y e]; exact hk _ _ h3, guests := gs, readers := rd st (mv st) }⟩
  | @missing o' n k _ r hr hl =>
    obtain ⟨k', rfl, rfl, hk⟩ := hw
    have e : r = refs := Option.some.inj (hr.symm.trans h.obj)
    subst e
    rcases h.same n with ⟨_, e⟩ | ⟨a', b, h1, h2, h3⟩
    · have st : Step (.look o' n k', u) (_, _) := .missing h.obj' e
      exact ⟨_, _, ρ, F, r, refs', { h with rel := fun y e => by rw [at0 y e]; exact rfl, guests := gs, readers := rd st (mv st) }⟩
    · rw [h1] at hl; cases hl

/-- A step of a reading thread on its way. -/
theorem Solo.reading (h : Solo o c0 d0 others ts w s u ρ F own refs refs') {ns : List String} (hns : ∀ n ∈ ns, (d0.lookup n).isSome)
    {t t' : Steps (List Val)} {w' : Mem} (hr : Track o (Found o c0 refs ρ F w.heap (s, u)) (fun dn got => Seen o c0 dn got (s, u)) ns t)
    (hs : Step (t, w) (t', w')) : Track o (Found o c0 refs ρ F w.heap (s, u)) (fun dn got => Seen o c0 dn got (s, u)) ns t' := by
  obtain ⟨dn, got, rest, e, h1⟩ := hr
  rcases h1 with ⟨rfl, he⟩ | ⟨n, rest', a, rfl, hA, rfl⟩
  · cases rest with
    | nil => cases hs
    | cons n rest =>
      cases hs with
      | @look _ _ a _ _ r hr hl =>
        have e' : r = refs := Option.some.inj (hr.symm.trans h.obj)
        subst e'
        exact ⟨dn, got, _, e, .inr ⟨n, rest, a, rfl, .inl ⟨hl, he⟩, rfl⟩⟩
      | @missing _ _ _ _ r hr hl =>
        have e' : r = refs := Option.some.inj (hr.symm.trans h.obj)
        subst e'
        have := h.keys n (hns n (by rw [e]; simp))
        rw [hl] at this; cases this
  · cases hs with
    | @read _ x _ _ ha =>
      obtain ⟨v, hv, hP⟩ := h.found hA
      have : x = v := Option.some.inj (ha.symm.trans hv)
      subst this
      exact ⟨dn ++ [n], got ++ [x], rest', by rw [e]; simp, .inl ⟨rfl, hP⟩⟩

/-- A step of another thread. -/
theorem Solo.other {s0 : Steps (List Val)} (h : Solo o c0 d0 others ts w s0 u ρ F own refs refs') {i : Nat} {t t' : Steps (List Val)} {w' : Mem} (ht : ts[i + 1]? = some t)
    (hs : Step (t, w) (t', w')) : ∃ own', Solo o c0 d0 others (ts.set (i + 1) t') w' s0 u ρ F own' refs refs' := by
  have hg := h.guests i t ht
  have at0 : (ts.set (i + 1) t')[0]? = ts[0]? := by rw [List.getElem?_set_ne (by omega)]
  have ati : ∀ s, (ts.set (i + 1) t')[i + 1]? = some s → s = t' := by
    intro s e
    rw [List.getElem?_set] at e
    simp only [if_true] at e
    split at e
    · exact (Option.some.inj e).symm
    · cases e
  have atn : ∀ j : Nat, j ≠ i → (ts.set (i + 1) t')[j + 1]? = ts[j + 1]? := fun j hj => by rw [List.getElem?_set_ne (by omega)]
  have rl : ∀ x, (ts.set (i + 1) t')[0]? = some x → Rel o x s0 ρ F := fun x e => h.rel x (by rw [← at0]; exact e)
  have bw : ∀ a b, ρ a b → a < w.heap.length := by
    intro a b e
    obtain ⟨v, h1, _⟩ := h.vals a b e
    exact (List.getElem?_eq_some_iff.1 h1).1
  have rd : ∀ heap' : List Val, (∀ a b, ρ a b → heap'[a]? = w.heap[a]?) → ∀ (j : Nat) s ns, (ts.set (i + 1) t')[j + 1]? = some s → others[j]? = some (readAll o [] ns) →
      (∀ n ∈ ns, (d0.lookup n).isSome) → Track o (Found o c0 refs ρ F heap' (s0, u)) (fun dn got => Seen o c0 dn got (s0, u)) ns s := by
    intro heap' hh j s ns e h1 h2
    have : Track o (Found o c0 refs ρ F w.heap (s0, u)) (fun dn got => Seen o c0 dn got (s0, u)) ns s := by
      by_cases hj : j = i
      · subst hj
        rw [ati s e]
        exact h.reading h2 (h.readers j t ns ht h1 h2) hs
      · rw [atn j hj] at e; exact h.readers j s ns e h1 h2
    refine this.keep ?_ fun _ _ x => x
    rintro a n dn got (e | ⟨h1, ⟨b, hb⟩, v, h2, h3⟩)
    · exact .inl e
    · exact .inr ⟨h1, ⟨b, hb⟩, v, (hh a b hb).trans h2, h3⟩
  have vl : ∀ heap' : List Val, (∀ a b, ρ a b → heap'[a]? = w.heap[a]?) → ∀ a b, ρ a b → ∃ v, heap'[a]? = some v ∧ u.heap[b]? = some v := by
    intro heap' hh a b e
    obtain ⟨v, h1, h2⟩ := h.vals a b e
    exact ⟨v, (hh a b e).trans h1, h2⟩
  have gd : ∀ own' : Nat → Nat → Prop, (∀ j, j ≠ i → own' j = own j) → Guest o t' (own' i) →
      ∀ (j : Nat) s, (ts.set (i + 1) t')[j + 1]? = some s → Guest o s (own' j) := by
    intro own' h1 h2 j s e
    by_cases hj : j = i
    · subst hj; rw [ati s e]; exact h2
    · rw [atn j hj] at e; rw [h1 j hj]; exact h.guests j s e
  cases hs with
  | new v k =>
    have hin : ∀ a b, ρ a b → (w.heap ++ [v])[a]? = w.heap[a]? := fun a b e => List.getElem?_append_left (bw a b e)
    refine ⟨fun j b => (j = i ∧ b = w.heap.length) ∨ own j b, { h with rel := rl, vals := vl _ hin, mine := ?_, theirs := ?_, apart := ?_, guests := ?_, readers := rd _ hin }⟩
    · rintro a b j e (⟨_, rfl⟩ | ho)
      · exact absurd (bw _ _ e) (by omega)
      · exact h.mine a b j e ho
    · rintro j a (⟨_, rfl⟩ | ho)
      · simp
      · have := h.theirs j a ho; simp; omega
    · rintro j l a (⟨rfl, rfl⟩ | ho) (⟨rfl, h2⟩ | ho')
      · rfl
      · exact absurd (h.theirs l _ ho') (by omega)
      · subst h2; exact absurd (h.theirs j _ ho) (by omega)
      · exact h.apart j l a ho ho'
    · refine gd _ (fun j hj => ?_) ?_
      · funext b; simp [hj]
      · have := hg w.heap.length
        simpa using this
  | @link o' n a k _ r hr =>
    refine ⟨own, { h with rel := rl, obj := ?_, guests := gd own (fun _ _ => rfl) hg.2, readers := rd _ fun _ _ _ => rfl }⟩
    exact (List.getElem?_set_ne hg.1).trans h.obj
  | @put a v k _ ha =>
    have hin : ∀ c b, ρ c b → (w.heap.set a v)[c]? = w.heap[c]? := fun c b e => List.getElem?_set_ne fun (x : a = c) => h.mine c b i e (by rw [← x]; exact hg.1)
    refine ⟨own, { h with rel := rl, vals := vl _ hin, theirs := ?_, guests := gd own (fun _ _ => rfl) hg.2, readers := rd _ hin }⟩
    intro j b ho; simpa using h.theirs j b ho
  | read ha => exact ⟨own, { h with rel := rl, guests := gd own (fun _ _ => rfl) (hg _), readers := rd _ fun _ _ _ => rfl }⟩
  | look hr hl => exact ⟨own, { h with rel := rl, guests := gd own (fun _ _ => rfl) (hg _), readers := rd _ fun _ _ _ => rfl }⟩
  | missing hr hl => exact ⟨own, { h with rel := rl, guests := gd own (fun _ _ => rfl) trivial, readers := rd _ fun _ _ _ => rfl }⟩

theorem Solo.runs {ts' : List (Steps (List Val))} {w' : Mem} (h : Solo o c0 d0 others ts w s u ρ F own refs refs') (hr : Runs (ts, w) (ts', w')) :
    ∃ s u ρ F own refs refs', Solo o c0 d0 others ts' w' s u ρ F own refs refs' := by
  generalize ha : (ts, w) = a at hr
  generalize hb : (ts', w') = b at hr
  induction hr generalizing ts' w' with
  | refl => subst ha; cases hb; exact ⟨_, _, _, _, _, _, _, h⟩
  | @step b c _ st ih =>
    subst hb
    obtain ⟨ts1, w1⟩ := b
    obtain ⟨s1, u1, ρ1, F1, own1, r1, r1', h1⟩ := ih rfl
    cases st with
    | @mk _ i t t' _ _ hi hs =>
      cases i with
      | zero => obtain ⟨_, _, _, _, _, _, h2⟩ := h1.write hi hs; exact ⟨_, _, _, _, _, _, _, h2⟩
      | succ i => obtain ⟨own', h2⟩ := h1.other hi hs; exact ⟨_, _, _, _, _, _, _, h2⟩

/-! ## The decoding thread -/

theorem rel_bind {α β : Type} {f : α → Steps β} (hf : ∀ a ρ F, Rel o (f a) (f a) ρ F) : ∀ {p q : Steps α} {ρ : Nat → Nat → Prop} {F : Free}, Rel o p q ρ F →
    Rel o (p.bind f) (q.bind f) ρ F := by
  intro p
  induction p with
  | ret r =>
    intro q ρ F h
    cases (show q = .ret r from h)
    cases r with
    | ok a => exact hf a ρ F
    | error e => exact rfl
  | new v k ih =>
    rintro q ρ F ⟨k', rfl, h⟩
    exact ⟨_, rfl, fun a b => ih a (h a b)⟩
  | link o' n a k ih =>
    rintro q ρ F ⟨b, k', rfl, h1, h2, h3, h⟩
    exact ⟨b, _, rfl, h1, h2, h3, ih h⟩
  | put a v k ih =>
    rintro q ρ F ⟨b, k', rfl, h1, h2, h⟩
    exact ⟨b, _, rfl, h1, h2, ih h⟩
  | read a k ih =>
    rintro q ρ F ⟨b, k', rfl, h1, h⟩
    exact ⟨b, _, rfl, h1, fun v => ih v (h v)⟩
  | look o' n k ih =>
    rintro q ρ F ⟨k', rfl, h1, h⟩
    exact ⟨_, rfl, h1, fun a b hab => ih a (h a b hab)⟩

theorem rel_decode {α : Type} {a b : Nat} {junk : Val} {r : Res Val} {f g : Unit → Steps α} {ρ : Nat → Nat → Prop} {F : Free} (hab : ρ a b)
    (hF : (F a).isSome) (h : Rel o (f ()) (g ()) ρ F) : ∀ mid : List Val, Rel o ((decodeAt a mid junk r).bind f) ((decodeAt b mid junk r).bind g) ρ F
  | _ :: mid => ⟨b, _, rfl, hab, hF, rel_decode hab hF h mid⟩
  | [] => by
    cases r with
    | ok v => exact ⟨b, _, rfl, hab, hF, h⟩
    | error e => exact ⟨b, _, rfl, hab, hF, rfl⟩

/-- The steps do not depend on the addresses, and only what the call has made and the object does not hold or still holds is written to. -/
def Uniform {α : Type} (o : Nat) (p : Steps α) : Prop := ∀ ρ F, Rel o p p ρ F

theorem Uniform.bind {α β : Type} {p : Steps α} {f : α → Steps β} (hp : Uniform o p) (hf : ∀ a, Uniform o (f a)) : Uniform o (p.bind f) :=
  fun ρ F => rel_bind (fun a => hf a) (hp ρ F)
theorem Uniform.then {α β : Type} {p : Steps α} {f : α → Steps β} (hp : Uniform o p) (hf : ∀ a, Uniform o (f a)) : Uniform o (p >>= f) := hp.bind hf
theorem Uniform.ret {α : Type} (r : Res α) : Uniform o (.ret r) := fun _ _ => rfl
theorem Uniform.pure {α : Type} (a : α) : Uniform o (Pure.pure a : Steps α) := fun _ _ => rfl
theorem Uniform.raise {α : Type} (e : Err) : Uniform o (Decode.raise e : Steps α) := fun _ _ => rfl
theorem Uniform.setattr (n : String) (v : Val) : Uniform o (setattr o n v) :=
  fun _ _ => ⟨_, rfl, fun _ b => ⟨b, _, rfl, rfl, .inl ⟨rfl, rfl⟩, setK_self .., rfl⟩⟩
theorem Uniform.getattr (n : String) : Uniform o (getattr o n) := fun _ _ => ⟨_, rfl, rfl, fun _ b h => ⟨b, _, rfl, h, fun _ => rfl⟩⟩

theorem relink_self (F : Free) (n : String) (a : Nat) : relink F n a a = some (some n) := by simp [relink]

theorem uniform_attribute (mid : List Val) (junk : Val) (n : String) (c : Attr) (buff : Bytes) (b : Nat) :
    Uniform o (unpackAttribute o mid junk n c buff b) := by
  intro ρ F
  refine ⟨_, rfl, fun a a' => ⟨a', _, rfl, rfl, .inl ⟨rfl, rfl⟩, setK_self .., ?_⟩⟩
  split
  · exact rfl
  · refine rel_decode (.inl ⟨rfl, rfl⟩) (by rw [relink_self]; rfl) ?_ mid
    exact ⟨a', _, rfl, .inl ⟨rfl, rfl⟩, fun v => rfl⟩

theorem uniform_loop (mid : String → List Val) (junk : Val) (buff : Bytes) : ∀ (fs : Fields) (b : Nat), Uniform o (unpackLoop o mid junk fs buff b)
  | [], _ => .ret _
  | (n, c) :: fs, b => (uniform_attribute _ _ _ _ _ _).bind fun _ => uniform_loop mid junk buff fs _

theorem uniform_replace (mid : List Val) (junk v0 : Val) (r : Res Val) : Uniform o (replaceBody o mid junk v0 r) := by
  intro ρ F
  refine ⟨_, rfl, fun a a' => ?_⟩
  refine rel_decode (.inl ⟨rfl, rfl⟩) (by rw [setK_self]; rfl) ?_ mid
  exact ⟨a', _, rfl, rfl, .inl ⟨rfl, rfl⟩, setK_self .., rfl⟩

theorem uniform_packetOut (mid : String → List Val) (junk : Val) (buff : Bytes) : ∀ (fs : Fields) (b : Nat), Uniform o (packetOutInto o mid junk fs buff b)
  | [], _ => .ret _
  | (n, c) :: fs, b => by
    intro ρ F
    refine ⟨_, rfl, fun a a' => ?_⟩
    have rest : ∀ ρ' : Nat → Nat → Prop, ρ' a a' → ∀ r : Res Val, Rel o ((decodeAt a (mid n) junk r).bind fun _ => .link o n a (.read a fun v => (Steps.ret (c.usize v)).bind fun size =>
        packetOutInto o mid junk fs buff (b + size))) ((decodeAt a' (mid n) junk r).bind fun _ => .link o n a' (.read a' fun v => (Steps.ret (c.usize v)).bind fun size =>
        packetOutInto o mid junk fs buff (b + size))) ρ' (setK F a none) := by
      intro ρ' h r
      refine rel_decode h (by rw [setK_self]; rfl) ?_ _
      refine ⟨a', _, rfl, rfl, h, setK_self .., a', _, rfl, h, fun v => ?_⟩
      exact (Uniform.ret _).bind (fun _ => uniform_packetOut mid junk buff fs _) _ _
    by_cases hact : n = "actions"
    · simp only [hact, if_true] at rest ⊢
      rw [bind_assoc, bind_assoc]
      exact ⟨_, rfl, rfl, fun x y hxy => ⟨y, _, rfl, hxy, fun l => rest _ (.inl ⟨rfl, rfl⟩) _⟩⟩
    · simp only [hact, if_false] at rest ⊢
      exact rest _ (.inl ⟨rfl, rfl⟩) _

theorem uniform_ethernet (mid : String → List Val) (junk : Val) (len : Nat) (buff : Bytes) : ∀ (fs : Fields) (b : Nat),
    Uniform o (ethernetLoopInto o mid junk len fs buff b)
  | [], _ => .ret _
  | (n, c) :: fs, b => by
    intro ρ F
    refine ⟨_, rfl, fun a a' => ?_⟩
    refine rel_decode (.inl ⟨rfl, rfl⟩) (by rw [setK_self]; rfl) ?_ _
    refine ⟨a', _, rfl, rfl, .inl ⟨rfl, rfl⟩, setK_self .., a', _, rfl, .inl ⟨rfl, rfl⟩, fun v => ?_⟩
    exact (Uniform.ret _).bind (fun _ => uniform_ethernet mid junk len buff fs _) _ _

theorem uniform_assign : ∀ ops : List (String × Val), Uniform o (assignInto o ops)
  | [] => .ret _
  | _ :: ops => (Uniform.setattr _ _).bind fun _ => uniform_assign ops

/-- Statement by statement. -/
macro "uniform" : tactic => `(tactic| repeat' first
  | exact Uniform.raise _ | exact Uniform.pure _ | exact Uniform.ret _ | exact Uniform.setattr _ _ | exact Uniform.getattr _
  | exact uniform_loop _ _ _ _ _ | exact uniform_attribute _ _ _ _ _ _ | exact uniform_replace _ _ _ _ | exact uniform_packetOut _ _ _ _ _
  | exact uniform_ethernet _ _ _ _ _ _ | exact uniform_assign _
  | (refine Uniform.then ?_ fun _ => ?_) | (refine Uniform.bind ?_ fun _ => ?_) | split)

/-- A value that is stored and written to afterwards. -/
theorem uniform_stored (n : String) (v0 : Val) (mid : List Val) (junk : Val) (r : Res Val) {f : Unit → Steps Unit} (hf : Uniform o (f ())) :
    Uniform o (.new v0 fun a => .link o n a ((decodeAt a mid junk r).bind f)) := by
  intro ρ F
  refine ⟨_, rfl, fun a a' => ⟨a', _, rfl, rfl, .inl ⟨rfl, rfl⟩, setK_self .., ?_⟩⟩
  exact rel_decode (.inl ⟨rfl, rfl⟩) (by rw [relink_self]; rfl) (hf _ _) mid

theorem bind_ret {p : Steps Unit} : p.bind (fun _ => .ret (.ok ())) = p := by
  induction p with
  | ret r => cases r <;> rfl
  | new v k ih => simp only [Steps.bind, ih]
  | link o n a k ih => simp only [Steps.bind, ih]
  | put a v k ih => simp only [Steps.bind, ih]
  | read a k ih => simp only [Steps.bind, ih]
  | look o n k ih => simp only [Steps.bind, ih]

theorem uniform_job (j : Job) : Uniform j.o j.steps := by
  unfold Job.steps Cls.steps
  split
  · unfold unpackInto errorInto statsRequestInto statsReplyInto multipartInto
    uniform
    · intro ρ F
      exact ⟨_, rfl, fun a a' => ⟨a', _, rfl, rfl, .inl ⟨rfl, rfl⟩, setK_self .., rfl⟩⟩
    · have h := fun r => uniform_stored (o := j.o) "body" (.list true []) (j.mid "") j.junk r (f := fun _ => .ret (.ok ())) (Uniform.ret _)
      simp only [bind_ret] at h
      exact h _
  · uniform
  · unfold cutInto
    uniform
    refine uniform_stored _ _ _ _ _ ?_
    uniform
  · uniform
  · unfold oxmInto; uniform
  · unfold matchInto; uniform
  · unfold arpInto; uniform
  · unfold vlanInto; uniform
  · exact uniform_ethernet _ _ _ _ _ _
  · unfold tlvInto; uniform
  · unfold subTlvInto; uniform
  · unfold ipv4Into num text raw; uniform
  · unfold ipv6Into num text raw; uniform

/-! ## All together -/

theorem solo_start {j : Job} {d0 : Dict} {w : Mem} (h : Has w j.o d0) {others : List (Steps (List Val))} (ho : ∀ t ∈ others, Bystander j.o t) :
    ∃ refs, Solo j.o (decoding j.steps, w) d0 others (decoding j.steps :: others) w (decoding j.steps) w (fun a b => a = b ∧ a < w.heap.length)
      (fun _ => none) (fun _ _ => False) refs refs := by
  obtain ⟨hn, refs, h1, h2⟩ := h
  refine ⟨refs, ⟨?_, h1, h1, ?_, ?_, ?_, nofun, nofun, nofun, ?_, fun _ _ _ _ h => h, fun _ _ h => h.elim, fun _ _ _ h => h.elim, ?_, ?_⟩⟩
  · intro t e
    cases e
    exact (uniform_job j).bind (fun _ => .ret _) _ _
  · intro n
    obtain ⟨_, hs⟩ := refs_lookup n h2
    cases e : refs.lookup n with
    | none => exact .inl ⟨rfl, rfl⟩
    | some a => exact .inr ⟨a, a, rfl, rfl, rfl, (List.getElem?_eq_some_iff.1 (Option.some_get (hs a e)).symm).1⟩
  · rintro a b ⟨rfl, ha⟩
    exact ⟨_, List.getElem?_eq_getElem ha, List.getElem?_eq_getElem ha⟩
  · rintro a b a' b' ⟨rfl, _⟩ ⟨rfl, _⟩
    exact Iff.rfl
  · intro n e
    obtain ⟨e1, hs⟩ := refs_lookup n h2
    cases hl : refs.lookup n with
    | none => rw [e1, hl] at e; cases e
    | some a => rfl
  · intro i t e
    exact harmless_bystander (ho t (List.mem_of_getElem? (by simpa using e))) _
  · intro i t ns e h _
    have : t = readAll j.o [] ns := by
      have e' : others[i]? = some t := by simpa using e
      exact Option.some.inj (e'.symm.trans h)
    exact ⟨[], [], ns, rfl, .inl ⟨this, .start⟩⟩

/-! ## Concrete calls -/

theorem step_next {α : Type} {w : Mem} {t : Steps α} {c : Steps α × Mem} (h : Step (t, w) c) : next w t = some c := by
  cases h with
  | new => rfl
  | link h => simp only [next, h]
  | put h => simp only [next, h, if_true]
  | read h => simp only [next, h]
  | look h h' => simp only [next, h, h']
  | missing h h' => simp only [next, h, h']

/-- The call on its own after `k` steps, or where it has ended. -/
def after (c0 : Steps (List Val) × Mem) : Nat → Steps (List Val) × Mem
  | 0 => c0
  | k + 1 => (next (after c0 k).2 (after c0 k).1).getD (after c0 k)

theorem after_end {c0 : Steps (List Val) × Mem} {N : Nat} (h : next (after c0 N).2 (after c0 N).1 = none) (k : Nat) : after c0 k = after c0 (min k N) := by
  induction k with
  | zero => simp
  | succ k ih =>
    by_cases hk : k + 1 ≤ N
    · rw [Nat.min_eq_left hk]
    · have e : min k N = N := Nat.min_eq_right (by omega)
      rw [e] at ih
      rw [Nat.min_eq_right (by omega), after, ih, h]
      rfl

theorem seen_times {c0 : Steps (List Val) × Mem} {ns : List String} {vs : List Val} {c : Steps (List Val) × Mem} (h : Seen o c0 ns vs c) :
    ∃ (k : Nat) (l : List (Nat × String × Val)), c = after c0 k ∧ l.map (·.2.1) = ns ∧ l.map (·.2.2) = vs ∧ l.Pairwise (fun x y => x.1 ≤ y.1) ∧
      ∀ x ∈ l, x.1 ≤ k ∧ Shows (after c0 x.1).2 o x.2.1 x.2.2 := by
  induction h with
  | start => exact ⟨0, [], rfl, rfl, rfl, .nil, fun _ h => (List.not_mem_nil h).elim⟩
  | @step _ _ c c' _ hs ih =>
    obtain ⟨k, l, rfl, h1, h2, h3, h4⟩ := ih
    exact ⟨k + 1, l, by rw [after, step_next hs]; rfl, h1, h2, h3, fun x hx => ⟨by have := (h4 x hx).1; omega, (h4 x hx).2⟩⟩
  | @see _ _ c n v _ hs ih =>
    obtain ⟨k, l, rfl, h1, h2, h3, h4⟩ := ih
    refine ⟨k, l ++ [(k, n, v)], rfl, by simp [h1], by simp [h2], ?_, ?_⟩
    · refine List.pairwise_append.2 ⟨h3, by simp, fun x hx y hy => ?_⟩
      rw [List.mem_singleton.1 hy]
      exact (h4 x hx).1
    · intro x hx
      rcases List.mem_append.1 hx with hx | hx
      · exact h4 x hx
      · rw [List.mem_singleton.1 hx]; exact ⟨Nat.le_refl k, hs⟩

def shown (w : Mem) (o : Nat) (n : String) : Option Val := (w.objs[o]?.bind (·.lookup n)).bind (w.heap[·]?)

theorem Shows.shown {w : Mem} {o : Nat} {n : String} {v : Val} (h : Shows w o n v) : Decode.shown w o n = some v := by
  obtain ⟨refs, a, h1, h2, h3⟩ := h
  simp [Decode.shown, h1, h2, h3]

end Pyof.Decode
