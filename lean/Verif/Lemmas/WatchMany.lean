import Verif.Lemmas.Watch
/-!
# Threads that read while several decode into the object, storing only
-/
namespace Pyof.Decode
open Pyof Pyof.Spec

/-- What a thread knows of the addresses it has made: the value, and under which names the object `o` may show it. -/
abbrev Made := Nat → Option (Val × List String)

/-- From here on the thread lets the object `o` show only values that satisfy `P`, and changes no values but those it has made. -/
def Th {α : Type} (o : Nat) (P : String → Val → Prop) : Steps α → Made → Prop
  | .ret _, _ => True
  | .new v k, K => ∀ a, K a = none → Th o P (k a) (setK K a (v, []))
  | .link o' n a k, K => (o' = o → ∃ v ns, K a = some (v, ns) ∧ P n v ∧ Th o P k (setK K a (v, n :: ns))) ∧ (o' ≠ o → Th o P k K)
  | .put a v k, K => ∃ u ns, K a = some (u, ns) ∧ (∀ n ∈ ns, P n v) ∧ Th o P k (setK K a (v, ns))
  | .read a k, K => ∀ v, (∀ x, K a = some x → v = x.1) → Th o P (k v) K
  | .look _ _ k, K => ∀ a, Th o P (k a) K

variable {o : Nat} {P : String → Val → Prop}

theorem th_guest {α : Type} {t : Steps α} : ∀ {S : Nat → Prop} {K : Made}, Guest o t S → (∀ a, S a ↔ ∃ v, K a = some (v, [])) → Th o P t K := by
  induction t with
  | ret r => intros; exact trivial
  | new v k ih =>
    intro S K h hS a ha
    refine ih a (h a) fun b => ?_
    by_cases hb : b = a
    · subst hb; simp [setK_self]
    · simp only [setK_ne _ _ hb, hb, false_or]; exact hS b
  | link o' n a k ih => intro S K h hS; exact ⟨fun e => absurd e h.1, fun _ => ih h.2 hS⟩
  | put a v k ih =>
    intro S K h hS
    obtain ⟨u, hu⟩ := (hS a).1 h.1
    refine ⟨u, [], hu, fun _ x => (List.not_mem_nil x).elim, ih h.2 fun b => ?_⟩
    by_cases hb : b = a
    · subst hb; simp [setK_self, h.1]
    · simp only [setK_ne _ _ hb]; exact hS b
  | read a k ih => intro S K h hS v _; exact ih v (h v) hS
  | look o' n k ih => intro S K h hS a; exact ih a (h a) hS

/-- The object may show the value at `a` as its attribute `n`. -/
def Shown (P : String → Val → Prop) (K : Nat → Made) (heap0 : List Val) (a : Nat) (n : String) : Prop :=
  (∃ v, heap0[a]? = some v ∧ P n v) ∨ ∃ i v ns, K i a = some (v, ns) ∧ n ∈ ns

/-- What a reading thread is about to do. -/
def Reading' (o : Nat) (P : String → Val → Prop) (A : Nat → String → Prop) (ns : List String) (t : Steps (List Val)) : Prop :=
  ∃ done got rest, ns = done ++ rest ∧ Each P done got ∧
    (t = readAll o got rest ∨ ∃ n rest' a, rest = n :: rest' ∧ A a n ∧ t = .read a fun v => readAll o (got ++ [v]) rest')

structure Many (o : Nat) (P : String → Val → Prop) (d0 : Dict) (heap0 : List Val) (ts0 ts : List (Steps (List Val))) (w : Mem) (K : Nat → Made)
    (refs : List (String × Nat)) : Prop where
  threads : ∀ (i : Nat) t, ts[i]? = some t → Th o P t (K i)
  obj : w.objs[o]? = some refs
  shown : ∀ n a, refs.lookup n = some a → Shown P K heap0 a n
  keys : ∀ n, (d0.lookup n).isSome → (refs.lookup n).isSome
  known : ∀ i a x, K i a = some x → w.heap[a]? = some x.1 ∧ heap0.length ≤ a ∧ ∀ n ∈ x.2, P n x.1
  apart : ∀ i j a x y, K i a = some x → K j a = some y → i = j
  old : ∀ (a : Nat) v, heap0[a]? = some v → w.heap[a]? = some v
  readers : ∀ (i : Nat) t ns, ts[i]? = some t → ts0[i]? = some (readAll o [] ns) → (∀ n ∈ ns, (d0.lookup n).isSome) →
    Reading' o P (Shown P K heap0) ns t

variable {d0 : Dict} {heap0 : List Val} {ts0 ts : List (Steps (List Val))} {w : Mem} {K : Nat → Made} {refs : List (String × Nat)}

theorem Reading'.keep {A A' : Nat → String → Prop} {ns : List String} {t : Steps (List Val)} (h : Reading' o P A ns t)
    (hA : ∀ a n, A a n → A' a n) : Reading' o P A' ns t := by
  obtain ⟨dn, got, rest, e, he, h⟩ := h
  refine ⟨dn, got, rest, e, he, h.imp_right ?_⟩
  rintro ⟨n, r, a, h1, h2, h3⟩
  exact ⟨n, r, a, h1, hA a n h2, h3⟩

/-- What is shown is there and as allowed. -/
theorem Many.value (h : Many o P d0 heap0 ts0 ts w K refs) {a : Nat} {n : String} (hs : Shown P K heap0 a n) : ∃ v, w.heap[a]? = some v ∧ P n v := by
  rcases hs with ⟨v, h1, h2⟩ | ⟨i, v, ns, h1, h2⟩
  · exact ⟨v, h.old a v h1, h2⟩
  · exact ⟨v, (h.known i a _ h1).1, (h.known i a _ h1).2.2 n h2⟩

/-- A step of a reading thread on its way. -/
theorem Reading'.step (h : Many o P d0 heap0 ts0 ts w K refs) {ns : List String} (hns : ∀ n ∈ ns, (d0.lookup n).isSome)
    {t t' : Steps (List Val)} {w' : Mem} (hr : Reading' o P (Shown P K heap0) ns t) (hs : Step (t, w) (t', w')) :
    Reading' o P (Shown P K heap0) ns t' := by
  obtain ⟨dn, got, rest, e, he, h1⟩ := hr
  rcases h1 with rfl | ⟨n, rest', a, rfl, hA, rfl⟩
  · cases rest with
    | nil => cases hs
    | cons n rest =>
      cases hs with
      | @look _ _ a _ _ r hr hl =>
        have e' : r = refs := Option.some.inj (hr.symm.trans h.obj)
        subst e'
        exact ⟨dn, got, _, e, he, .inr ⟨n, rest, a, rfl, h.shown n a hl, rfl⟩⟩
      | @missing _ _ _ _ r hr hl =>
        have e' : r = refs := Option.some.inj (hr.symm.trans h.obj)
        subst e'
        have := h.keys n (hns n (by rw [e]; simp))
        rw [hl] at this; cases this
  · cases hs with
    | @read _ u _ _ ha =>
      obtain ⟨v, hv, hP⟩ := h.value hA
      have : u = v := Option.some.inj (ha.symm.trans hv)
      subst this
      exact ⟨dn ++ [n], got ++ [u], rest', by rw [e]; simp, each_snoc he hP, .inl rfl⟩

theorem Many.step (h : Many o P d0 heap0 ts0 ts w K refs) {i : Nat} {t t' : Steps (List Val)} {w' : Mem} (ht : ts[i]? = some t)
    (hs : Step (t, w) (t', w')) : ∃ K' refs', Many o P d0 heap0 ts0 (ts.set i t') w' K' refs' := by
  have hg := h.threads i t ht
  have ati : ∀ s, (ts.set i t')[i]? = some s → s = t' := by
    intro s e
    rw [List.getElem?_set] at e
    simp only [if_true] at e
    split at e
    · exact (Option.some.inj e).symm
    · cases e
  have atn : ∀ j : Nat, j ≠ i → (ts.set i t')[j]? = ts[j]? := fun j hj => List.getElem?_set_ne (Ne.symm hj)
  have rd : ∀ (j : Nat) s ns, (ts.set i t')[j]? = some s → ts0[j]? = some (readAll o [] ns) → (∀ n ∈ ns, (d0.lookup n).isSome) →
      Reading' o P (Shown P K heap0) ns s := by
    intro j s ns e h1 h2
    by_cases hj : j = i
    · subst hj
      rw [ati s e]
      exact Reading'.step h h2 (h.readers j t ns ht h1 h2) hs
    · rw [atn j hj] at e; exact h.readers j s ns e h1 h2
  have th : ∀ K' : Made, Th o P t' K' → ∀ (j : Nat) s, (ts.set i t')[j]? = some s → Th o P s (at' K i K' j) := by
    intro K' h1 j s e
    by_cases hj : j = i
    · subst hj; rw [ati s e, at'_self]; exact h1
    · rw [atn j hj] at e; rw [at'_ne _ _ hj]; exact h.threads j s e
  have th0 : Th o P t' (K i) → ∀ (j : Nat) s, (ts.set i t')[j]? = some s → Th o P s (K j) := by
    intro h1 j s e
    by_cases hj : j = i
    · subst hj; rw [ati s e]; exact h1
    · rw [atn j hj] at e; exact h.threads j s e
  -- the thread changes what it knows at one address `a` of its own (or a new one)
  have upd : ∀ (a : Nat) (x : Val × List String), (∀ u ns, K i a = some (u, ns) → ∀ n ∈ ns, n ∈ x.2) →
      ∀ b n, Shown P K heap0 b n → Shown P (at' K i (setK (K i) a x)) heap0 b n := by
    intro a x hx b n hs
    rcases hs with hs | ⟨j, v, ns, h1, h2⟩
    · exact .inl hs
    · by_cases hj : j = i
      · subst hj
        by_cases hb : b = a
        · subst hb; exact .inr ⟨j, x.1, x.2, by rw [at'_self, setK_self], hx v ns h1 n h2⟩
        · exact .inr ⟨j, v, ns, by rw [at'_self, setK_ne _ _ hb]; exact h1, h2⟩
      · exact .inr ⟨j, v, ns, by rw [at'_ne _ _ hj]; exact h1, h2⟩
  have ap : ∀ (a : Nat) (x : Val × List String), (∀ j y, j ≠ i → K j a ≠ some y) →
      ∀ j k b y z, at' K i (setK (K i) a x) j b = some y → at' K i (setK (K i) a x) k b = some z → j = k := by
    intro a x hx j k b y z h1 h2
    by_cases hj : j = i <;> by_cases hk : k = i
    · rw [hj, hk]
    · subst hj
      rw [at'_self] at h1; rw [at'_ne _ _ hk] at h2
      by_cases hb : b = a
      · subst hb; exact absurd h2 (hx k z hk)
      · rw [setK_ne _ _ hb] at h1; exact h.apart _ _ _ _ _ h1 h2
    · subst hk
      rw [at'_ne _ _ hj] at h1; rw [at'_self] at h2
      by_cases hb : b = a
      · subst hb; exact absurd h1 (hx j y hj)
      · rw [setK_ne _ _ hb] at h2; exact h.apart _ _ _ _ _ h1 h2
    · rw [at'_ne _ _ hj] at h1; rw [at'_ne _ _ hk] at h2; exact h.apart _ _ _ _ _ h1 h2
  have lt : ∀ j a x, K j a = some x → a < w.heap.length := fun j a x e => (List.getElem?_eq_some_iff.1 (h.known j a x e).1).1
  have only : ∀ a x, K i a = some x → ∀ j y, j ≠ i → K j a ≠ some y := fun a x e j y hj e' => hj (h.apart j i a y x e' e)
  -- what is known elsewhere
  have kn : ∀ (a : Nat) (x : Val × List String) (heap : List Val), heap[a]? = some x.1 → heap0.length ≤ a → (∀ n ∈ x.2, P n x.1) →
      (∀ b, b ≠ a → ∀ v, w.heap[b]? = some v → heap[b]? = some v) → (∀ j y, j ≠ i → K j a ≠ some y) →
      ∀ j b y, at' K i (setK (K i) a x) j b = some y → heap[b]? = some y.1 ∧ heap0.length ≤ b ∧ ∀ n ∈ y.2, P n y.1 := by
    intro a x heap h1 h2 h3 h4 h5 j b y e
    by_cases hb : b = a
    · subst hb
      by_cases hj : j = i
      · subst hj; rw [at'_self, setK_self] at e; cases e; exact ⟨h1, h2, h3⟩
      · rw [at'_ne _ _ hj] at e; exact absurd e (h5 j y hj)
    · have e' : K j b = some y := by
        by_cases hj : j = i
        · subst hj; rw [at'_self, setK_ne _ _ hb] at e; exact e
        · rw [at'_ne _ _ hj] at e; exact e
      exact ⟨h4 b hb _ (h.known j b y e').1, (h.known j b y e').2⟩
  have len : heap0.length ≤ w.heap.length := by
    by_cases hz : heap0.length = 0
    · omega
    · have := (List.getElem?_eq_some_iff.1 (h.old (heap0.length - 1) _ (List.getElem?_eq_getElem (by omega)))).1
      omega
  cases hs with
  | new v k =>
    have fresh : ∀ j y, K j w.heap.length ≠ some y := fun j y e => absurd (lt j _ y e) (by omega)
    have hn : K i w.heap.length = none := by
      cases e : K i w.heap.length with
      | none => rfl
      | some x => exact absurd e (fresh i x)
    have hin : ∀ (a : Nat) u, w.heap[a]? = some u → (w.heap ++ [v])[a]? = some u := fun a u e =>
      (List.getElem?_append_left (List.getElem?_eq_some_iff.1 e).1).trans e
    have up := upd w.heap.length (v, []) (fun u ns e => absurd e (fresh i _))
    refine ⟨at' K i (setK (K i) w.heap.length (v, [])), refs, ⟨th _ (hg _ hn), h.obj, fun n a e => up a n (h.shown n a e), h.keys, ?_, ?_,
      fun a u e => hin a u (h.old a u e), fun j s ns e h1 h2 => (rd j s ns e h1 h2).keep up⟩⟩
    · exact kn _ _ _ (by simp) len (fun _ x => (List.not_mem_nil x).elim) (fun b _ u e => hin b u e) fun j y _ => fresh j y
    · exact ap _ _ fun j y _ => fresh j y
  | @link o' n a k _ r hr =>
    by_cases ho : o' = o
    · subst ho
      obtain ⟨v, ns, hK, hP, hT⟩ := hg.1 rfl
      have e : r = refs := Option.some.inj (hr.symm.trans h.obj)
      subst e
      have hol : o' < w.objs.length := (List.getElem?_eq_some_iff.1 hr).1
      have up := upd a (v, n :: ns) (fun u ms e => by rw [hK] at e; cases e; exact fun m hm => List.mem_cons_of_mem _ hm)
      refine ⟨at' K i (setK (K i) a (v, n :: ns)), setRef r n a, ⟨th _ hT, List.getElem?_set_self hol, ?_, ?_, ?_, ap _ _ (only a _ hK), h.old,
        fun j s ns e h1 h2 => (rd j s ns e h1 h2).keep up⟩⟩
      · intro m b e
        rw [setRef_lookup] at e
        by_cases hm : m = n
        · simp only [hm, if_true] at e
          cases e
          rw [hm]
          exact .inr ⟨i, v, n :: ns, by rw [at'_self, setK_self], List.mem_cons_self ..⟩
        · simp only [hm, if_false] at e; exact up b m (h.shown m b e)
      · intro m e
        rw [setRef_lookup]
        by_cases hm : m = n
        · simp [hm]
        · simp only [hm, if_false]; exact h.keys m e
      · refine kn _ _ _ (h.known i a _ hK).1 (h.known i a _ hK).2.1 (fun m hm => ?_) (fun b _ u e => e) (only a _ hK)
        rcases List.mem_cons.1 hm with rfl | hm
        · exact hP
        · exact (h.known i a _ hK).2.2 m hm
    · exact ⟨K, refs, { h with threads := th0 (hg.2 ho), obj := (List.getElem?_set_ne ho).trans h.obj, readers := rd }⟩
  | @put a v k _ ha =>
    obtain ⟨u, ns, hK, hP, hT⟩ := hg
    have up := upd a (v, ns) (fun u' ms e => by rw [hK] at e; cases e; exact fun m hm => hm)
    have h0 := (h.known i a _ hK).2.1
    have hin : ∀ b, b ≠ a → ∀ x, w.heap[b]? = some x → (w.heap.set a v)[b]? = some x := fun b hb x e => (List.getElem?_set_ne (Ne.symm hb)).trans e
    refine ⟨at' K i (setK (K i) a (v, ns)), refs, ⟨th _ hT, h.obj, fun n b e => up b n (h.shown n b e), h.keys, ?_, ap _ _ (only a _ hK), ?_,
      fun j s ns e h1 h2 => (rd j s ns e h1 h2).keep up⟩⟩
    · exact kn _ _ _ (List.getElem?_set_self ha) h0 hP hin (only a _ hK)
    · intro b x e
      have := (List.getElem?_eq_some_iff.1 e).1
      exact hin b (by omega) x (h.old b x e)
  | @read a v k _ ha =>
    refine ⟨K, refs, { h with threads := th0 (hg v fun x e => ?_), readers := rd }⟩
    exact Option.some.inj (ha.symm.trans (h.known i a x e).1)
  | look hr hl => exact ⟨K, refs, { h with threads := th0 (hg _), readers := rd }⟩
  | missing hr hl => exact ⟨K, refs, { h with threads := th0 trivial, readers := rd }⟩

theorem Many.runs {ts' : List (Steps (List Val))} {w' : Mem} (h : Many o P d0 heap0 ts0 ts w K refs) (hr : Runs (ts, w) (ts', w')) :
    ∃ K refs, Many o P d0 heap0 ts0 ts' w' K refs := by
  generalize ha : (ts, w) = a at hr
  generalize hb : (ts', w') = b at hr
  induction hr generalizing ts' w' with
  | refl => subst ha; cases hb; exact ⟨_, _, h⟩
  | @step b c _ s ih =>
    subst hb
    obtain ⟨ts1, w1⟩ := b
    obtain ⟨K, refs, h1⟩ := ih rfl
    cases s with
    | @mk _ i t t' _ _ hi hs => exact h1.step hi hs

/-! ## The threads that store -/

theorem th_decode {α : Type} {a : Nat} {junk : Val} {r : Res Val} {g : Unit → Steps α} {ns : List String} (hj : ∀ e, r = .error e → ∀ n ∈ ns, P n junk)
    (hg : ∀ v, r = .ok v → (∀ n ∈ ns, P n v) ∧ ∀ K : Made, K a = some (v, ns) → Th o P (g ()) K) :
    ∀ (mid : List Val) {K : Made}, (∀ v ∈ mid, ∀ n ∈ ns, P n v) → (∃ u, K a = some (u, ns)) → Th o P ((decodeAt a mid junk r).bind g) K
  | v :: mid, _, hm, hu => by
    obtain ⟨u, hu⟩ := hu
    exact ⟨u, ns, hu, hm v (List.mem_cons_self ..), th_decode hj hg mid (fun x hx => hm x (List.mem_cons_of_mem _ hx)) ⟨v, setK_self ..⟩⟩
  | [], K, _, hu => by
    obtain ⟨u, hu⟩ := hu
    cases r with
    | ok v => exact ⟨u, ns, hu, (hg v rfl).1, (hg v rfl).2 _ (setK_self ..)⟩
    | error e => exact ⟨u, ns, hu, hj e rfl, trivial⟩

theorem th_set {α : Type} {n : String} {v : Val} {f : Unit → Steps α} (hP : P n v) (h : ∀ K, Th o P (f ()) K) (K : Made) :
    Th o P ((setattr o n v).bind f) K := fun _ _ => ⟨fun _ => ⟨v, [], setK_self .., hP, h _⟩, fun h => absurd rfl h⟩

theorem th_loop {α : Type} {f : Nat → Steps α} (hf : ∀ b K, Th o P (f b) K) (mid : String → List Val) (junk : Val) :
    ∀ {fs : Fields} (_ : (fs.map (·.1)).Nodup) (buff : Bytes) (b : Nat) (K : Made),
      (∀ n c, (n, c) ∈ fs → P n c.proto ∧ ∀ v ∈ mid n, P n v) →
      (∀ n v, n ∈ fs.map (·.1) → (∀ d, ((Pyof.unpackLoop junk fs buff b).run d).2.lookup n = some v) → P n v) →
      Th o P ((unpackLoop o mid junk fs buff b).bind f) K
  | [], _, _, b, K, _, _ => hf b K
  | (n, c) :: fs, hn, buff, b, K, hM, hP => by
    have hn := List.nodup_cons.1 hn
    obtain ⟨m1, m2⟩ := hM n c (List.mem_cons_self ..)
    -- the rest, after the attribute has become `v`
    have rest : ∀ v size, (∀ d, (Pyof.unpackAttribute junk n c buff b).run d = (.ok size, d.set n v)) → ∀ K,
        Th o P ((unpackLoop o mid junk fs buff (b + size)).bind f) K := by
      intro v size hr K
      refine th_loop hf mid junk hn.2 buff (b + size) K (fun m c' h => hM m c' (List.mem_cons_of_mem _ h)) (fun m u hm h => ?_)
      refine hP m u (by simp only [List.map_cons, List.mem_cons]; exact .inr hm) (fun d => ?_)
      rw [Pyof.unpackLoop]
      simp only [bind_eq, hr d]
      exact h _
    intro a ha
    refine ⟨fun _ => ⟨c.proto, [], setK_self .., m1, ?_⟩, fun h => absurd rfl h⟩
    by_cases hb : buff = []
    · simp only [hb, if_true]
      refine hb ▸ rest c.proto 0 (fun d => ?_) _
      simp only [Pyof.unpackAttribute, hb, if_true]
      rfl
    · simp only [hb, if_false]
      rw [bind_assoc, bind_assoc]
      refine th_decode (ns := [n]) (fun e he m hm => ?_) (fun v e => ?_) (mid n) (by simpa using m2) ⟨c.proto, setK_self ..⟩
      · rw [List.mem_singleton.1 hm]
        refine hP n junk (by simp) fun d => ?_
        rw [Pyof.unpackLoop]
        simp only [bind_eq, Pyof.unpackAttribute, hb, if_false, he, setattr_eq, raise_eq, set_lookup, if_true]
      have hr : ∀ d, (Pyof.unpackAttribute junk n c buff b).run d = (c.usize v, d.set n v) := by
        intro d
        simp only [Pyof.unpackAttribute, hb, if_false, e]
        rfl
      constructor
      · intro m hm
        rw [List.mem_singleton.1 hm]
        refine hP n v (by simp) fun d => ?_
        rw [Pyof.unpackLoop]
        simp only [bind_eq, hr d]
        cases c.usize v with
        | error _ => simp only [set_lookup, if_true]
        | ok size => simp only; rw [sets_other (sets_loop (self_names fs)) hn.1, set_lookup, if_pos rfl]
      · intro K hK u hu
        have : u = v := hu _ hK
        subst this
        show Th o P ((Steps.ret (c.usize u)).bind _) K
        cases hs : c.usize u with
        | error _ => exact trivial
        | ok size => exact rest u size (fun d => by rw [hr d, hs]) K

theorem th_ethernet {α : Type} {f : Unit → Steps α} (hf : ∀ K, Th o P (f ()) K) (mid : String → List Val) (junk : Val) (len : Nat) :
    ∀ {fs : Fields} (_ : (fs.map (·.1)).Nodup) (buff : Bytes) (b : Nat) (K : Made),
      (∀ n v, n ∈ fs.map (·.1) → (∀ d, ((Net.ethernetLoopInto len fs buff b).run d).2.lookup n = some v) → P n v) →
      Th o P ((ethernetLoopInto o mid junk len fs buff b).bind f) K
  | [], _, _, _, K, _ => hf K
  | (n, c) :: fs, hn, buff, b, K, hP => by
    have hn := List.nodup_cons.1 hn
    intro a ha
    show Th o P ((Steps.bind (decodeAt a (mid n) junk _) _).bind f) _
    rw [bind_assoc]
    refine th_decode (ns := []) (fun _ _ _ h => (List.not_mem_nil h).elim) (fun v e => ⟨fun _ h => (List.not_mem_nil h).elim, fun K hK => ?_⟩) (mid n)
      (fun _ _ _ h => (List.not_mem_nil h).elim) ⟨c.proto, setK_self ..⟩
    have run : ∀ d, ((Net.ethernetLoopInto len ((n, c) :: fs) buff b).run d).2 = match c.usize v with
        | .ok size => ((Net.ethernetLoopInto len fs buff (b + size)).run (d.set n v)).2
        | .error _ => d.set n v := by
      intro d
      rw [Net.ethernetLoopInto]
      have : (if n = "vlans" then Meth.call (c.unpack (slice buff b (b + len)) 0) else Meth.call (c.unpack buff b)).run d = (.ok v, d) := by
        split
        · rename_i h; rw [if_pos h] at e; rw [e]; rfl
        · rename_i h; rw [if_neg h] at e; rw [e]; rfl
      simp only [bind_eq, this, setattr_eq, call_eq]
      cases c.usize v <;> rfl
    refine ⟨fun _ => ⟨v, [], hK, hP n v (by simp) fun d => ?_, fun u hu => ?_⟩, fun h => absurd rfl h⟩
    · rw [run d]
      split
      · rw [(ethernetLoop_sees fs hn.2 buff _).2 _ _ hn.1, set_lookup, if_pos rfl]
      · rw [set_lookup, if_pos rfl]
    · have : u = v := hu _ (setK_self ..)
      subst this
      show Th o P (((Steps.ret (c.usize u)).bind _).bind f) _
      rw [bind_assoc]
      cases hs : c.usize u with
      | error _ => exact trivial
      | ok size =>
        refine th_ethernet hf mid junk len hn.2 buff (b + size) _ (fun m x hm h => ?_)
        refine hP m x (by simp only [List.map_cons, List.mem_cons]; exact .inr hm) (fun d => ?_)
        rw [run d, hs]
        exact h _

theorem th_assign {α : Type} {f : Unit → Steps α} (hf : ∀ K, Th o P (f ()) K) : ∀ (ops : List (String × Val)) (K : Made), (∀ x ∈ ops, P x.1 x.2) →
    Th o P ((assignInto o ops).bind f) K
  | [], K, _ => hf K
  | x :: ops, K, h => by
    rw [assignInto, bind_assoc]
    exact th_set (h x (List.mem_cons_self ..)) (fun K => th_assign hf ops K fun y hy => h y (List.mem_cons_of_mem _ hy)) K

theorem th_job {j : Job} (hs : j.cls.stores) (hd : j.cls.Distinct) {K : Made} (hP : ∀ n v, (∀ d, (j.alone d).2.lookup n = some v) → P n v)
    (hM : ∀ n v, j.Passes n v → P n v) : Th j.o P (decoding j.steps) K := by
  have hf : ∀ K, Th j.o P ((fun _ => .ret (.ok []) : Unit → Steps (List Val)) ()) K := fun _ => trivial
  obtain ⟨cls, o, buff, off, mid, junk⟩ := j
  unfold decoding Job.steps
  unfold Job.alone at hP
  cases cls with
  | message m =>
    have hnd : (m.body.map (·.1)).Nodup := by
      have : ∀ m ∈ classes, (m.body.map (·.1)).Nodup := by decide +kernel
      exact this m hd
    obtain ⟨h1, h2, h3, h4, h5, h6, h7⟩ := hs
    simp only [Cls.steps, unpackInto, h1, h2, h3, h4, h5, h6, h7, if_false]
    simp only [Cls.method, MsgCls.unpackInto, h1, h2, h3, h4, h5, h6, h7, if_false] at hP
    rw [bind_assoc]
    refine th_loop ?_ mid junk hnd buff off K (fun n c h => ?_) (fun n v _ h => hP n v fun d => ?_)
    · exact fun _ _ => trivial
    · exact ⟨hM n _ ⟨c, h, .inl rfl⟩, fun v hv => hM n v ⟨c, h, .inr hv⟩⟩
    · have := h d
      simp only [bind_eq]
      split <;> rename_i e <;> rw [e] at this <;> exact this
  | struct fs =>
    simp only [Cls.steps]
    simp only [Cls.method] at hP
    rw [bind_assoc]
    refine th_loop ?_ mid junk hd buff off K (fun n c h => ?_) (fun n v _ h => hP n v fun d => ?_)
    · exact fun _ _ => trivial
    · exact ⟨hM n _ ⟨c, h, .inl rfl⟩, fun v hv => hM n v ⟨c, h, .inr hv⟩⟩
    · have := h d
      simp only [bind_eq]
      split <;> rename_i e <;> rw [e] at this <;> exact this
  | cut k l fs =>
    cases (show l = none from hs)
    simp only [Cls.steps, cutInto]
    simp only [Cls.method, Pyof.cutInto] at hP
    cases e : ubUnpack 2 .none buff (off + k) with
    | error e => exact trivial
    | ok x =>
      rw [e] at hP
      simp only [bind_eq] at hP
      rw [bind_assoc]
      show Th o P (((unpackLoop o mid junk fs (buff.take (off + gotNum x)) off).bind _).bind _) K
      rw [bind_assoc]
      refine th_loop ?_ mid junk hd _ off K (fun n c h => ?_) (fun n v _ h => hP n v fun d => ?_)
      · exact fun _ _ => trivial
      · exact ⟨hM n _ ⟨c, h, .inl rfl⟩, fun v hv => hM n v ⟨c, h, .inr hv⟩⟩
      · have := h (keepIn none x d)
        split <;> rename_i e <;> rw [e] at this <;> exact this
  | assign ops => exact th_assign hf ops K fun x hx => hM x.1 x.2 hx
  | ethernet => exact th_ethernet hf mid junk _ (by decide) buff off K fun n v _ h => hP n v h
  | tlv =>
    simp only [Cls.steps, tlvInto]
    simp only [Cls.method, Net.tlvInto] at hP
    split
    · exact trivial
    · rename_i h e
      rw [e] at hP
      simp only [bind_eq, setattr_eq] at hP
      show Th o P ((Steps.bind (setattr o _ _) fun _ => setattr o _ _).bind _) K
      rw [bind_assoc]
      refine th_set (hP _ _ (by simp [set_lookup])) (fun K => th_set (hP _ _ (by simp [set_lookup])) (fun _ => ?_) K) K
      exact trivial
  | subTlv =>
    simp only [Cls.steps, subTlvInto]
    simp only [Cls.method, Net.subTlvInto] at hP
    split
    · exact trivial
    · rename_i h e
      rw [e] at hP
      simp only [bind_eq, setattr_eq] at hP
      show Th o P ((Steps.bind (setattr o _ _) fun _ => _).bind _) K
      rw [bind_assoc]
      cases e1 : unpackFrom 1 (slice buff (off + 2) (off + 3)) 0 with
      | none =>
        rw [e1] at hP
        simp only [raise_eq] at hP
        refine th_set (hP _ _ (by simp [set_lookup])) (fun K => ?_) K
        exact trivial
      | some sb =>
        rw [e1] at hP
        simp only [bind_eq, setattr_eq] at hP
        refine th_set (hP _ _ (by simp [set_lookup])) (fun K => ?_) K
        show Th o P ((Steps.bind (setattr o _ _) fun _ => setattr o _ _).bind _) K
        rw [bind_assoc]
        refine th_set (hP _ _ (by simp [set_lookup])) (fun K => th_set (hP _ _ (by simp [set_lookup])) (fun _ => ?_) K) K
        exact trivial
  | oxm | flowMatch | arp | vlan | ipv4 | ipv6 => exact hs.elim

/-! ## All together -/

theorem many_start {js : List Job} (hj : ∀ j ∈ js, j.o = o ∧ j.cls.stores ∧ j.cls.Distinct) {d0 : Dict} {w : Mem} (h : Has w o d0)
    {others : List (Steps (List Val))} (ho : ∀ t ∈ others, Bystander o t) :
    ∃ refs, Many o (fun n v => d0.lookup n = some v ∨ ∃ j ∈ js, (∀ d, (j.alone d).2.lookup n = some v) ∨ j.Passes n v) d0 w.heap
      ((js.map fun j => decoding j.steps) ++ others) ((js.map fun j => decoding j.steps) ++ others) w (fun _ _ => none) refs := by
  obtain ⟨hn, refs, h1, h2⟩ := h
  refine ⟨refs, ⟨?_, h1, ?_, ?_, nofun, nofun, fun _ _ e => e, ?_⟩⟩
  · intro i t e
    rcases List.mem_append.1 (List.mem_of_getElem? e) with ht | ht
    · obtain ⟨j, hjs, rfl⟩ := List.mem_map.1 ht
      obtain ⟨rfl, hs, hd⟩ := hj j hjs
      exact th_job hs hd (fun n v x => .inr ⟨j, hjs, .inl x⟩) (fun n v x => .inr ⟨j, hjs, .inr x⟩)
    · exact th_guest (harmless_bystander (ho t ht) (fun _ => False)) (fun a => by simp)
  · intro n a e
    obtain ⟨e1, hs⟩ := refs_lookup n h2
    obtain ⟨v, hv⟩ := Option.isSome_iff_exists.1 (hs a e)
    exact .inl ⟨v, hv, .inl (by rw [e1, e]; exact hv)⟩
  · intro n e
    obtain ⟨e1, hs⟩ := refs_lookup n h2
    cases hl : refs.lookup n with
    | none => rw [e1, hl] at e; cases e
    | some a => rfl
  · intro i t ns e h _
    exact ⟨[], [], ns, rfl, .nil, .inl (Option.some.inj (e.symm.trans h))⟩

end Pyof.Decode
