import Verif.Spec.Decode
import Verif.Lemmas.ReuseNet
/-!
# Threads that decode: each keeps to its own values
-/
namespace Pyof.Decode
open Pyof

abbrev Known := Nat → Option Val
abbrev Links := String → Option Nat

def setK {κ β : Type} [DecidableEq κ] (f : κ → Option β) (a : κ) (v : β) : κ → Option β := fun b => if b = a then some v else f b

theorem setK_self {κ β : Type} [DecidableEq κ] (f : κ → Option β) (a : κ) (v : β) : setK f a v a = some v := by simp [setK]
theorem setK_ne {κ β : Type} [DecidableEq κ] (f : κ → Option β) {a b : κ} (v : β) (h : b ≠ a) : setK f a v b = f b := by simp [setK, h]

/-- What a call on the object `o`, whose references were `init` in the memory `heap`, does: it makes values, changes those it has made (`K`), stores
them in `o` (`L`), and reads them and the old ones.  Only if `X` it looks into the object. -/
def Ok {α : Type} (o : Nat) (names : List String) (init : Links) (heap : List Val) (X : Prop) (Q : Res α → Known → Links → Prop) :
    Steps α → Known → Links → Prop
  | .ret r, K, L => Q r K L
  | .new v k, K, L => ∀ a, heap.length ≤ a → K a = none → Ok o names init heap X Q (k a) (setK K a v) L
  | .link o' n a k, K, L => o' = o ∧ n ∈ names ∧ (K a).isSome ∧ Ok o names init heap X Q k K (setK L n a)
  | .put a v k, K, L => (K a).isSome ∧ Ok o names init heap X Q k (setK K a v) L
  | .read a k, K, L => ∃ v, (K a = some v ∨ heap[a]? = some v) ∧ Ok o names init heap X Q (k v) K L
  | .look o' n k, K, L => X ∧ o' = o ∧ (∀ a, (L n).or (init n) = some a → Ok o names init heap X Q (k a) K L) ∧
      ((L n).or (init n) = none → Q (.error .attribute) K L)

theorem Ok.bind {α β : Type} {o : Nat} {names : List String} {init : Links} {heap : List Val} {X : Prop} {Q : Res β → Known → Links → Prop}
    {f : α → Steps β} : ∀ {p : Steps α} {K : Known} {L : Links},
    Ok o names init heap X (fun r K L => match r with | .ok a => Ok o names init heap X Q (f a) K L | .error e => Q (.error e) K L) p K L →
    Ok o names init heap X Q (p.bind f) K L
  | .ret (.ok a), _, _, h => h
  | .ret (.error e), _, _, h => h
  | .new v k, _, _, h => fun a ha hk => Ok.bind (h a ha hk)
  | .link o' n a k, _, _, h => ⟨h.1, h.2.1, h.2.2.1, Ok.bind h.2.2.2⟩
  | .put a v k, _, _, h => ⟨h.1, Ok.bind h.2⟩
  | .read a k, _, _, h => by obtain ⟨v, h1, h2⟩ := h; exact ⟨v, h1, Ok.bind h2⟩
  | .look o' n k, K, L, h => ⟨h.1, h.2.1, fun a ha => Ok.bind (h.2.2.1 a ha), h.2.2.2⟩

theorem Ok.mono {α : Type} {o : Nat} {names : List String} {init : Links} {heap : List Val} {X : Prop} {Q Q' : Res α → Known → Links → Prop}
    (hQ : ∀ r K L, Q r K L → Q' r K L) : ∀ {p : Steps α} {K : Known} {L : Links}, Ok o names init heap X Q p K L → Ok o names init heap X Q' p K L
  | .ret r, _, _, h => hQ _ _ _ h
  | .new v k, _, _, h => fun a ha hk => Ok.mono hQ (h a ha hk)
  | .link o' n a k, _, _, h => ⟨h.1, h.2.1, h.2.2.1, Ok.mono hQ h.2.2.2⟩
  | .put a v k, _, _, h => ⟨h.1, Ok.mono hQ h.2⟩
  | .read a k, _, _, h => by obtain ⟨v, h1, h2⟩ := h; exact ⟨v, h1, Ok.mono hQ h2⟩
  | .look o' n k, K, L, h => ⟨h.1, h.2.1, fun a ha => Ok.mono hQ (h.2.2.1 a ha), fun hn => hQ _ _ _ (h.2.2.2 hn)⟩

/-! ## The memory -/

theorem setRef_lookup (d : List (String × Nat)) (n : String) (a : Nat) (k : String) :
    (setRef d n a).lookup k = if k = n then some a else d.lookup k := by
  induction d with
  | nil => by_cases h : k = n
           · simp [setRef, h]
           · have : (k == n) = false := by simpa using h
             simp [setRef, List.lookup, h, this]
  | cons x d ih =>
    obtain ⟨y, b⟩ := x
    by_cases hy : y = n
    · subst hy
      by_cases hk : k = y
      · subst hk; simp [setRef, List.lookup]
      · have : (k == y) = false := by simpa using hk
        simp [setRef, List.lookup, this, hk]
    · simp only [setRef, hy, if_false, List.lookup]
      by_cases hk : k = y
      · subst hk; simp [hy]
      · have : (k == y) = false := by simpa using hk
        simp only [this, ih]

theorem setRef_keys {d : List (String × Nat)} {n : String} {a : Nat} (h : n ∈ d.map (·.1)) : (setRef d n a).map (·.1) = d.map (·.1) := by
  induction d with
  | nil => simp at h
  | cons x d ih =>
    obtain ⟨y, b⟩ := x
    by_cases hy : y = n
    · simp [setRef, hy]
    · simp only [setRef, hy, if_false, List.map_cons]
      rw [ih]
      simpa [Ne.symm hy] using h

/-- A thread: the object it decodes into, whether it looks into it, and what it may end with. -/
structure Task (α : Type) where
  o : Nat
  names : List String
  X : Prop
  Q : Res α → Known → Links → Prop

structure Inv {α : Type} (js : List (Task α)) (w0 : Mem) (ts : List (Steps α)) (w : Mem) (K : Nat → Known) (L : Nat → Links) : Prop where
  ok : ∀ (i : Nat) j t, js[i]? = some j → ts[i]? = some t →
    Ok j.o j.names (fun n => (w0.objs[j.o]?.getD []).lookup n) w0.heap j.X j.Q t (K i) (L i)
  len : ts.length = js.length
  known : ∀ i a v, K i a = some v → w.heap[a]? = some v
  apart : ∀ i j a, (K i a).isSome → (K j a).isSome → i = j
  fresh : ∀ i a, (K i a).isSome → w0.heap.length ≤ a
  old : ∀ a, a < w0.heap.length → w.heap[a]? = w0.heap[a]?
  linked : ∀ i n a, L i n = some a → (K i a).isSome
  out : ∀ i, js.length ≤ i → L i = fun _ => none
  objs : w.objs.length = w0.objs.length
  keys : ∀ (o : Nat) d d0, w.objs[o]? = some d → w0.objs[o]? = some d0 → d.map (·.1) = d0.map (·.1)
  refs : ∀ (o : Nat) d d0, w.objs[o]? = some d → w0.objs[o]? = some d0 → ∀ n,
    (d.lookup n = d0.lookup n ∧ ∀ (i : Nat) j, js[i]? = some j → j.o = o → L i n = none) ∨
    ∃ i j a, js[i]? = some j ∧ j.o = o ∧ L i n = some a ∧ d.lookup n = some a

/-- The objects exist, have the attributes that are decoded, and an object that a thread looks into is its own. -/
structure Fit {α : Type} (js : List (Task α)) (w0 : Mem) : Prop where
  obj : ∀ (i : Nat) j, js[i]? = some j → ∃ d, w0.objs[j.o]? = some d ∧ ∀ n ∈ j.names, n ∈ d.map (·.1)
  sole : ∀ (i k : Nat) j j', js[i]? = some j → js[k]? = some j' → j.X → j'.o = j.o → i = k

theorem Inv.length {α : Type} {js : List (Task α)} {w0 w : Mem} {ts : List (Steps α)} {K : Nat → Known} {L : Nat → Links} (h : Inv js w0 ts w K L) :
    w0.heap.length ≤ w.heap.length := by
  rcases Nat.lt_or_ge w.heap.length w0.heap.length with hl | hl
  · have := h.old w.heap.length hl
    rw [List.getElem?_eq_none (Nat.le_refl _), List.getElem?_eq_getElem hl] at this
    cases this
  · exact hl

theorem Inv.fresh_end {α : Type} {js : List (Task α)} {w0 w : Mem} {ts : List (Steps α)} {K : Nat → Known} {L : Nat → Links} (h : Inv js w0 ts w K L)
    (i : Nat) : K i w.heap.length = none := by
  cases hk : K i w.heap.length with
  | none => rfl
  | some v => have := h.known i _ v hk; rw [List.getElem?_eq_none (Nat.le_refl _)] at this; cases this

/-- The step of thread `i` replaces its program and knowledge. -/
def at' {β : Type} (f : Nat → β) (i : Nat) (x : β) : Nat → β := fun j => if j = i then x else f j

theorem at'_self {β : Type} (f : Nat → β) (i : Nat) (x : β) : at' f i x i = x := by simp [at']
theorem at'_ne {β : Type} (f : Nat → β) {i j : Nat} (x : β) (h : j ≠ i) : at' f i x j = f j := by simp [at', h]

/-- The references of an object that only one thread decodes into. -/
theorem Inv.sole {α : Type} {js : List (Task α)} {w0 w : Mem} {ts : List (Steps α)} {K : Nat → Known} {L : Nat → Links} (h : Inv js w0 ts w K L)
    {i : Nat} {j : Task α} (hj : js[i]? = some j) (hs : ∀ (k : Nat) j', js[k]? = some j' → j'.o = j.o → i = k) {d : List (String × Nat)} (hd : w.objs[j.o]? = some d)
    (n : String) : d.lookup n = (L i n).or ((w0.objs[j.o]?.getD []).lookup n) := by
  have hlt : j.o < w0.objs.length := by rw [← h.objs]; exact (List.getElem?_eq_some_iff.1 hd).1
  have h0 : w0.objs[j.o]? = some w0.objs[j.o] := List.getElem?_eq_getElem hlt
  rcases h.refs j.o d _ hd h0 n with ⟨h1, h2⟩ | ⟨k, j', a, hk, ho, h1, h2⟩
  · rw [h2 i j hj rfl, h1, h0]; rfl
  · cases hs k j' hk ho
    rw [h1, h2]; rfl

theorem Inv.step {α : Type} {js : List (Task α)} {w0 w w' : Mem} {ts : List (Steps α)} {K : Nat → Known} {L : Nat → Links} (hf : Fit js w0)
    (h : Inv js w0 ts w K L) {i : Nat} {t t' : Steps α} (ht : ts[i]? = some t) (hs : Step (t, w) (t', w')) :
    ∃ K' L', Inv js w0 (ts.set i t') w' K' L' := by
  have hil : i < ts.length := (List.getElem?_eq_some_iff.1 ht).1
  obtain ⟨j, hj⟩ : ∃ j, js[i]? = some j := ⟨_, List.getElem?_eq_getElem (by rw [← h.len]; exact hil)⟩
  have ok := h.ok i j t hj ht
  have others : ∀ (K' : Nat → Known) (L' : Nat → Links), (∀ k, k ≠ i → K' k = K k) → (∀ k, k ≠ i → L' k = L k) →
      Ok j.o j.names (fun n => (w0.objs[j.o]?.getD []).lookup n) w0.heap j.X j.Q t' (K' i) (L' i) →
      ∀ (k : Nat) j t, js[k]? = some j → (ts.set i t')[k]? = some t →
        Ok j.o j.names (fun n => (w0.objs[j.o]?.getD []).lookup n) w0.heap j.X j.Q t (K' k) (L' k) := by
    intro K' L' hK hL hi k jk tk hjk htk
    by_cases hki : k = i
    · subst hki
      rw [List.getElem?_set_self hil] at htk; cases htk
      rw [hj] at hjk; cases hjk; exact hi
    · rw [List.getElem?_set_ne (Ne.symm hki)] at htk
      rw [hK k hki, hL k hki]; exact h.ok k jk tk hjk htk
  cases hs with
  | new v k _ =>
    have hn := h.fresh_end
    have known : ∀ x a u, at' K i (setK (K i) w.heap.length v) x a = some u → (w.heap ++ [v])[a]? = some u := by
      intro x a u hx
      have lift : ∀ {y}, K y a = some u → (w.heap ++ [v])[a]? = some u := fun hy => by
        have := h.known _ _ _ hy
        rw [List.getElem?_append_left (List.getElem?_eq_some_iff.1 this).1]; exact this
      by_cases hxi : x = i
      · subst hxi; rw [at'_self] at hx
        by_cases ha : a = w.heap.length
        · subst ha; rw [setK_self] at hx; simpa using hx
        · rw [setK_ne _ _ ha] at hx; exact lift hx
      · rw [at'_ne _ _ hxi] at hx; exact lift hx
    have some_of : ∀ x a, (at' K i (setK (K i) w.heap.length v) x a).isSome → (K x a).isSome ∨ (x = i ∧ a = w.heap.length) := by
      intro x a hx
      by_cases hxi : x = i
      · subst hxi; rw [at'_self] at hx
        by_cases ha : a = w.heap.length
        · exact Or.inr ⟨rfl, ha⟩
        · rw [setK_ne _ _ ha] at hx; exact Or.inl hx
      · rw [at'_ne _ _ hxi] at hx; exact Or.inl hx
    refine ⟨at' K i (setK (K i) w.heap.length v), L, ?_, ?_, known, ?_, ?_, ?_, ?_, h.out, h.objs, h.keys, h.refs⟩
    · refine others _ _ (fun k hk => at'_ne _ _ hk) (fun _ _ => rfl) ?_
      rw [at'_self]; exact ok _ h.length (hn i)
    · simp [h.len]
    · intro x y a hx hy
      rcases some_of x a hx with hx | ⟨hx, ha⟩ <;> rcases some_of y a hy with hy | ⟨hy, hb⟩
      · exact h.apart x y a hx hy
      · subst hb; rw [hn x] at hx; cases hx
      · subst ha; rw [hn y] at hy; cases hy
      · rw [hx, hy]
    · intro x a hx
      rcases some_of x a hx with hx | ⟨_, ha⟩
      · exact h.fresh x a hx
      · rw [ha]; exact h.length
    · intro a ha
      rw [List.getElem?_append_left (Nat.lt_of_lt_of_le ha h.length)]; exact h.old a ha
    · intro x n a hx
      have := h.linked x n a hx
      by_cases hxi : x = i
      · subst hxi; rw [at'_self]
        by_cases ha : a = w.heap.length
        · rw [ha, setK_self]; rfl
        · rw [setK_ne _ _ ha]; exact this
      · rw [at'_ne _ _ hxi]; exact this
  | @link o n a _ _ d hd =>
    obtain ⟨rfl, hn, hK, ok⟩ := ok
    have hlt := (List.getElem?_eq_some_iff.1 hd).1
    obtain ⟨d0, hd0, hnames⟩ := hf.obj i j hj
    refine ⟨K, at' L i (setK (L i) n a), ?_, by simp [h.len], h.known, h.apart, h.fresh, h.old, ?_, ?_, by simp [h.objs], ?_, ?_⟩
    · refine others _ _ (fun _ _ => rfl) (fun k hk => at'_ne _ _ hk) ?_
      rw [at'_self]; exact ok
    · intro x m b hx
      by_cases hxi : x = i
      · subst hxi; rw [at'_self] at hx
        by_cases hm : m = n
        · subst hm; rw [setK_self] at hx; cases hx; exact hK
        · rw [setK_ne _ _ hm] at hx; exact h.linked x m b hx
      · rw [at'_ne _ _ hxi] at hx; exact h.linked x m b hx
    · intro x hx
      have : x ≠ i := by rw [← h.len] at hx; omega
      rw [at'_ne _ _ this]; exact h.out x hx
    · intro o d' d0' hd' hd0'
      by_cases ho : o = j.o
      · subst ho
        simp only [List.getElem?_set_self hlt] at hd'
        cases hd'
        rw [hd0] at hd0'; cases hd0'
        have hk := h.keys j.o d d0 hd hd0
        rw [setRef_keys (by rw [hk]; exact hnames n hn), hk]
      · simp only [List.getElem?_set_ne (Ne.symm ho)] at hd'
        exact h.keys o d' d0' hd' hd0'
    · intro o d' d0' hd' hd0' m
      by_cases ho : o = j.o
      · subst ho
        simp only [List.getElem?_set_self hlt] at hd'
        cases hd'
        rw [setRef_lookup]
        by_cases hm : m = n
        · subst hm
          exact Or.inr ⟨i, j, a, hj, rfl, by rw [at'_self, setK_self], by simp⟩
        · simp only [hm, if_false]
          rcases h.refs j.o d d0' hd hd0' m with ⟨h1, h2⟩ | ⟨x, jx, b, hx, hox, h1, h2⟩
          · refine Or.inl ⟨h1, fun x jx hx hox => ?_⟩
            by_cases hxi : x = i
            · subst hxi; rw [at'_self, setK_ne _ _ hm]; exact h2 x jx hx hox
            · rw [at'_ne _ _ hxi]; exact h2 x jx hx hox
          · refine Or.inr ⟨x, jx, b, hx, hox, ?_, h2⟩
            by_cases hxi : x = i
            · subst hxi; rw [at'_self, setK_ne _ _ hm]; exact h1
            · rw [at'_ne _ _ hxi]; exact h1
      · simp only [List.getElem?_set_ne (Ne.symm ho)] at hd'
        have same : ∀ x jx, js[x]? = some jx → jx.o = o → at' L i (setK (L i) n a) x = L x := by
          intro x jx hx hox
          refine at'_ne _ _ ?_
          rintro rfl
          rw [hj] at hx; cases hx; exact ho hox.symm
        rcases h.refs o d' d0' hd' hd0' m with ⟨h1, h2⟩ | ⟨x, jx, b, hx, hox, h1, h2⟩
        · exact Or.inl ⟨h1, fun x jx hx hox => by rw [same x jx hx hox]; exact h2 x jx hx hox⟩
        · exact Or.inr ⟨x, jx, b, hx, hox, by rw [same x jx hx hox]; exact h1, h2⟩
  | @put a v _ _ ha =>
    obtain ⟨hK, ok⟩ := ok
    have some_of : ∀ x b, (at' K i (setK (K i) a v) x b).isSome → (K x b).isSome := by
      intro x b hx
      by_cases hxi : x = i
      · subst hxi; rw [at'_self] at hx
        by_cases hb : b = a
        · subst hb; exact hK
        · rw [setK_ne _ _ hb] at hx; exact hx
      · rw [at'_ne _ _ hxi] at hx; exact hx
    refine ⟨at' K i (setK (K i) a v), L, ?_, by simp [h.len], ?_, ?_, ?_, ?_, ?_, h.out, h.objs, h.keys, h.refs⟩
    · refine others _ _ (fun k hk => at'_ne _ _ hk) (fun _ _ => rfl) ?_
      rw [at'_self]; exact ok
    · intro x b u hx
      by_cases hxi : x = i
      · subst hxi; rw [at'_self] at hx
        by_cases hb : b = a
        · subst hb; rw [setK_self] at hx; simp only [List.getElem?_set_self ha]; exact hx
        · rw [setK_ne _ _ hb] at hx
          simp only [List.getElem?_set_ne (Ne.symm hb)]; exact h.known _ _ _ hx
      · rw [at'_ne _ _ hxi] at hx
        have hb : b ≠ a := by
          rintro rfl
          exact hxi (h.apart x i b (by rw [hx]; rfl) hK)
        simp only [List.getElem?_set_ne (Ne.symm hb)]; exact h.known _ _ _ hx
    · exact fun x y b hx hy => h.apart x y b (some_of x b hx) (some_of y b hy)
    · exact fun x b hx => h.fresh x b (some_of x b hx)
    · intro b hb
      have hne : b ≠ a := by have := h.fresh i a hK; omega
      simp only [List.getElem?_set_ne (Ne.symm hne)]; exact h.old b hb
    · intro x n b hx
      have := h.linked x n b hx
      by_cases hxi : x = i
      · subst hxi; rw [at'_self]
        by_cases hb : b = a
        · rw [hb, setK_self]; rfl
        · rw [setK_ne _ _ hb]; exact this
      · rw [at'_ne _ _ hxi]; exact this
  | @read a v _ _ hv =>
    obtain ⟨u, hu, ok⟩ := ok
    have : u = v := by
      rcases hu with hu | hu
      · have := h.known _ _ _ hu; rw [hv] at this; cases this; rfl
      · have := h.old a (List.getElem?_eq_some_iff.1 hu).1; rw [hv, hu] at this; cases this; rfl
    subst this
    exact ⟨K, L, others _ _ (fun _ _ => rfl) (fun _ _ => rfl) ok, by simp [h.len], h.known, h.apart, h.fresh, h.old, h.linked, h.out, h.objs, h.keys, h.refs⟩
  | @look o n a _ _ d hd hl =>
    obtain ⟨hX, rfl, ok⟩ := ok
    rw [h.sole hj (fun k j' hk ho => hf.sole i k j j' hj hk hX ho) hd n] at hl
    exact ⟨K, L, others _ _ (fun _ _ => rfl) (fun _ _ => rfl) (ok.1 a hl), by simp [h.len], h.known, h.apart, h.fresh, h.old, h.linked, h.out, h.objs,
      h.keys, h.refs⟩
  | @missing o n _ _ d hd hl =>
    obtain ⟨hX, rfl, ok⟩ := ok
    rw [h.sole hj (fun k j' hk ho => hf.sole i k j j' hj hk hX ho) hd n] at hl
    exact ⟨K, L, others _ _ (fun _ _ => rfl) (fun _ _ => rfl) (ok.2 hl), by simp [h.len], h.known, h.apart, h.fresh, h.old, h.linked, h.out, h.objs,
      h.keys, h.refs⟩

theorem Inv.runs {α : Type} {js : List (Task α)} {w0 w w' : Mem} {ts ts' : List (Steps α)} {K : Nat → Known} {L : Nat → Links} (hf : Fit js w0)
    (h : Inv js w0 ts w K L) (hr : Runs (ts, w) (ts', w')) : ∃ K' L', Inv js w0 ts' w' K' L' := by
  generalize ha : (ts, w) = a at hr
  generalize hb : (ts', w') = b at hr
  induction hr generalizing ts' w' with
  | refl => cases ha; cases hb; exact ⟨K, L, h⟩
  | @step b' _ _ hs ih =>
    obtain ⟨tb, wb⟩ := b'
    obtain ⟨K', L', h'⟩ := ih rfl
    subst hb
    cases hs with
    | mk ht hs => exact h'.step hf ht hs

/-- A call that has not returned can go on. -/
theorem Inv.can {α : Type} {js : List (Task α)} {w0 w : Mem} {ts : List (Steps α)} {K : Nat → Known} {L : Nat → Links} (hf : Fit js w0)
    (h : Inv js w0 ts w K L) {i : Nat} {t : Steps α} (ht : ts[i]? = some t) : (∃ r, t = .ret r) ∨ ∃ c, Step (t, w) c := by
  have hil : i < ts.length := (List.getElem?_eq_some_iff.1 ht).1
  obtain ⟨j, hj⟩ : ∃ j, js[i]? = some j := ⟨_, List.getElem?_eq_getElem (by rw [← h.len]; exact hil)⟩
  have ok := h.ok i j t hj ht
  obtain ⟨d0, hd0, _⟩ := hf.obj i j hj
  have hlt : j.o < w.objs.length := by rw [h.objs]; exact (List.getElem?_eq_some_iff.1 hd0).1
  have hd : w.objs[j.o]? = some w.objs[j.o] := List.getElem?_eq_getElem hlt
  cases t with
  | ret r => exact Or.inl ⟨r, rfl⟩
  | new v k => exact Or.inr ⟨_, .new v k w⟩
  | link o n a k => obtain ⟨rfl, _⟩ := ok; exact Or.inr ⟨_, .link hd⟩
  | put a v k =>
    obtain ⟨hK, _⟩ := ok
    obtain ⟨u, hu⟩ := Option.isSome_iff_exists.1 hK
    exact Or.inr ⟨_, .put (List.getElem?_eq_some_iff.1 (h.known _ _ _ hu)).1⟩
  | read a k =>
    obtain ⟨v, hv, _⟩ := ok
    rcases hv with hv | hv
    · exact Or.inr ⟨_, .read (h.known _ _ _ hv)⟩
    · exact Or.inr ⟨_, .read ((h.old a (List.getElem?_eq_some_iff.1 hv).1).trans hv)⟩
  | look o n k =>
    obtain ⟨_, rfl, _⟩ := ok
    cases hl : w.objs[j.o].lookup n with
    | none => exact Or.inr ⟨_, .missing hd hl⟩
    | some a => exact Or.inr ⟨_, .look hd hl⟩

theorem Runs.trans {α : Type} {a b c : List (Steps α) × Mem} (h : Runs a b) (h' : Runs b c) : Runs a c := by
  induction h' with
  | refl => exact h
  | step _ hs ih => exact .step ih hs

/-- Every call returns if it is let run. -/
theorem Inv.finish {α : Type} {js : List (Task α)} {w0 : Mem} (hf : Fit js w0) {i : Nat} : ∀ (t : Steps α) {w : Mem} {ts : List (Steps α)}
    {K : Nat → Known} {L : Nat → Links}, Inv js w0 ts w K L → ts[i]? = some t → ∃ r w', Runs (ts, w) (ts.set i (.ret r), w') := by
  intro t
  have one : ∀ {t t' : Steps α} {w w' : Mem} {ts : List (Steps α)} {K : Nat → Known} {L : Nat → Links}, Inv js w0 ts w K L → ts[i]? = some t →
      Step (t, w) (t', w') → (∀ {w : Mem} {ts : List (Steps α)} {K : Nat → Known} {L : Nat → Links}, Inv js w0 ts w K L → ts[i]? = some t' →
        ∃ r w', Runs (ts, w) (ts.set i (.ret r), w')) → ∃ r w', Runs (ts, w) (ts.set i (.ret r), w') := by
    intro t t' w w' ts K L h ht hs ih
    obtain ⟨K', L', h'⟩ := h.step hf ht hs
    obtain ⟨r, w2, hr⟩ := ih h' (List.getElem?_set_self (List.getElem?_eq_some_iff.1 ht).1)
    rw [List.set_set] at hr
    exact ⟨r, w2, (Runs.step (.refl _) (.mk ht hs)).trans hr⟩
  have go : ∀ {t : Steps α} {w : Mem} {ts : List (Steps α)} {K : Nat → Known} {L : Nat → Links}, Inv js w0 ts w K L → ts[i]? = some t →
      (∀ {t' w'}, Step (t, w) (t', w') → ∀ {w : Mem} {ts : List (Steps α)} {K : Nat → Known} {L : Nat → Links}, Inv js w0 ts w K L → ts[i]? = some t' →
        ∃ r w', Runs (ts, w) (ts.set i (.ret r), w')) → ∃ r w', Runs (ts, w) (ts.set i (.ret r), w') := by
    intro t w ts K L h ht ih
    rcases h.can hf ht with ⟨r, rfl⟩ | ⟨⟨t', w'⟩, hs⟩
    · refine ⟨r, w, ?_⟩
      have : ts.set i (.ret r) = ts := by
        refine List.ext_getElem? fun x => ?_
        by_cases hx : i = x
        · subst hx; rw [List.getElem?_set_self (List.getElem?_eq_some_iff.1 ht).1, ht]
        · rw [List.getElem?_set_ne hx]
      rw [this]; exact .refl _
    · exact one h ht hs (ih hs)
  induction t with
  | ret r => intro w ts K L h ht; exact go h ht (fun hs => by cases hs)
  | new v k ih => intro w ts K L h ht; exact go h ht (fun hs => by cases hs; exact ih _)
  | link o n a k ih => intro w ts K L h ht; exact go h ht (fun hs => by cases hs; exact ih)
  | put a v k ih => intro w ts K L h ht; exact go h ht (fun hs => by cases hs; exact ih)
  | read a k ih => intro w ts K L h ht; exact go h ht (fun hs => by cases hs; exact ih _)
  | look o n k ih =>
    intro w ts K L h ht
    refine go h ht (fun hs => ?_)
    cases hs with
    | look => exact ih _
    | missing => intro w ts K L h ht; exact go h ht (fun hs => by cases hs)

/-! ## The methods do what those of `Model/Reuse.lean` do -/

/-- The dictionary `d` is what a thread has made of `d0`: the values it has stored, and the old ones for the rest. -/
def Sees (d0 d : Dict) (K : Known) (L : Links) : Prop :=
  (∀ n, d.lookup n = match L n with | some a => K a | none => d0.lookup n) ∧ ∀ n a, L n = some a → (K a).isSome

theorem Sees.new {d0 d : Dict} {K : Known} {L : Links} (h : Sees d0 d K L) {a : Nat} (ha : K a = none) (v : Val) : Sees d0 d (setK K a v) L := by
  have ne : ∀ n b, L n = some b → b ≠ a := by
    rintro n b hb rfl
    have := h.2 n b hb; rw [ha] at this; cases this
  refine ⟨fun n => ?_, fun n b hb => ?_⟩
  · rw [h.1 n]
    cases hL : L n with
    | none => rfl
    | some b => exact (setK_ne _ _ (ne n b hL)).symm
  · rw [setK_ne _ _ (ne n b hb)]; exact h.2 n b hb

theorem Sees.link {d0 d : Dict} {K : Known} {L : Links} (h : Sees d0 d K L) {a : Nat} {v : Val} (ha : K a = some v) (n : String) :
    Sees d0 (d.set n v) K (setK L n a) := by
  refine ⟨fun m => ?_, fun m b hb => ?_⟩
  · rw [set_lookup]
    by_cases hm : m = n
    · subst hm; rw [setK_self]; simp [ha]
    · rw [setK_ne _ _ hm]; simp [hm, Ne.symm hm, h.1 m]
  · by_cases hm : m = n
    · subst hm; rw [setK_self] at hb; cases hb; rw [ha]; rfl
    · rw [setK_ne _ _ hm] at hb; exact h.2 m b hb

theorem setK_setK {κ β : Type} [DecidableEq κ] (f : κ → Option β) (a : κ) (u v : β) : setK (setK f a u) a v = setK f a v := by
  funext b; simp only [setK]; split <;> rfl

section
variable {o : Nat} {names : List String} {init : Links} {heap : List Val} {X : Prop} {d0 : Dict}

/-- The steps `p` have the effect of the method `q`. -/
def Ref {α : Type} (o : Nat) (names : List String) (init : Links) (heap : List Val) (X : Prop) (d0 : Dict) (p : Steps α) (q : Meth α) : Prop :=
  ∀ (Q : Res α → Known → Links → Prop) K L d, Sees d0 d K L → (∀ K' L', Sees d0 (q.run d).2 K' L' → Q (q.run d).1 K' L') →
    Ok o names init heap X Q p K L

theorem Ref.ret {α : Type} (r : Res α) : Ref o names init heap X d0 (.ret r) (Meth.call r) := fun _ K L _ h hQ => hQ K L h

theorem Ref.bind {α β : Type} {p : Steps α} {q : Meth α} {f : α → Steps β} {g : α → Meth β} (hp : Ref o names init heap X d0 p q)
    (hf : ∀ a, Ref o names init heap X d0 (f a) (g a)) : Ref o names init heap X d0 (p.bind f) (q >>= g) := by
  intro Q K L d hd hQ
  refine Ok.bind (hp _ K L d hd fun K' L' h' => ?_)
  rw [bind_eq] at hQ
  rcases hq : q.run d with ⟨r, d'⟩
  rw [hq] at h' hQ
  cases r with
  | error e => exact hQ K' L' h'
  | ok a => exact hf a Q K' L' d' h' hQ

theorem decode_ok {Q : Res Unit → Known → Links → Prop} {K : Known} {L : Links} {a : Nat} (ha : (K a).isSome) {junk : Val} {r : Res Val}
    (h1 : ∀ v, r = .ok v → Q (.ok ()) (setK K a v) L) (h2 : ∀ e, r = .error e → Q (.error e) (setK K a junk) L) (mid : List Val) :
    Ok o names init heap X Q (decodeAt a mid junk r) K L := by
  induction mid generalizing K with
  | nil =>
    cases r with
    | ok v => exact ⟨ha, h1 v rfl⟩
    | error e => exact ⟨ha, h2 e rfl⟩
  | cons v mid ih =>
    refine ⟨ha, ih (by rw [setK_self]; rfl) (fun u e => ?_) (fun u e => ?_)⟩
    · rw [setK_setK]; exact h1 u e
    · rw [setK_setK]; exact h2 u e

theorem setattr_ref {n : String} (hn : n ∈ names) (v : Val) : Ref o names init heap X d0 (setattr o n v) (Meth.setattr n v) := by
  intro Q K L d hd hQ a _ ha
  refine ⟨rfl, hn, by rw [setK_self]; rfl, hQ _ _ ?_⟩
  exact (hd.new ha v).link (setK_self _ _ _) n

theorem getattr_ok (hX : X) (h0 : ∀ n, d0.lookup n = (init n).bind (heap[·]?)) (hs : ∀ n a, init n = some a → (heap[a]?).isSome) {n : String}
    {Q : Res Val → Known → Links → Prop} {K : Known} {L : Links} {d : Dict} (hd : Sees d0 d K L) (hQ : Q ((Meth.getattr n).run d).1 K L) :
    Ok o names init heap X Q (getattr o n) K L := by
  have hn := hd.1 n
  refine ⟨hX, rfl, fun a ha => ?_, fun hnone => ?_⟩
  · cases hL : L n with
    | some b =>
      rw [hL] at ha hn; cases ha
      obtain ⟨v, hv⟩ := Option.isSome_iff_exists.1 (hd.2 n a hL)
      refine ⟨v, Or.inl hv, ?_⟩
      simp only [Meth.getattr, hn, hv] at hQ; exact hQ
    | none =>
      rw [hL] at ha hn
      obtain ⟨v, hv⟩ := Option.isSome_iff_exists.1 (hs n a ha)
      refine ⟨v, Or.inr hv, ?_⟩
      have ha' : init n = some a := ha
      simp only [Meth.getattr, hn, h0 n, ha', Option.bind_some, hv] at hQ; exact hQ
  · cases hL : L n with
    | some b => rw [hL] at hnone; cases hnone
    | none =>
      rw [hL] at hnone hn
      have hi : init n = none := hnone
      simp only [Meth.getattr, hn, h0 n, hi, Option.bind_none] at hQ; exact hQ

theorem getattr_ref (hX : X) (h0 : ∀ n, d0.lookup n = (init n).bind (heap[·]?)) (hs : ∀ n a, init n = some a → (heap[a]?).isSome) (n : String) :
    Ref o names init heap X d0 (getattr o n) (Meth.getattr n) := by
  intro Q K L d hd hQ
  have same : ((Meth.getattr n).run d).2 = d := by simp only [Meth.getattr]; split <;> rfl
  rw [same] at hQ
  exact getattr_ok hX h0 hs hd (hQ K L hd)

theorem attribute_ref {n : String} (hn : n ∈ names) (mid : List Val) (junk : Val) (c : Attr) (buff : Bytes) (b : Nat) :
    Ref o names init heap X d0 (unpackAttribute o mid junk n c buff b) (Pyof.unpackAttribute junk n c buff b) := by
  intro Q K L d hd hQ a _ ha
  refine ⟨rfl, hn, by rw [setK_self]; rfl, ?_⟩
  have done : ∀ v, Sees d0 (d.set n v) (setK K a v) (setK L n a) := fun v => (hd.new ha v).link (setK_self _ _ _) n
  unfold Pyof.unpackAttribute at hQ
  by_cases hb : buff = []
  · simp only [hb, if_true] at hQ ⊢
    exact hQ _ _ (done _)
  · simp only [hb, if_false] at hQ ⊢
    refine Ok.bind (decode_ok (by rw [setK_self]; rfl) (fun v e => ?_) (fun e he => ?_) mid)
    · rw [e] at hQ
      rw [setK_setK]
      exact ⟨v, Or.inl (setK_self _ _ _), hQ _ _ (done v)⟩
    · rw [he] at hQ
      rw [setK_setK]
      exact hQ _ _ (done junk)

theorem loop_ref (mid : String → List Val) (junk : Val) : ∀ {fs : Fields} (_ : ∀ f ∈ fs, f.1 ∈ names) (buff : Bytes) (b : Nat),
    Ref o names init heap X d0 (unpackLoop o mid junk fs buff b) (Pyof.unpackLoop junk fs buff b)
  | [], _, _, b => Ref.ret (.ok b)
  | (n, c) :: fs, h, buff, b =>
    (attribute_ref (h _ (List.mem_cons_self ..)) (mid n) junk c buff b).bind fun size =>
      loop_ref mid junk (fun f hf => h f (List.mem_cons_of_mem _ hf)) buff (b + size)

theorem replace_ref (hn : "body" ∈ names) (mid : List Val) (junk v0 : Val) (r : Res Val) :
    Ref o names init heap X d0 (replaceBody o mid junk v0 r) (Meth.call r >>= fun u => Meth.setattr "body" u) := by
  intro Q K L d hd hQ a _ ha
  refine Ok.bind (decode_ok (by rw [setK_self]; rfl) (fun v e => ?_) (fun e he => ?_) mid)
  · subst e
    rw [setK_setK]
    exact ⟨rfl, hn, by rw [setK_self]; rfl, hQ _ _ ((hd.new ha v).link (setK_self _ _ _) "body")⟩
  · subst he
    rw [setK_setK]
    exact hQ _ _ (hd.new ha junk)

theorem Ref.raise {α : Type} (e : Err) : Ref o names init heap X d0 (.ret (.error e) : Steps α) (Meth.raise e) := fun _ K L _ h hQ => hQ K L h

theorem error_ref (hX : X) (h0 : ∀ n, d0.lookup n = (init n).bind (heap[·]?)) (hs : ∀ n a, init n = some a → (heap[a]?).isSome) (mid : String → List Val)
    (junk : Val) {fs : Fields} (hn : ∀ f ∈ fs, f.1 ∈ names) (hc : "code" ∈ names) (codes : List (Nat × List Nat)) (buff : Bytes) (b : Nat) :
    Ref o names init heap X d0 (errorInto o mid fs codes junk buff b) (Pyof.errorInto fs codes junk buff b) := by
  refine (loop_ref mid junk hn buff b).bind fun _ => (getattr_ref hX h0 hs "error_type").bind fun t => ?_
  split
  · rename_i t
    cases hl : codes.lookup t.toNat with
    | none => simp only [hl]; exact Ref.raise _
    | some ms =>
      simp only [hl]
      refine (getattr_ref hX h0 hs "code").bind fun c => ?_
      split
      · rename_i c
        by_cases h : c.toNat ∈ ms
        · simp only [h, if_true]; exact setattr_ref hc _
        · simp only [h, if_false]; exact Ref.raise _
      · rename_i hne
        split <;> first | exact Ref.raise _ | exact absurd rfl (hne _)
  · rename_i hne
    split <;> first | exact Ref.raise _ | exact absurd rfl (hne _)

theorem packetOut_ref (hX : X) (h0 : ∀ n, d0.lookup n = (init n).bind (heap[·]?)) (hs : ∀ n a, init n = some a → (heap[a]?).isSome)
    (mid : String → List Val) (junk : Val) : ∀ {fs : Fields} (_ : ∀ f ∈ fs, f.1 ∈ names) (buff : Bytes) (b : Nat),
    Ref o names init heap X d0 (packetOutInto o mid junk fs buff b) (Pyof.packetOutInto fs buff b)
  | [], _, _, _ => Ref.ret (.ok ())
  | (n, c) :: fs, h, buff, b => by
    intro Q K L d hd hQ a _ ha
    have rest : ∀ r : Res Val, (∀ K' L', Sees d0 ((Meth.call r >>= fun v => Meth.setattr n v >>= fun _ => Meth.call (c.usize v) >>= fun size =>
          Pyof.packetOutInto fs buff (b + size)).run d).2 K' L' →
        Q ((Meth.call r >>= fun v => Meth.setattr n v >>= fun _ => Meth.call (c.usize v) >>= fun size => Pyof.packetOutInto fs buff (b + size)).run d).1 K' L') →
        Ok o names init heap X (fun r K L => match r with
          | .ok _ => Ok o names init heap X Q (.link o n a (.read a fun v => (Steps.ret (c.usize v)).bind fun size =>
              packetOutInto o mid junk fs buff (b + size))) K L
          | .error e => Q (.error e) K L) (decodeAt a (mid n) junk r) (setK K a c.proto) L := by
      intro r hr
      refine decode_ok (by rw [setK_self]; rfl) (fun v e => ?_) (fun e he => ?_) (mid n)
      · subst e
        rw [setK_setK]
        refine ⟨rfl, h _ (List.mem_cons_self ..), by rw [setK_self]; rfl, v, Or.inl (setK_self _ _ _), ?_⟩
        have hd' := (hd.new ha v).link (setK_self _ _ _) n
        simp only [bind_eq, call_eq, setattr_eq] at hr
        cases hu : c.usize v with
        | error e => rw [hu] at hr; simp only [hu]; exact hr _ _ hd'
        | ok size =>
          rw [hu] at hr
          simp only [hu]
          exact packetOut_ref hX h0 hs mid junk (fun f hf => h f (List.mem_cons_of_mem _ hf)) buff (b + size) Q _ _ _ hd' hr
      · subst he
        rw [setK_setK]
        exact hr _ _ (hd.new ha junk)
    refine Ok.bind ?_
    unfold Pyof.packetOutInto at hQ
    by_cases hact : n = "actions"
    · simp only [hact, if_true] at hQ ⊢
      refine Ok.bind (getattr_ok hX h0 hs (hd.new ha c.proto) ?_)
      have same : ((Meth.getattr "actions_len").run d).2 = d := by simp only [Meth.getattr]; split <;> rfl
      cases hg : (Meth.getattr "actions_len").run d with
      | mk r d' =>
        rw [hg] at same
        cases same
        simp only [bind_eq, hg] at hQ
        cases r with
        | error e => exact hQ _ _ (hd.new ha c.proto)
        | ok l =>
          simp only [hact] at rest
          refine Ok.mono (fun r K L h => ?_) (rest (c.unpack (slice buff b (b + gotNum l)) 0) ?_)
          · cases r <;> exact h
          simp only [bind_eq]
          exact hQ
    · simp only [hact, if_false] at hQ ⊢
      refine Ok.mono (fun r K L h => ?_) (rest _ hQ)
      cases r <;> exact h

theorem statsRequest_ref (hX : X) (h0 : ∀ n, d0.lookup n = (init n).bind (heap[·]?)) (hs : ∀ n a, init n = some a → (heap[a]?).isSome)
    (mid : String → List Val) (junk : Val) (hn : ∀ f ∈ V01.statsFields, f.1 ∈ names) (buff : Bytes) (b : Nat) :
    Ref o names init heap X d0 (statsRequestInto o mid junk buff b) (Pyof.statsRequestInto junk buff b) := by
  have hb : "body" ∈ names := hn ("body", _) (List.mem_of_getElem? (i := 2) rfl)
  have ht : "body_type" ∈ names := hn ("body_type", _) (List.mem_of_getElem? (i := 0) rfl)
  refine (loop_ref mid junk hn buff 0).bind fun _ => (getattr_ref hX h0 hs "body_type").bind fun t => ?_
  split
  · rename_i t
    refine (setattr_ref ht _).bind fun _ => (getattr_ref hX h0 hs "body").bind fun body => ?_
    intro Q K L d hd hQ a _ ha
    refine ⟨rfl, hb, by rw [setK_self]; rfl, ?_⟩
    have done : ∀ v, Sees d0 (d.set "body" v) (setK K a v) (setK L "body" a) := fun v => (hd.new ha v).link (setK_self _ _ _) "body"
    cases hc : V01.requestClass t.toNat with
    | none =>
      simp only [hc, bind_eq, setattr_eq] at hQ ⊢
      by_cases hr : rawBody body = []
      · simp only [hr, if_true] at hQ ⊢; exact hQ _ _ (done _)
      · simp only [hr, if_false] at hQ ⊢; exact hQ _ _ (done _)
    | some c =>
      simp only [hc] at hQ ⊢
      refine decode_ok (by rw [setK_self]; rfl) (fun v e => ?_) (fun e he => ?_) _
      · cases hu : unpackItems c (rawBody body) 0 with
        | error x => rw [hu] at e; cases e
        | ok xs =>
          rw [hu] at e; cases e
          simp only [hu] at hQ
          rw [setK_setK]; exact hQ _ _ (done _)
      · cases hu : unpackItems c (rawBody body) 0 with
        | error x =>
          rw [hu] at he; cases he
          simp only [hu, bind_eq, setattr_eq] at hQ
          rw [setK_setK]; exact hQ _ _ (done _)
        | ok xs => rw [hu] at he; cases he
  · rename_i hne
    split <;> first | exact Ref.raise _ | exact absurd rfl (hne _)

theorem replace_list (hn : "body" ∈ names) (mid : List Val) (junk v0 : Val) (r : Res (List Val)) :
    Ref o names init heap X d0 (replaceBody o mid junk v0 (r.map (.list true))) (Meth.call r >>= fun u => Meth.setattr "body" (.list true u)) := by
  have := replace_ref (o := o) (init := init) (heap := heap) (X := X) (d0 := d0) hn mid junk v0 (r.map (.list true))
  cases r <;> exact this

theorem statsReply_ref (hX : X) (h0 : ∀ n, d0.lookup n = (init n).bind (heap[·]?)) (hs : ∀ n a, init n = some a → (heap[a]?).isSome)
    (mid : String → List Val) (junk : Val) (hn : ∀ f ∈ V01.statsFields, f.1 ∈ names) (buff : Bytes) (b : Nat) :
    Ref o names init heap X d0 (statsReplyInto o mid junk buff b) (Pyof.statsReplyInto junk buff b) := by
  have hb : "body" ∈ names := hn ("body", _) (List.mem_of_getElem? (i := 2) rfl)
  have ht : "body_type" ∈ names := hn ("body_type", _) (List.mem_of_getElem? (i := 0) rfl)
  refine (loop_ref mid junk hn (buff.drop b) 0).bind fun _ => (getattr_ref hX h0 hs "body_type").bind fun t => ?_
  split
  · rename_i t
    refine (setattr_ref ht _).bind fun _ => (getattr_ref hX h0 hs "body").bind fun body => ?_
    by_cases h : t = 0
    · simp only [h, if_true]; exact replace_ref hb _ _ _ _
    · simp only [h, if_false]
      cases V01.replyClass t.toNat with
      | none => exact replace_ref hb _ _ _ _
      | some c => exact replace_list hb _ _ _ _
  · rename_i hne
    split <;> first | exact Ref.raise _ | exact absurd rfl (hne _)

theorem multipart_ref (hX : X) (h0 : ∀ n, d0.lookup n = (init n).bind (heap[·]?)) (hs : ∀ n a, init n = some a → (heap[a]?).isSome)
    (mid : String → List Val) (junk : Val) {fs : Fields} (hn : ∀ f ∈ fs, f.1 ∈ names) (hb : "body" ∈ names) (ht : "multipart_type" ∈ names)
    (simple : Nat → Option Attr) (array : Nat → Option (String × Attr)) (buff : Bytes) (b : Nat) :
    Ref o names init heap X d0 (multipartInto o mid fs simple array junk buff b) (Pyof.multipartInto fs simple array junk buff b) := by
  refine (loop_ref mid junk hn (buff.drop b) 0).bind fun _ => (getattr_ref hX h0 hs "multipart_type").bind fun t => ?_
  split
  · rename_i t
    refine (setattr_ref ht _).bind fun _ => (getattr_ref hX h0 hs "body").bind fun body => ?_
    cases simple t.toNat with
    | some c => exact replace_ref hb _ _ _ _
    | none =>
      cases array t.toNat with
      | none => exact replace_ref hb _ _ _ _
      | some c => exact replace_list hb _ _ _ _
  · rename_i hne
    split <;> first | exact Ref.raise _ | exact absurd rfl (hne _)

theorem into_ref {m : MsgCls} (hm : m ∈ classes) (h0 : ∀ n, d0.lookup n = (init n).bind (heap[·]?))
    (hs : ∀ n a, init n = some a → (heap[a]?).isSome) (mid : String → List Val) (junk : Val) (buff : Bytes) (b : Nat) :
    Ref o (m.body.map (·.1)) init heap (¬ inherits m) d0 (unpackInto o mid m junk buff b) (m.unpackInto junk buff b) := by
  have names : ∀ m ∈ classes, ((m.name = "01.ErrorMsg" ∨ m.name = "04.ErrorMsg") → "code" ∈ m.body.map (·.1)) ∧
      ((m.name = "01.StatsRequest" ∨ m.name = "01.StatsReply") → ∀ n ∈ V01.statsFields.map (·.1), n ∈ m.body.map (·.1)) ∧
      ((m.name = "04.MultipartRequest" ∨ m.name = "04.MultipartReply") → "body" ∈ m.body.map (·.1) ∧ "multipart_type" ∈ m.body.map (·.1)) := by
    decide +kernel
  obtain ⟨n1, n2, n3⟩ := names m hm
  have hn : ∀ f ∈ m.body, f.1 ∈ m.body.map (·.1) := fun f hf => List.mem_map_of_mem hf
  unfold unpackInto MsgCls.unpackInto
  by_cases h1 : m.name = "01.PacketOut" ∨ m.name = "04.PacketOut"
  · simp only [h1, if_true]; exact packetOut_ref (fun h => h.1 h1) h0 hs mid junk hn buff b
  simp only [h1, if_false]
  by_cases h2 : m.name = "01.ErrorMsg"
  · simp only [h2, if_true]; exact error_ref (fun h => h.2.1 h2) h0 hs mid junk hn (n1 (Or.inl h2)) _ buff b
  simp only [h2, if_false]
  by_cases h3 : m.name = "04.ErrorMsg"
  · simp only [h3, if_true]; exact error_ref (fun h => h.2.2.1 h3) h0 hs mid junk hn (n1 (Or.inr h3)) _ buff b
  simp only [h3, if_false]
  by_cases h4 : m.name = "01.StatsRequest"
  · simp only [h4, if_true]
    exact statsRequest_ref (fun h => h.2.2.2.1 h4) h0 hs mid junk (fun f hf => n2 (Or.inl h4) _ (List.mem_map_of_mem hf)) buff b
  simp only [h4, if_false]
  by_cases h5 : m.name = "01.StatsReply"
  · simp only [h5, if_true]
    exact statsReply_ref (fun h => h.2.2.2.2.1 h5) h0 hs mid junk (fun f hf => n2 (Or.inr h5) _ (List.mem_map_of_mem hf)) buff b
  simp only [h5, if_false]
  by_cases h6 : m.name = "04.MultipartRequest"
  · simp only [h6, if_true]
    exact multipart_ref (fun h => h.2.2.2.2.2.1 h6) h0 hs mid junk hn (n3 (Or.inl h6)).1 (n3 (Or.inl h6)).2 _ _ buff b
  simp only [h6, if_false]
  by_cases h7 : m.name = "04.MultipartReply"
  · simp only [h7, if_true]
    exact multipart_ref (fun h => h.2.2.2.2.2.2 h7) h0 hs mid junk hn (n3 (Or.inr h7)).1 (n3 (Or.inr h7)).2 _ _ buff b
  simp only [h7, if_false]
  exact (loop_ref mid junk hn buff b).bind fun _ => Ref.ret (.ok ())

theorem Ref.pure {α : Type} (a : α) : Ref o names init heap X d0 (Pure.pure a : Steps α) (Pure.pure a : Meth α) := fun _ K L _ h hQ => hQ K L h

theorem Ref.fail {α : Type} (e : Err) : Ref o names init heap X d0 (Decode.raise e : Steps α) (Meth.raise e) := Ref.raise e

theorem Ref.ite {α : Type} {c : Prop} [Decidable c] {p p' : Steps α} {q q' : Meth α} (h : Ref o names init heap X d0 p q)
    (h' : Ref o names init heap X d0 p' q') : Ref o names init heap X d0 (if c then p else p') (if c then q else q') := by
  split
  · exact h
  · exact h'

theorem Ref.then {α β : Type} {p : Steps α} {q : Meth α} {f : α → Steps β} {g : α → Meth β} (hp : Ref o names init heap X d0 p q)
    (hf : ∀ a, Ref o names init heap X d0 (f a) (g a)) : Ref o names init heap X d0 (p >>= f) (q >>= g) := hp.bind hf

theorem ethernetLoop_ref (mid : String → List Val) (junk : Val) (len : Nat) : ∀ {fs : Fields} (_ : ∀ f ∈ fs, f.1 ∈ names) (buff : Bytes) (b : Nat),
    Ref o names init heap X d0 (ethernetLoopInto o mid junk len fs buff b) (Net.ethernetLoopInto len fs buff b)
  | [], _, _, _ => Ref.ret (.ok ())
  | (n, c) :: fs, h, buff, b => by
    intro Q K L d hd hQ a _ ha
    have e : Net.ethernetLoopInto len ((n, c) :: fs) buff b =
        (Meth.call (if n = "vlans" then c.unpack (slice buff b (b + len)) 0 else c.unpack buff b) >>= fun v => Meth.setattr n v >>= fun _ =>
          Meth.call (c.usize v) >>= fun size => Net.ethernetLoopInto len fs buff (b + size)) := by
      rw [Net.ethernetLoopInto]; split <;> rfl
    rw [e] at hQ
    generalize (if n = "vlans" then c.unpack (slice buff b (b + len)) 0 else c.unpack buff b) = r at hQ
    refine Ok.bind (decode_ok (by rw [setK_self]; rfl) (fun v e => ?_) (fun e he => ?_) (mid n))
    · subst e
      rw [setK_setK]
      refine ⟨rfl, h _ (List.mem_cons_self ..), by rw [setK_self]; rfl, v, Or.inl (setK_self _ _ _), ?_⟩
      have hd' := (hd.new ha v).link (setK_self _ _ _) n
      simp only [bind_eq, call_eq, setattr_eq] at hQ
      cases hu : c.usize v with
      | error e => rw [hu] at hQ; simp only [hu]; exact hQ _ _ hd'
      | ok size =>
        rw [hu] at hQ
        simp only [hu]
        exact ethernetLoop_ref mid junk len (fun f hf => h f (List.mem_cons_of_mem _ hf)) buff (b + size) Q _ _ _ hd' hQ
    · subst he
      rw [setK_setK]
      exact hQ _ _ (hd.new ha junk)

theorem num_ref (hX : X) (h0 : ∀ n, d0.lookup n = (init n).bind (heap[·]?)) (hs : ∀ n a, init n = some a → (heap[a]?).isSome) (n : String) :
    Ref o names init heap X d0 (num o n) (Net.num n) := (getattr_ref hX h0 hs n).then fun _ => Ref.ret _
theorem text_ref (hX : X) (h0 : ∀ n, d0.lookup n = (init n).bind (heap[·]?)) (hs : ∀ n a, init n = some a → (heap[a]?).isSome) (n : String) :
    Ref o names init heap X d0 (text o n) (Net.text n) := (getattr_ref hX h0 hs n).then fun _ => Ref.ret _
theorem raw_ref (hX : X) (h0 : ∀ n, d0.lookup n = (init n).bind (heap[·]?)) (hs : ∀ n a, init n = some a → (heap[a]?).isSome) (n : String) :
    Ref o names init heap X d0 (raw o n) (Net.raw n) := (getattr_ref hX h0 hs n).then fun _ => Ref.ret _

macro "refs" "[" hX:term "," h0:term "," hs:term "]" : tactic => `(tactic| (
  repeat' first
    | exact Ref.pure _
    | exact Ref.fail _
    | exact Ref.ret _
    | exact num_ref $hX $h0 $hs _
    | exact text_ref $hX $h0 $hs _
    | exact raw_ref $hX $h0 $hs _
    | exact getattr_ref $hX $h0 $hs _
    | (refine setattr_ref ?_ _; decide)
    | (refine loop_ref _ _ ?_ _ _; decide)
    | (refine attribute_ref ?_ _ _ _ _ _; decide)
    | (refine Ref.then ?_ fun _ => ?_)
    | (refine Ref.ite ?_ ?_)))

theorem oxm_ref (hX : X) (h0 : ∀ n, d0.lookup n = (init n).bind (heap[·]?)) (hs : ∀ n a, init n = some a → (heap[a]?).isSome)
    (mid : String → List Val) (junk : Val) (buff : Bytes) (b : Nat) :
    Ref o Cls.oxm.names init heap X d0 (oxmInto o mid junk buff b) (Pyof.oxmInto junk buff b) := by
  unfold oxmInto Pyof.oxmInto
  refine Ref.then (loop_ref _ _ (by decide) _ _) fun _ => Ref.then (getattr_ref hX h0 hs _) fun v => ?_
  split
  · refine Ref.then (getattr_ref hX h0 hs _) fun _ => Ref.then ?_ fun _ => ?_
    · refs [hX, h0, hs]
    refine Ref.then (setattr_ref (by decide) _) fun _ => Ref.then (setattr_ref (by decide) _) fun _ => Ref.then (getattr_ref hX h0 hs _) fun v => ?_
    split
    · exact setattr_ref (by decide) _
    · rename_i hne
      split <;> first | exact Ref.fail _ | exact absurd rfl (hne _)
  · rename_i hne
    split <;> first | exact Ref.fail _ | exact absurd rfl (hne _)

theorem match_ref (hX : X) (h0 : ∀ n, d0.lookup n = (init n).bind (heap[·]?)) (hs : ∀ n a, init n = some a → (heap[a]?).isSome)
    (mid : String → List Val) (junk : Val) (buff : Bytes) (b : Nat) :
    Ref o Cls.flowMatch.names init heap X d0 (matchInto o mid junk buff b) (Pyof.matchInto junk buff b) := by
  unfold matchInto Pyof.matchInto
  refine Ref.then (loop_ref _ _ (by decide) _ _) fun _ => Ref.then (getattr_ref hX h0 hs _) fun v => ?_
  split
  · exact Ref.then (attribute_ref (by decide) _ _ _ _ _) fun _ => Ref.pure ()
  · rename_i hne
    split <;> first | exact Ref.fail _ | exact absurd rfl (hne _)

theorem arp_ref (hX : X) (h0 : ∀ n, d0.lookup n = (init n).bind (heap[·]?)) (hs : ∀ n a, init n = some a → (heap[a]?).isSome)
    (mid : String → List Val) (junk : Val) (buff : Bytes) (b : Nat) :
    Ref o Cls.arp.names init heap X d0 (arpInto o mid junk buff b) (Net.arpInto junk buff b) := by
  unfold arpInto Net.arpInto
  refs [hX, h0, hs]

theorem vlan_ref (hX : X) (h0 : ∀ n, d0.lookup n = (init n).bind (heap[·]?)) (hs : ∀ n a, init n = some a → (heap[a]?).isSome)
    (mid : String → List Val) (junk : Val) (buff : Bytes) (b : Nat) :
    Ref o Cls.vlan.names init heap X d0 (vlanInto o mid junk buff b) (Net.vlanInto junk buff b) := by
  unfold vlanInto Net.vlanInto
  refine Ref.then (loop_ref _ _ (by decide) _ _) fun _ => Ref.then (getattr_ref hX h0 hs _) fun v => ?_
  generalize gval v = x
  split
  · refine Ref.ite ?_ (Ref.ite (Ref.then (setattr_ref (by decide) _) fun _ => Ref.then (getattr_ref hX h0 hs _) fun v => ?_) (Ref.fail _))
    · refs [hX, h0, hs]
    · generalize gval v = x
      split
      · refs [hX, h0, hs]
      · rename_i hne
        split <;> first | exact Ref.fail _ | exact absurd rfl (hne _)
  · rename_i hne
    split <;> first | exact Ref.fail _ | exact absurd rfl (hne _)

theorem tlv_ref (buff : Bytes) (b : Nat) : Ref o Cls.tlv.names init heap X d0 (tlvInto o buff b) (Net.tlvInto buff b) := by
  unfold tlvInto Net.tlvInto
  cases unpackFrom 2 (slice buff b (b + 2)) 0 with
  | none => exact Ref.fail _
  | some h => exact Ref.then (setattr_ref (by decide) _) fun _ => setattr_ref (by decide) _

theorem subTlv_ref (buff : Bytes) (b : Nat) : Ref o Cls.subTlv.names init heap X d0 (subTlvInto o buff b) (Net.subTlvInto buff b) := by
  unfold subTlvInto Net.subTlvInto
  cases unpackFrom 2 (slice buff b (b + 2)) 0 with
  | none => exact Ref.fail _
  | some h =>
    refine Ref.then (setattr_ref (by decide) _) fun _ => ?_
    cases unpackFrom 1 (slice buff (b + 2) (b + 3)) 0 with
    | none => exact Ref.fail _
    | some s => exact Ref.then (setattr_ref (by decide) _) fun _ => setattr_ref (by decide) _

theorem ipv4_ref (hX : X) (h0 : ∀ n, d0.lookup n = (init n).bind (heap[·]?)) (hs : ∀ n a, init n = some a → (heap[a]?).isSome)
    (mid : String → List Val) (junk : Val) (buff : Bytes) (b : Nat) :
    Ref o Cls.ipv4.names init heap X d0 (ipv4Into o mid junk buff b) (Net.ipv4Into junk buff b) := by
  unfold ipv4Into Net.ipv4Into
  refs [hX, h0, hs]
  split
  · refs [hX, h0, hs]
  · rename_i hne
    split <;> first | exact Ref.fail _ | exact absurd rfl (hne _)

theorem ipv6_ref (hX : X) (h0 : ∀ n, d0.lookup n = (init n).bind (heap[·]?)) (hs : ∀ n a, init n = some a → (heap[a]?).isSome)
    (mid : String → List Val) (junk : Val) (buff : Bytes) (b : Nat) :
    Ref o Cls.ipv6.names init heap X d0 (ipv6Into o mid junk buff b) (Net.ipv6Into junk buff b) := by
  unfold ipv6Into Net.ipv6Into
  refs [hX, h0, hs]

theorem cut_ref {l : Option String} (hX : l ≠ none → X) (h0 : ∀ n, d0.lookup n = (init n).bind (heap[·]?))
    (hs : ∀ n a, init n = some a → (heap[a]?).isSome) (mid : String → List Val) (k : Nat) {fs : Fields} (hl : ∀ n ∈ l.toList, n ∈ names)
    (hn : ∀ f ∈ fs, f.1 ∈ names) (junk : Val) (buff : Bytes) (b : Nat) :
    Ref o names init heap X d0 (cutInto o mid k l fs junk buff b) (Pyof.cutInto k l fs junk buff b) := by
  have loop : ∀ n : Val, Ref o names init heap X d0
      ((unpackLoop o mid junk fs (buff.take (b + gotNum n)) b).bind fun _ => .ret (.ok ()))
      (Pyof.unpackLoop junk fs (buff.take (b + gotNum n)) b >>= fun _ => Pure.pure ()) :=
    fun n => (loop_ref mid junk hn _ b).bind fun _ => Ref.ret (.ok ())
  intro Q K L d hd hQ
  unfold cutInto
  unfold Pyof.cutInto at hQ
  cases l with
  | none =>
    simp only []
    cases hu : ubUnpack 2 .none buff (b + k) with
    | error e => rw [hu] at hQ; exact hQ K L hd
    | ok n => rw [hu] at hQ; exact loop n Q K L d hd hQ
  | some name =>
    intro a _ ha
    refine ⟨rfl, hl name (by simp), by rw [setK_self]; rfl, ?_⟩
    have done : ∀ v, Sees d0 (d.set name v) (setK K a v) (setK L name a) := fun v => (hd.new ha v).link (setK_self _ _ _) name
    refine Ok.bind (decode_ok (by rw [setK_self]; rfl) (fun v e => ?_) (fun e he => ?_) (mid ""))
    · rw [e] at hQ
      rw [setK_setK]
      refine Ok.bind (getattr_ok (hX (by simp)) h0 hs (done v) ?_)
      have : ((Meth.getattr name).run (d.set name v)).1 = .ok v := by simp [Meth.getattr, set_lookup]
      rw [this]
      exact loop v Q _ _ _ (done v) hQ
    · rw [he] at hQ
      rw [setK_setK]
      exact hQ _ _ (done junk)

theorem assign_ref : ∀ {ops : List (String × Val)} (_ : ∀ x ∈ ops, x.1 ∈ names), Ref o names init heap X d0 (assignInto o ops) (assignMethod ops)
  | [], _ => Ref.ret (.ok ())
  | x :: _, h => (setattr_ref (h x (List.mem_cons_self ..)) x.2).bind fun _ => assign_ref fun y hy => h y (List.mem_cons_of_mem _ hy)

theorem assign_run : ∀ (ops : List (String × Val)) (d : Dict), (assignMethod ops).run d = (.ok (), runSets d ops)
  | [], _ => rfl
  | x :: ops, d => by
    rw [assignMethod, bind_eq]
    exact assign_run ops (d.set x.1 x.2)

theorem cls_ref {c : Cls} (hc : c.Known) (h0 : ∀ n, d0.lookup n = (init n).bind (heap[·]?))
    (hs : ∀ n a, init n = some a → (heap[a]?).isSome) (mid : String → List Val) (junk : Val) (buff : Bytes) (b : Nat) :
    Ref o c.names init heap (¬ c.stores) d0 (c.steps o mid junk buff b) (c.method junk buff b) := by
  cases c with
  | message m => exact into_ref hc h0 hs mid junk buff b
  | struct fs => exact (loop_ref mid junk (self_names fs) buff b).bind fun _ => Ref.ret (.ok ())
  | cut k l fs =>
    exact cut_ref (fun h => h) h0 hs mid k (fun n hn => List.mem_append_left _ hn) (fun f hf => List.mem_append_right _ (List.mem_map_of_mem hf)) junk buff b
  | assign ops => exact assign_ref fun x hx => List.mem_map_of_mem hx
  | oxm => exact oxm_ref id h0 hs mid junk buff b
  | flowMatch => exact match_ref id h0 hs mid junk buff b
  | arp => exact arp_ref id h0 hs mid junk buff b
  | vlan => exact vlan_ref id h0 hs mid junk buff b
  | ethernet => exact ethernetLoop_ref mid junk _ (self_names _) buff b
  | tlv => exact tlv_ref buff b
  | subTlv => exact subTlv_ref buff b
  | ipv4 => exact ipv4_ref id h0 hs mid junk buff b
  | ipv6 => exact ipv6_ref id h0 hs mid junk buff b

/-- Decoding amounts to assignments of the attributes of the class. -/
theorem cls_sets {c : Cls} (hc : c.Known) (junk : Val) (buff : Bytes) (b : Nat) : OnlySets c.names (c.method junk buff b) := by
  have sub : ∀ {l l' : List String} {p : Meth Unit}, OnlySets l p → (∀ n ∈ l, n ∈ l') → OnlySets l' p := by
    intro l l' p h hl d
    obtain ⟨ops, h1, h2⟩ := h d
    exact ⟨ops, fun x hx => hl _ (h1 x hx), h2⟩
  cases c with
  | message m => exact sets_unpackInto hc junk buff b
  | struct fs => exact sets_bind (sets_loop (self_names fs)) fun _ => sets_pure _
  | cut k l fs =>
    intro d
    have hloop : ∀ (bs : Bytes) (d : Dict), ∃ ops : List (String × Val), (∀ x ∈ ops, x.1 ∈ fs.map (·.1)) ∧
        ((Pyof.unpackLoop junk fs bs b >>= fun _ => Pure.pure () : Meth Unit).run d).2 = runSets d ops :=
      fun bs d => sets_bind (sets_loop (self_names fs)) (fun _ => sets_pure _) d
    simp only [Cls.method, Pyof.cutInto]
    cases ubUnpack 2 .none buff (b + k) with
    | error e =>
      refine ⟨l.toList.map fun n => (n, junk), fun x hx => ?_, keepIn_sets ..⟩
      obtain ⟨n, hn, rfl⟩ := List.mem_map.1 hx
      exact List.mem_append_left _ hn
    | ok n =>
      obtain ⟨ops, h1, h2⟩ := hloop (buff.take (b + gotNum n)) (keepIn l n d)
      refine ⟨l.toList.map (fun k => (k, n)) ++ ops, fun x hx => ?_, ?_⟩
      · rcases List.mem_append.1 hx with hx | hx
        · obtain ⟨n, hn, rfl⟩ := List.mem_map.1 hx
          exact List.mem_append_left _ hn
        · exact List.mem_append_right _ (h1 x hx)
      · rw [runSets_append, ← keepIn_sets]; exact h2
  | assign ops => exact fun d => ⟨ops, fun x hx => List.mem_map_of_mem hx, by rw [Cls.method, assign_run]⟩
  | oxm => exact sub (oxm_sets junk buff b) (by decide)
  | flowMatch => exact match_sets junk buff b
  | arp => exact arp_sets junk buff b
  | vlan => exact sub (vlan_sets junk buff b) (by decide)
  | ethernet => exact ethernet_sets buff b
  | tlv => exact tlv_sets buff b
  | subTlv => exact subTlv_sets buff b
  | ipv4 => exact sub (ipv4_sets junk buff b) (by decide)
  | ipv6 => exact sub (ipv6_sets junk buff b) (by decide)

/-! ## Methods that only store -/

/-- What the thread has stored, whatever the object held before. -/
def All (ops : List (String × Val)) (K : Known) (L : Links) : Prop := ∀ d0, Sees d0 (runSets d0 ops) K L

/-- The steps `p` and the method `q` end with the same result and store the same, whatever the object holds. -/
def Both {α : Type} (o : Nat) (names : List String) (init : Links) (heap : List Val) (X : Prop) (p : Steps α) (q : Meth α) : Prop :=
  ∃ (r : Res α) (ops : List (String × Val)), (∀ d, q.run d = (r, runSets d ops)) ∧
    ∀ (Q : Res α → Known → Links → Prop) K L ops0, All ops0 K L → (∀ K' L', All (ops0 ++ ops) K' L' → Q r K' L') → Ok o names init heap X Q p K L

theorem All.put {ops : List (String × Val)} {K : Known} {L : Links} (h : All ops K L) {a : Nat} (ha : K a = none) (n : String) (v : Val) :
    All (ops ++ [(n, v)]) (setK K a v) (setK L n a) := fun d0 => by
  rw [runSets_append]
  exact ((h d0).new ha v).link (setK_self _ _ _) n

theorem All.new {ops : List (String × Val)} {K : Known} {L : Links} (h : All ops K L) {a : Nat} (ha : K a = none) (v : Val) :
    All ops (setK K a v) L := fun d0 => (h d0).new ha v

theorem Both.ret {α : Type} (r : Res α) : Both o names init heap X (.ret r) (Meth.call r) :=
  ⟨r, [], fun _ => rfl, fun _ K L ops0 h hQ => hQ K L (by rw [List.append_nil]; exact h)⟩

theorem Both.bind {α β : Type} {p : Steps α} {q : Meth α} {f : α → Steps β} {g : α → Meth β} (hp : Both o names init heap X p q)
    (hf : ∀ a, Both o names init heap X (f a) (g a)) : Both o names init heap X (p.bind f) (q >>= g) := by
  obtain ⟨r, ops, h1, h2⟩ := hp
  cases r with
  | error e =>
    exact ⟨.error e, ops, fun d => by rw [bind_eq, h1], fun Q K L ops0 h hQ => Ok.bind (h2 _ K L ops0 h hQ)⟩
  | ok a =>
    obtain ⟨r', ops', h1', h2'⟩ := hf a
    refine ⟨r', ops ++ ops', fun d => by rw [bind_eq, h1, runSets_append]; exact h1' _, fun Q K L ops0 h hQ => ?_⟩
    refine Ok.bind (h2 _ K L ops0 h fun K' L' h' => h2' Q K' L' _ h' fun K'' L'' h'' => ?_)
    exact hQ K'' L'' (by rw [← List.append_assoc]; exact h'')

theorem setattr_both {n : String} (hn : n ∈ names) (v : Val) : Both o names init heap X (setattr o n v) (Meth.setattr n v) :=
  ⟨.ok (), [(n, v)], fun _ => rfl, fun _ _ _ _ h hQ a _ ha => ⟨rfl, hn, by rw [setK_self]; rfl, hQ _ _ (h.put ha n v)⟩⟩

theorem attribute_both {n : String} (hn : n ∈ names) (mid : List Val) (junk : Val) (c : Attr) (buff : Bytes) (b : Nat) :
    Both o names init heap X (unpackAttribute o mid junk n c buff b) (Pyof.unpackAttribute junk n c buff b) := by
  unfold unpackAttribute Pyof.unpackAttribute
  by_cases hb : buff = []
  · simp only [hb, if_true]
    exact ⟨.ok 0, [(n, c.proto)], fun _ => rfl, fun _ _ _ _ h hQ a _ ha => ⟨rfl, hn, by rw [setK_self]; rfl, hQ _ _ (h.put ha n _)⟩⟩
  · simp only [hb, if_false]
    cases hu : c.unpack buff b with
    | error e =>
      refine ⟨.error e, [(n, junk)], fun _ => rfl, fun _ _ _ _ h hQ a _ ha => ⟨rfl, hn, by rw [setK_self]; rfl, ?_⟩⟩
      refine Ok.bind (decode_ok (by rw [setK_self]; rfl) nofun (fun e' he => ?_) mid)
      cases he
      rw [setK_setK]
      exact hQ _ _ (h.put ha n _)
    | ok v =>
      refine ⟨c.usize v, [(n, v)], fun _ => rfl, fun _ _ _ _ h hQ a _ ha => ⟨rfl, hn, by rw [setK_self]; rfl, ?_⟩⟩
      refine Ok.bind (decode_ok (by rw [setK_self]; rfl) (fun u e => ?_) nofun mid)
      cases e
      rw [setK_setK]
      exact ⟨v, Or.inl (setK_self _ _ _), hQ _ _ (h.put ha n _)⟩

theorem loop_both (mid : String → List Val) (junk : Val) : ∀ {fs : Fields} (_ : ∀ f ∈ fs, f.1 ∈ names) (buff : Bytes) (b : Nat),
    Both o names init heap X (unpackLoop o mid junk fs buff b) (Pyof.unpackLoop junk fs buff b)
  | [], _, _, b => Both.ret (.ok b)
  | (n, c) :: fs, h, buff, b =>
    (attribute_both (h _ (List.mem_cons_self ..)) (mid n) junk c buff b).bind fun size =>
      loop_both mid junk (fun f hf => h f (List.mem_cons_of_mem _ hf)) buff (b + size)

theorem ethernet_both (mid : String → List Val) (junk : Val) (len : Nat) : ∀ {fs : Fields} (_ : ∀ f ∈ fs, f.1 ∈ names) (buff : Bytes) (b : Nat),
    Both o names init heap X (ethernetLoopInto o mid junk len fs buff b) (Net.ethernetLoopInto len fs buff b)
  | [], _, _, _ => Both.ret (.ok ())
  | (n, c) :: fs, h, buff, b => by
    have e : Net.ethernetLoopInto len ((n, c) :: fs) buff b =
        (Meth.call (if n = "vlans" then c.unpack (slice buff b (b + len)) 0 else c.unpack buff b) >>= fun v => Meth.setattr n v >>= fun _ =>
          Meth.call (c.usize v) >>= fun size => Net.ethernetLoopInto len fs buff (b + size)) := by
      rw [Net.ethernetLoopInto]; split <;> rfl
    rw [e, ethernetLoopInto]
    generalize (if n = "vlans" then c.unpack (slice buff b (b + len)) 0 else c.unpack buff b) = r
    cases r with
    | error e =>
      refine ⟨.error e, [], fun _ => rfl, fun _ _ _ _ h hQ a _ ha => ?_⟩
      refine Ok.bind (decode_ok (by rw [setK_self]; rfl) nofun (fun e' he => ?_) (mid n))
      cases he
      rw [setK_setK]
      exact hQ _ _ (by rw [List.append_nil]; exact h.new ha _)
    | ok v =>
      obtain ⟨r', ops, h1, h2⟩ := Both.bind (Both.ret (o := o) (names := names) (init := init) (heap := heap) (X := X) (c.usize v)) fun size =>
        ethernet_both mid junk len (fun f hf => h f (List.mem_cons_of_mem _ hf)) buff (b + size)
      refine ⟨r', (n, v) :: ops, fun d => h1 (d.set n v), fun Q K L ops0 hA hQ a _ ha => ?_⟩
      refine Ok.bind (decode_ok (by rw [setK_self]; rfl) (fun u e => ?_) nofun (mid n))
      cases e
      rw [setK_setK]
      refine ⟨rfl, h _ (List.mem_cons_self ..), by rw [setK_self]; rfl, v, Or.inl (setK_self _ _ _), ?_⟩
      exact h2 Q _ _ _ (hA.put ha n v) fun K' L' h' => hQ K' L' (by rw [List.append_assoc] at h'; exact h')

theorem assign_both : ∀ {ops : List (String × Val)} (_ : ∀ x ∈ ops, x.1 ∈ names), Both o names init heap X (assignInto o ops) (assignMethod ops)
  | [], _ => Both.ret (.ok ())
  | x :: _, h => (setattr_both (h x (List.mem_cons_self ..)) x.2).bind fun _ => assign_both fun y hy => h y (List.mem_cons_of_mem _ hy)

theorem cls_both {c : Cls} (hs : c.stores) (mid : String → List Val) (junk : Val) (buff : Bytes) (b : Nat) :
    Both o c.names init heap X (c.steps o mid junk buff b) (c.method junk buff b) := by
  cases c with
  | message m =>
    obtain ⟨h1, h2, h3, h4, h5, h6, h7⟩ := hs
    simp only [Cls.steps, Cls.method, unpackInto, MsgCls.unpackInto, h1, h2, h3, h4, h5, h6, h7, if_false]
    exact (loop_both mid junk (self_names m.body) buff b).bind fun _ => Both.ret (.ok ())
  | struct fs => exact (loop_both mid junk (self_names fs) buff b).bind fun _ => Both.ret (.ok ())
  | cut k l fs =>
    cases (show l = none from hs)
    simp only [Cls.steps, Cls.method, cutInto, Pyof.cutInto]
    cases ubUnpack 2 .none buff (b + k) with
    | error e => exact Both.ret (.error e)
    | ok n =>
      exact Both.bind (Both.ret (.ok ())) fun _ =>
        (loop_both mid junk (fun f hf => List.mem_append_right _ (List.mem_map_of_mem hf)) _ b).bind fun _ => Both.ret (.ok ())
  | assign ops => exact assign_both fun x hx => List.mem_map_of_mem hx
  | ethernet => exact ethernet_both mid junk _ (self_names _) buff b
  | tlv =>
    simp only [Cls.steps, Cls.method, tlvInto, Net.tlvInto]
    cases unpackFrom 2 (slice buff b (b + 2)) 0 with
    | none => exact Both.ret (.error .unpack)
    | some h => exact Both.bind (setattr_both (by decide) _) fun _ => setattr_both (by decide) _
  | subTlv =>
    simp only [Cls.steps, Cls.method, subTlvInto, Net.subTlvInto]
    cases unpackFrom 2 (slice buff b (b + 2)) 0 with
    | none => exact Both.ret (.error .unpack)
    | some h =>
      refine Both.bind (setattr_both (by decide) _) fun _ => ?_
      cases unpackFrom 1 (slice buff (b + 2) (b + 3)) 0 with
      | none => exact Both.ret (.error .unpack)
      | some s => exact Both.bind (setattr_both (by decide) _) fun _ => setattr_both (by decide) _
  | oxm | flowMatch | arp | vlan | ipv4 | ipv6 => exact hs.elim

end

/-! ## Dictionaries and references -/

def dictOf (w : Mem) (o : Nat) : Dict := (w.objs[o]?.getD []).map fun r => (r.1, (w.heap[r.2]?).getD .none)

theorem Has.dict {w : Mem} {o : Nat} {d : Dict} (h : Has w o d) : dictOf w o = d := by
  obtain ⟨_, refs, h1, h2⟩ := h
  have := congrArg (List.map fun p : String × Option Val => (p.1, p.2.getD .none)) h2
  simp only [List.map_map] at this
  have e : ((fun p : String × Option Val => (p.1, p.2.getD .none)) ∘ fun p : String × Val => (p.1, some p.2)) = id := by funext p; rfl
  rw [e, List.map_id] at this
  rw [dictOf, h1]; exact this

theorem refs_lookup {heap : List Val} (n : String) : ∀ {refs : List (String × Nat)} {d : Dict},
    refs.map (fun r => (r.1, heap[r.2]?)) = d.map (fun p => (p.1, some p.2)) →
    d.lookup n = (refs.lookup n).bind (heap[·]?) ∧ ∀ a, refs.lookup n = some a → (heap[a]?).isSome
  | [], [], _ => by simp
  | [], _ :: _, h => by simp at h
  | _ :: _, [], h => by simp at h
  | (k, a) :: refs, (k', v) :: d, h => by
    simp only [List.map_cons, List.cons.injEq, Prod.mk.injEq] at h
    obtain ⟨⟨rfl, ha⟩, h⟩ := h
    by_cases hn : n = k
    · subst hn
      simp only [List.lookup, beq_self_eq_true, Option.bind_some, ha, true_and]
      intro b hb; cases hb; rw [ha]; rfl
    · have : (n == k) = false := by simpa using hn
      simp only [List.lookup, this]
      exact refs_lookup n h

theorem refs_has {heap : List Val} : ∀ {refs : List (String × Nat)} {d : Dict}, refs.map (·.1) = d.map (·.1) → (d.map (·.1)).Nodup →
    (∀ n, d.lookup n = (refs.lookup n).bind (heap[·]?)) → refs.map (fun r => (r.1, heap[r.2]?)) = d.map (fun p => (p.1, some p.2))
  | [], [], _, _, _ => rfl
  | [], _ :: _, h, _, _ => by simp at h
  | _ :: _, [], h, _, _ => by simp at h
  | (k, a) :: refs, (k', v) :: d, h, hd, hl => by
    simp only [List.map_cons, List.cons.injEq] at h
    obtain ⟨rfl, h⟩ := h
    simp only [List.map_cons, List.nodup_cons] at hd
    have hk := hl k
    simp only [List.lookup, beq_self_eq_true, Option.bind_some] at hk
    have none_of : ∀ {β : Type} (l : List (String × β)), k ∉ l.map (·.1) → l.lookup k = none := by
      intro β l hl
      induction l with
      | nil => rfl
      | cons x l ih =>
        obtain ⟨y, b⟩ := x
        simp only [List.map_cons, List.mem_cons, not_or] at hl
        have : (k == y) = false := by simpa using hl.1
        simp only [List.lookup, this]; exact ih hl.2
    rw [List.map_cons, List.map_cons, ← hk, refs_has h hd.2 fun n => ?_]
    by_cases hn : n = k
    · subst hn
      rw [none_of d hd.1, none_of refs (by rw [h]; exact hd.1)]; rfl
    · have := hl n
      have hb : (n == k) = false := by simpa using hn
      simpa only [List.lookup, hb] using this

/-! ## The calls together -/

def task (w : Mem) (j : Job) : Task Unit where
  o := j.o
  names := j.cls.names
  X := ¬ j.cls.stores
  Q := fun r K L => ∀ d0, (j.cls.stores ∨ d0 = dictOf w j.o) → r = (j.alone d0).1 ∧ Sees d0 (j.alone d0).2 K L

theorem fit_tasks {js : List Job} {w : Mem} (hf : ∀ j ∈ js, j.Fits w) (ha : Apart js) : Fit (js.map (task w)) w := by
  refine ⟨fun i t ht => ?_, fun i k t t' ht ht' hX ho => ?_⟩
  · rw [List.getElem?_map] at ht
    obtain ⟨j, hj, rfl⟩ := Option.map_eq_some_iff.1 ht
    obtain ⟨_, d, ⟨_, refs, h1, h2⟩, hn⟩ := hf j (List.mem_of_getElem? hj)
    refine ⟨refs, h1, fun n hm => ?_⟩
    have := congrArg (List.map (·.1)) h2
    simp only [List.map_map] at this
    have hk : refs.map (·.1) = d.map (·.1) := this
    rw [hk]
    exact hn n hm
  · rw [List.getElem?_map] at ht ht'
    obtain ⟨j, hj, rfl⟩ := Option.map_eq_some_iff.1 ht
    obtain ⟨j', hj', rfl⟩ := Option.map_eq_some_iff.1 ht'
    rcases ha i k j j' hj hj' ho.symm with h | h
    · exact h
    · exact absurd h.1 hX

theorem start {js : List Job} {w : Mem} (hf : ∀ j ∈ js, j.Fits w) :
    Inv (js.map (task w)) w (js.map Job.steps) w (fun _ _ => none) (fun _ _ => none) := by
  refine ⟨fun i t p ht hp => ?_, by simp, by simp, by simp, by simp, fun _ _ => rfl, by simp, fun _ _ => rfl, rfl, ?_, ?_⟩
  · rw [List.getElem?_map] at ht hp
    obtain ⟨j, hj, rfl⟩ := Option.map_eq_some_iff.1 ht
    rw [hj] at hp
    cases hp
    obtain ⟨hc, d, hd, _⟩ := hf j (List.mem_of_getElem? hj)
    have he := hd.dict
    obtain ⟨_, refs, h1, h2⟩ := hd
    have hl := fun n => refs_lookup n h2
    by_cases hst : j.cls.stores
    · obtain ⟨r, ops, q1, q2⟩ := cls_both (o := j.o) (init := fun n => (w.objs[j.o]?.getD []).lookup n) (heap := w.heap) (X := ¬ j.cls.stores) hst j.mid j.junk
        j.buff j.offset
      refine q2 _ _ _ [] (fun d0 => ⟨fun _ => rfl, by simp⟩) fun K L h d0 _ => ?_
      rw [Job.alone, q1]
      exact ⟨rfl, h d0⟩
    refine cls_ref hc (d0 := dictOf w j.o) ?_ ?_ j.mid j.junk j.buff j.offset _ _ _ (dictOf w j.o) ⟨fun _ => rfl, by simp⟩ fun K L h d0 hd0 => ?_
    · intro n; rw [he, show (task w j).o = j.o from rfl, h1]; exact (hl n).1
    · intro n a ha; rw [show (task w j).o = j.o from rfl, h1] at ha; exact (hl n).2 a ha
    · cases hd0.resolve_left hst
      exact ⟨rfl, h⟩
  · intro o d d0 h h'; rw [h] at h'; cases h'; rfl
  · intro o d d0 h h' n; rw [h] at h'; cases h'; exact Or.inl ⟨rfl, fun _ _ _ _ => rfl⟩

/-! ## Concrete runs -/

def next {α : Type} (w : Mem) : Steps α → Option (Steps α × Mem)
  | .ret _ => none
  | .new v k => some (k w.heap.length, { w with heap := w.heap ++ [v] })
  | .link o n a k => match w.objs[o]? with | some d => some (k, { w with objs := w.objs.set o (setRef d n a) }) | none => none
  | .put a v k => if a < w.heap.length then some (k, { w with heap := w.heap.set a v }) else none
  | .read a k => match w.heap[a]? with | some v => some (k v, w) | none => none
  | .look o n k =>
    match w.objs[o]? with
    | some d => (match d.lookup n with | some a => some (k a, w) | none => some (.ret (.error .attribute), w))
    | none => none

theorem next_step {α : Type} {w : Mem} {t : Steps α} {c : Steps α × Mem} (h : next w t = some c) : Step (t, w) c := by
  cases t with
  | ret r => cases h
  | new v k => cases h; exact .new ..
  | link o n a k =>
    simp only [next] at h
    split at h
    · rename_i hd; cases h; exact .link hd
    · cases h
  | put a v k =>
    simp only [next] at h
    split at h
    · rename_i hd; cases h; exact .put hd
    · cases h
  | read a k =>
    simp only [next] at h
    split at h
    · rename_i hd; cases h; exact .read hd
    · cases h
  | look o n k =>
    simp only [next] at h
    split at h
    · rename_i hd
      split at h
      · rename_i hl; cases h; exact .look hd hl
      · rename_i hl; cases h; exact .missing hd hl
    · cases h

/-- The threads take their turns in this order. -/
def turns {α : Type} : List Nat → List (Steps α) × Mem → List (Steps α) × Mem
  | [], c => c
  | i :: is, c =>
    turns is (match c.1[i]? with
      | none => c
      | some t => match next c.2 t with | none => c | some x => (c.1.set i x.1, x.2))

theorem turns_runs {α : Type} : ∀ (is : List Nat) (c : List (Steps α) × Mem), Runs c (turns is c)
  | [], c => .refl c
  | i :: is, c => by
    refine Runs.trans ?_ (turns_runs is _)
    split
    · exact .refl _
    · rename_i t ht
      split
      · exact .refl _
      · rename_i x hx
        obtain ⟨ts, w⟩ := c
        exact .step (.refl _) (.mk ht (next_step hx))

def resultOf {α : Type} (i : Nat) (c : List (Steps α) × Mem) : Option (Res α) :=
  match c.1[i]? with
  | some (.ret r) => some r
  | _ => none

theorem resultOf_some {α : Type} {i : Nat} {c : List (Steps α) × Mem} {r : Res α} (h : resultOf i c = some r) : c.1[i]? = some (.ret r) := by
  simp only [resultOf] at h
  split at h
  · cases h; assumption
  · cases h

theorem run_find {α : Type} (is : List Nat) (c : List (Steps α) × Mem) (P : List (Steps α) × Mem → Prop) (h : P (turns is c)) :
    ∃ ts w, Runs c (ts, w) ∧ P (ts, w) := by
  have := turns_runs is c
  generalize turns is c = c' at h this
  exact ⟨c'.1, c'.2, this, h⟩

/-- A memory with these objects. -/
def memOf : List Dict → Mem
  | [] => ⟨[], []⟩
  | d :: ds =>
    let w := memOf ds
    ⟨(d.zipIdx w.heap.length).map (fun p => (p.1.1, p.2)) :: w.objs, w.heap ++ d.map (·.2)⟩

end Pyof.Decode
