import Verif.Lemmas.HeapCopy
/-!
# Lemmas about the heap model
-/
namespace Pyof.Mem

theorem Reach.head {h : Heap} {a c : Addr} {n : Node} (hn : h[a]? = some n) (hc : c ∈ n.refs) : ∀ {b}, Reach h c b → Reach h a b := by
  intro b hr
  induction hr with
  | refl => exact .step (.refl _) hn hc
  | step _ h1 h2 ih => exact .step ih h1 h2

theorem Reach.congr {h h' : Heap} {a : Addr} (he : ∀ b, Reach h a b → h'[b]? = h[b]?) : ∀ {b}, Reach h' a b → Reach h a b := by
  intro b hr
  induction hr with
  | refl => exact .refl _
  | step _ h1 h2 ih => exact .step ih (by rw [← he _ ih]; exact h1) h2

theorem mem_refs {n : Node} {nm : String} {b : Addr} (h : (nm, Slot.ref b) ∈ n.slots) : b ∈ n.refs :=
  List.mem_filterMap.2 ⟨_, h, rfl⟩

theorem of_mem_refs {n : Node} {b : Addr} (h : b ∈ n.refs) : ∃ nm, (nm, Slot.ref b) ∈ n.slots := by
  obtain ⟨⟨nm, s⟩, h1, h2⟩ := List.mem_filterMap.1 h
  cases s with
  | prim v => cases h2
  | ref a => cases h2; exact ⟨nm, h1⟩

theorem view_congr {h h' : Heap} : ∀ (d : Nat) {a : Addr}, (∀ b, Reach h a b → h'[b]? = h[b]?) → view h' d a = view h d a
  | 0, _, _ => rfl
  | d + 1, a, he => by
    rw [view, view, he a (.refl _)]
    split
    · rfl
    · rename_i n hn
      congr 1
      refine List.map_congr_left fun p hp => ?_
      obtain ⟨nm, s⟩ := p
      cases s with
      | prim v => rfl
      | ref b => exact congrArg (Prod.mk nm) (view_congr d fun c hc => he c (Reach.head hn (mem_refs hp) hc))

/-- Nothing below `base` is changed except in `w`; everything made since refers only to what was made since. -/
structure Fresh (base : Nat) (w : Addr → Prop) (h0 h : Heap) : Prop where
  len : base ≤ h.length
  old : ∀ a, a < base → ¬ w a → h[a]? = h0[a]?
  new : ∀ a n, base ≤ a → h[a]? = some n → ∀ b ∈ n.refs, base ≤ b
  upd : ∀ a n, a < base → w a → h[a]? = some n → ∃ n0, h0[a]? = some n0 ∧ ∀ b ∈ n.refs, b ∈ n0.refs ∨ base ≤ b
  bound : ∀ (a : Addr) (n : Node), h[a]? = some n → ∀ b ∈ n.refs, b < h.length

theorem Fresh.start {h : Heap} (w : Addr → Prop) (hb : ∀ (a : Addr) (n : Node), h[a]? = some n → ∀ b ∈ n.refs, b < h.length) :
    Fresh h.length w h h where
  len := Nat.le_refl _
  old _ _ _ := rfl
  new a n ha hn := by
    have := (List.getElem?_eq_some_iff.1 hn).1
    omega
  upd a n _ _ hn := ⟨n, hn, fun b hb => .inl hb⟩
  bound := hb

theorem Fresh.alloc {base : Nat} {w : Addr → Prop} {h0 h : Heap} {n : Node} (f : Fresh base w h0 h) (hr : ∀ b ∈ n.refs, base ≤ b ∧ b < h.length) :
    Fresh base w h0 (h ++ [n]) := by
  have get : ∀ (a : Addr) (m : Node), (h ++ [n])[a]? = some m → h[a]? = some m ∨ (a = h.length ∧ m = n) := by
    intro a m hm
    rcases Nat.lt_trichotomy a h.length with hl | hl | hl
    · rw [List.getElem?_append_left hl] at hm; exact .inl hm
    · subst hl; simp at hm; exact .inr ⟨rfl, hm.symm⟩
    · rw [List.getElem?_eq_none (by simp; omega)] at hm; cases hm
  refine ⟨by have := f.len; simp; omega, fun a ha hw => ?_, fun a m ha hm b hb => ?_, fun a m ha hw hm => ?_, fun a m hm b hb => ?_⟩
  · rw [List.getElem?_append_left (by have := f.len; omega)]; exact f.old a ha hw
  · rcases get a m hm with hm | ⟨_, rfl⟩
    · exact f.new a m ha hm b hb
    · exact (hr b hb).1
  · rcases get a m hm with hm | ⟨rfl, _⟩
    · exact f.upd a m ha hw hm
    · have := f.len; omega
  · rcases get a m hm with hm | ⟨_, rfl⟩
    · have := f.bound a m hm b hb; simp; omega
    · have := (hr b hb).2; simp; omega

theorem Fresh.modify {base : Nat} {w : Addr → Prop} {h0 h : Heap} {a : Addr} {g : Node → Node} (f : Fresh base w h0 h) (ha : base ≤ a ∨ w a)
    (hg : ∀ n, ∀ b ∈ (g n).refs, b ∈ n.refs ∨ (base ≤ b ∧ b < h.length)) : Fresh base w h0 (h.modify a g) := by
  have get : ∀ (c : Addr) (m : Node), (h.modify a g)[c]? = some m → ∃ m0, h[c]? = some m0 ∧ ((c ≠ a ∧ m = m0) ∨ (c = a ∧ m = g m0)) := by
    intro c m hm
    rw [List.getElem?_modify] at hm
    cases hc : h[c]? with
    | none => rw [hc] at hm; cases hm
    | some m0 =>
      rw [hc] at hm
      by_cases hca : a = c
      · subst hca; simp at hm; exact ⟨m0, rfl, .inr ⟨rfl, hm.symm⟩⟩
      · simp [hca] at hm; exact ⟨m0, rfl, .inl ⟨fun h => hca h.symm, hm.symm⟩⟩
  refine ⟨by simpa using f.len, fun c hc hw => ?_, fun c m hc hm b hb => ?_, fun c m hc hw hm => ?_, fun c m hm b hb => ?_⟩
  · have hca : a ≠ c := by
      rintro rfl
      rcases ha with ha | ha
      · omega
      · exact hw ha
    rw [List.getElem?_modify, ← f.old c hc hw]
    simp [hca]
  · obtain ⟨m0, h1, ⟨_, rfl⟩ | ⟨rfl, rfl⟩⟩ := get c m hm
    · exact f.new c m hc h1 b hb
    · rcases hg m0 b hb with h2 | h2
      · exact f.new c m0 hc h1 b h2
      · exact h2.1
  · obtain ⟨m0, h1, ⟨_, rfl⟩ | ⟨rfl, rfl⟩⟩ := get c m hm
    · exact f.upd c m hc hw h1
    · obtain ⟨n0, h3, h4⟩ := f.upd c m0 hc hw h1
      refine ⟨n0, h3, fun b hb => ?_⟩
      rcases hg m0 b hb with h2 | h2
      · exact h4 b h2
      · exact .inr h2.1
  · obtain ⟨m0, h1, ⟨_, rfl⟩ | ⟨rfl, rfl⟩⟩ := get c m hm
    · simpa using f.bound c m h1 b hb
    · rcases hg m0 b hb with h2 | h2
      · simpa using f.bound c m0 h1 b h2
      · simpa using h2.2

theorem setSlot_mem {ss : List (String × Slot)} {name : String} {s : Slot} : ∀ {p}, p ∈ setSlot ss name s → p ∈ ss ∨ p.2 = s := by
  induction ss with
  | nil => intro p hp; simp only [setSlot, List.mem_singleton] at hp; subst hp; exact .inr rfl
  | cons q r ih =>
    obtain ⟨n, t⟩ := q
    intro p hp
    simp only [setSlot] at hp
    split at hp
    · rcases List.mem_cons.1 hp with rfl | hp
      · exact .inr rfl
      · exact .inl (List.mem_cons_of_mem _ hp)
    · rcases List.mem_cons.1 hp with rfl | hp
      · exact .inl (List.mem_cons_self)
      · rcases ih hp with h | h
        · exact .inl (List.mem_cons_of_mem _ h)
        · exact .inr h

theorem setSlot_refs (n : Node) (name : String) (s : Slot) (b : Addr) (hb : b ∈ ({ n with slots := setSlot n.slots name s } : Node).refs) :
    b ∈ n.refs ∨ s = .ref b := by
  obtain ⟨nm, h⟩ := of_mem_refs hb
  rcases setSlot_mem h with h | h
  · exact .inl (mem_refs h)
  · exact .inr h.symm

theorem Fresh.writeRef {base : Nat} {w : Addr → Prop} {h0 h : Heap} {a b : Addr} {name : String} (f : Fresh base w h0 h) (ha : base ≤ a ∨ w a)
    (hb : base ≤ b ∧ b < h.length) : Fresh base w h0 (write h a name (.ref b)) :=
  f.modify ha fun n c hc => by
    rcases setSlot_refs n name _ c hc with h | h
    · exact .inl h
    · cases h; exact .inr hb

theorem Fresh.writePrim {base : Nat} {w : Addr → Prop} {h0 h : Heap} {a : Addr} {name : String} {v : Val} (f : Fresh base w h0 h)
    (ha : base ≤ a ∨ w a) : Fresh base w h0 (write h a name (.prim v)) :=
  f.modify ha fun n c hc => by
    rcases setSlot_refs n name _ c hc with h | h
    · exact .inl h
    · cases h

theorem Fresh.append {base : Nat} {w : Addr → Prop} {h0 h : Heap} {a b : Addr} (f : Fresh base w h0 h) (ha : base ≤ a ∨ w a)
    (hb : base ≤ b ∧ b < h.length) : Fresh base w h0 (Mem.append h a (.ref b)) :=
  f.modify ha fun n c hc => by
    obtain ⟨nm, h⟩ := of_mem_refs hc
    rcases List.mem_append.1 h with h | h
    · exact .inl (mem_refs h)
    · simp only [List.mem_singleton, Prod.mk.injEq, Slot.ref.injEq] at h; rw [h.2]; exact .inr hb

/-- The class attributes are where they were. -/
structure Kept (k base : Nat) (w : Addr → Prop) : Prop where
  le : k ≤ base
  w : ∀ a, w a → k ≤ a

theorem Fresh.lib {cs : Classes} {k base : Nat} {w : Addr → Prop} {h0 h : Heap} (f : Fresh base w h0 h) (kp : Kept k base w) {a : Addr} (ha : a < k) :
    h[a]? = h0[a]? :=
  f.old a (Nat.lt_of_lt_of_le ha kp.le) fun hw => by have := kp.w a hw; omega

section
variable {cs : Classes} {k base : Nat} {w : Addr → Prop} {h0 : Heap}

theorem copySlots_fresh {cp : Heap → Addr → Heap × Option Addr}
    (hcp : ∀ h a, Fresh base w h0 h → a < k → Fresh base w h0 (cp h a).1 ∧ h.length ≤ (cp h a).1.length ∧ ∀ b, (cp h a).2 = some b → base ≤ b ∧ b < (cp h a).1.length) :
    ∀ (ss : List (String × Slot)) (h : Heap), Fresh base w h0 h → (∀ nm a, (nm, Slot.ref a) ∈ ss → a < k) →
      Fresh base w h0 (copySlots cp h ss).1 ∧ h.length ≤ (copySlots cp h ss).1.length ∧
        ∀ ts, (copySlots cp h ss).2 = some ts → ∀ nm b, (nm, Slot.ref b) ∈ ts → base ≤ b ∧ b < (copySlots cp h ss).1.length := by
  intro ss
  induction ss with
  | nil => intro h f _; exact ⟨f, Nat.le_refl _, fun ts hts => by cases hts; exact fun _ _ h => by cases h⟩
  | cons p r ih =>
    obtain ⟨n, s⟩ := p
    intro h f hk
    cases s with
    | prim v =>
      have := ih h f fun nm a hm => hk nm a (List.mem_cons_of_mem _ hm)
      simp only [copySlots]
      cases hc : copySlots cp h r with
      | mk h' o =>
        rw [hc] at this
        cases o with
        | none => exact ⟨this.1, this.2.1, fun ts hts => by cases hts⟩
        | some ss =>
          refine ⟨this.1, this.2.1, fun ts hts => ?_⟩
          cases hts
          intro nm b hm
          rcases List.mem_cons.1 hm with hm | hm
          · cases hm
          · exact this.2.2 _ rfl nm b hm
    | ref a =>
      have h1 := hcp h a f (hk n a (List.mem_cons_self))
      simp only [copySlots]
      cases hc : cp h a with
      | mk h' o =>
        rw [hc] at h1
        cases o with
        | none => exact ⟨h1.1, h1.2.1, fun ts hts => by cases hts⟩
        | some b =>
          have h2 := ih h' h1.1 fun nm a hm => hk nm a (List.mem_cons_of_mem _ hm)
          simp only []
          cases hc2 : copySlots cp h' r with
          | mk h'' o =>
            rw [hc2] at h2
            cases o with
            | none => exact ⟨h2.1, Nat.le_trans h1.2.1 h2.2.1, fun ts hts => by cases hts⟩
            | some ss =>
              refine ⟨h2.1, Nat.le_trans h1.2.1 h2.2.1, fun ts hts => ?_⟩
              cases hts
              intro nm c hm
              rcases List.mem_cons.1 hm with hm | hm
              · cases hm
                have := h1.2.2 b rfl
                exact ⟨this.1, Nat.lt_of_lt_of_le this.2 h2.2.1⟩
              · exact h2.2.2 _ rfl nm c hm

theorem deepcopy_fresh (lib : Library cs k h0) (kp : Kept k base w) : ∀ (fuel : Nat) (h : Heap) (a : Addr), Fresh base w h0 h → a < k →
    Fresh base w h0 (deepcopy fuel h a).1 ∧ h.length ≤ (deepcopy fuel h a).1.length ∧
      ∀ b, (deepcopy fuel h a).2 = some b → base ≤ b ∧ b < (deepcopy fuel h a).1.length
  | 0, h, a, f, _ => ⟨f, Nat.le_refl _, fun b hb => by cases hb⟩
  | fuel + 1, h, a, f, ha => by
    rw [deepcopy]
    cases hn : h[a]? with
    | none => exact ⟨f, Nat.le_refl _, fun b hb => by cases hb⟩
    | some n =>
      have hn0 : h0[a]? = some n := by rw [← f.lib (cs := cs) kp ha]; exact hn
      have fin : ∀ (h' : Heap) (m : Node), Fresh base w h0 h' → h.length ≤ h'.length → (∀ b ∈ m.refs, base ≤ b ∧ b < h'.length) →
          Fresh base w h0 (h' ++ [m]) ∧ h.length ≤ (h' ++ [m]).length ∧ ∀ b, some h'.length = some b → base ≤ b ∧ b < (h' ++ [m]).length := by
        intro h' m f' hl hm
        refine ⟨f'.alloc hm, by simp; omega, fun b hb => ?_⟩
        cases hb
        exact ⟨f'.len, by simp⟩
      have key : ∀ r, r = copySlots (deepcopy fuel) h n.slots → ∀ q, q = ((match r with | (h, none) => (h, none) | (h, some ss) => (h ++ [{ n with slots := ss }], some h.length)) : Heap × Option Addr) →
          Fresh base w h0 q.1 ∧ h.length ≤ q.1.length ∧ ∀ b, q.2 = some b → base ≤ b ∧ b < q.1.length := by
        intro r hr q hq
        subst hq
        have := copySlots_fresh (deepcopy_fresh lib kp fuel) n.slots h f fun nm b hm => lib.closed a n ha hn0 b (mem_refs hm)
        rw [← hr] at this
        obtain ⟨h', o⟩ := r
        cases o with
        | none => exact ⟨this.1, this.2.1, fun b hb => by cases hb⟩
        | some ss =>
          refine fin h' { n with slots := ss } this.1 this.2.1 fun b hb => ?_
          obtain ⟨nm, hm⟩ := of_mem_refs hb
          exact this.2.2 ss rfl nm b hm
      simp only []
      split
      · rename_i hk
        refine fin h n f (Nat.le_refl _) fun b hb => ?_
        rw [lib.basic a n ha hn0 hk] at hb
        cases hb
      · exact key _ rfl _ rfl

theorem initAttrs_fresh (lib : Library cs k h0) (kp : Kept k base w) {fuel : Nat} {self : Addr} (hs : base ≤ self ∨ w self) :
    ∀ (attrs : List (String × Addr)) (h : Heap), Fresh base w h0 h → (∀ p ∈ attrs, p.2 < k) →
      Fresh base w h0 (initAttrs fuel self h attrs).1 ∧ h.length ≤ (initAttrs fuel self h attrs).1.length := by
  intro attrs
  induction attrs with
  | nil => intro h f _; exact ⟨f, Nat.le_refl _⟩
  | cons p r ih =>
    obtain ⟨name, c⟩ := p
    intro h f hk
    have h1 := deepcopy_fresh lib kp fuel h c f (hk _ (List.mem_cons_self))
    simp only [initAttrs]
    cases hc : deepcopy fuel h c with
    | mk h' o =>
      rw [hc] at h1
      cases o with
      | none => exact ⟨h1.1, h1.2.1⟩
      | some b =>
        have := ih _ (h1.1.writeRef (name := name) hs (h1.2.2 b rfl)) fun q hq => hk q (List.mem_cons_of_mem _ hq)
        refine ⟨this.1, Nat.le_trans h1.2.1 (Nat.le_trans (by simp [write]) this.2)⟩

theorem construct_fresh (lib : Library cs k h0) (kp : Kept k base w) {fuel : Nat} {cls : String} {h : Heap} (f : Fresh base w h0 h) :
    Fresh base w h0 (construct cs fuel h cls).1 ∧ h.length ≤ (construct cs fuel h cls).1.length ∧
      ∀ a, (construct cs fuel h cls).2 = some a → a = h.length ∧ base ≤ a ∧ a < (construct cs fuel h cls).1.length := by
  simp only [construct]
  cases hc : cs cls with
  | none => exact ⟨f, Nat.le_refl _, fun a ha => by cases ha⟩
  | some attrs =>
    have f1 : Fresh base w h0 (h ++ [⟨.struct cls, []⟩]) := f.alloc fun b hb => by cases hb
    have h1 := initAttrs_fresh lib kp (fuel := fuel) (.inl f.len) attrs _ f1 (lib.attrs cls attrs hc)
    simp only []
    cases hi : initAttrs fuel h.length (h ++ [⟨.struct cls, []⟩]) attrs with
    | mk h' o =>
      rw [hi] at h1
      have hl : h.length < h'.length := by have := h1.2; simp at this; omega
      cases o with
      | false => exact ⟨h1.1, Nat.le_of_lt hl, fun a ha => by cases ha⟩
      | true => exact ⟨h1.1, Nat.le_of_lt hl, fun a ha => by cases ha; exact ⟨rfl, f.len, hl⟩⟩

theorem assignAll_fresh {self : Addr} (hs : base ≤ self ∨ w self) : ∀ (args : List (String × Slot)) (h : Heap), Fresh base w h0 h →
    (∀ p ∈ args, ∃ v, p.2 = .prim v) → Fresh base w h0 (assignAll self h args) ∧ (assignAll self h args).length = h.length := by
  intro args
  induction args with
  | nil => intro h f _; exact ⟨f, rfl⟩
  | cons p r ih =>
    obtain ⟨n, s⟩ := p
    intro h f hp
    obtain ⟨v, hv⟩ := hp _ (List.mem_cons_self)
    cases hv
    have := ih _ (f.writePrim (name := n) (v := v) hs) fun q hq => hp q (List.mem_cons_of_mem _ hq)
    exact ⟨this.1, this.2.trans (by simp [write])⟩

theorem unpack_fresh (lib : Library cs k h0) (kp : Kept k base w) : ∀ (fuel : Nat) (h : Heap) (a : Addr) (d : Dec), Fresh base w h0 h →
    (base ≤ a ∨ w a) → Fresh base w h0 (unpack cs fuel h a d).1 ∧ h.length ≤ (unpack cs fuel h a d).1.length
  | 0, h, a, d, f, _ => ⟨f, Nat.le_refl _⟩
  | fuel + 1, h, a, d, f, ha => by
    have trivial_ : Fresh base w h0 h ∧ h.length ≤ h.length := ⟨f, Nat.le_refl _⟩
    rw [unpack.eq_def]
    simp only []
    cases hn : h[a]? with
    | none => exact trivial_
    | some n =>
      obtain ⟨kind, ss⟩ := n
      cases kind with
      | basic =>
        cases d with
        | value v => exact ⟨f.writePrim ha, by simp [write]⟩
        | parts ds => exact trivial_
        | fail => exact trivial_
      | struct cls =>
        cases d with
        | value v => exact trivial_
        | parts ds =>
          simp only []
          cases hc : cs cls with
          | none => exact trivial_
          | some attrs => exact attrsOk fuel a ha _ (lib.attrs _ _ hc) h f _
        | fail => exact trivial_
      | list item =>
        cases d with
        | value v => exact trivial_
        | parts ds => exact itemsOk fuel _ a ha _ h f
        | fail => exact trivial_
where
  attrsOk (fuel : Nat) (a : Addr) (ha : base ≤ a ∨ w a) : ∀ (attrs : List (String × Addr)), (∀ p ∈ attrs, p.2 < k) → ∀ (h : Heap), Fresh base w h0 h →
      ∀ (ds : List Dec), Fresh base w h0 (unpackAttrs fuel (unpack cs fuel) a h attrs ds).1 ∧ h.length ≤ (unpackAttrs fuel (unpack cs fuel) a h attrs ds).1.length
    | [], _, h, f, _ => by simp only [unpackAttrs]; exact ⟨f, Nat.le_refl _⟩
    | _ :: _, _, h, f, [] => by simp only [unpackAttrs]; exact ⟨f, Nat.le_refl _⟩
    | (name, c) :: r, hk, h, f, d :: ds => by
      have h1 := deepcopy_fresh lib kp fuel h c f (hk _ (List.mem_cons_self))
      simp only [unpackAttrs]
      cases hc : deepcopy fuel h c with
      | mk h' o =>
        rw [hc] at h1
        cases o with
        | none => exact ⟨h1.1, h1.2.1⟩
        | some b =>
          have h2 := unpack_fresh lib kp fuel (write h' a name (.ref b)) b d (h1.1.writeRef (name := name) ha (h1.2.2 b rfl)) (.inl (h1.2.2 b rfl).1)
          have h2l : h.length ≤ (unpack cs fuel (write h' a name (.ref b)) b d).1.length :=
            Nat.le_trans h1.2.1 (Nat.le_trans (by simp [write]) h2.2)
          simp only []
          cases hu : unpack cs fuel (write h' a name (.ref b)) b d with
          | mk h'' o =>
            rw [hu] at h2 h2l
            cases o with
            | false => exact ⟨h2.1, h2l⟩
            | true =>
              have := attrsOk fuel a ha r (fun q hq => hk q (List.mem_cons_of_mem _ hq)) h'' h2.1 ds
              exact ⟨this.1, Nat.le_trans h2l this.2⟩
  itemsOk (fuel : Nat) (item : String) (a : Addr) (ha : base ≤ a ∨ w a) : ∀ (ds : List Dec) (h : Heap), Fresh base w h0 h →
      Fresh base w h0 (unpackItems (fun h => construct cs fuel h item) (unpack cs fuel) a h ds).1 ∧
        h.length ≤ (unpackItems (fun h => construct cs fuel h item) (unpack cs fuel) a h ds).1.length
    | [], h, f => ⟨f, Nat.le_refl _⟩
    | d :: ds, h, f => by
      have h1 := construct_fresh lib kp (fuel := fuel) (cls := item) f
      simp only [unpackItems]
      cases hc : construct cs fuel h item with
      | mk h' o =>
        rw [hc] at h1
        cases o with
        | none => exact ⟨h1.1, h1.2.1⟩
        | some b =>
          obtain ⟨_, hb1, hb2⟩ := h1.2.2 b rfl
          have h2 := unpack_fresh lib kp fuel h' b d h1.1 (.inl hb1)
          simp only []
          cases hu : unpack cs fuel h' b d with
          | mk h'' o =>
            rw [hu] at h2
            cases o with
            | false => exact ⟨h2.1, Nat.le_trans h1.2.1 h2.2⟩
            | true =>
              have := itemsOk fuel item a ha ds _ (h2.1.append ha ⟨hb1, Nat.lt_of_lt_of_le hb2 h2.2⟩)
              refine ⟨this.1, Nat.le_trans (Nat.le_trans h1.2.1 h2.2) (Nat.le_trans (by simp [append]) this.2)⟩

end

end Pyof.Mem

namespace Pyof.Mem

/-! ## Content of copies -/

def Bounded (h : Heap) : Prop := ∀ (a : Addr) (n : Node), h[a]? = some n → ∀ b ∈ n.refs, b < h.length

theorem Reach.lt {h : Heap} (hb : Bounded h) {a : Addr} (ha : a < h.length) : ∀ {b}, Reach h a b → b < h.length := by
  intro b hr
  induction hr with
  | refl => exact ha
  | step _ h1 h2 _ => exact hb _ _ h1 _ h2

theorem view_ext {h h' : Heap} (hb : Bounded h) (he : ∀ a, a < h.length → h'[a]? = h[a]?) (d : Nat) {a : Addr} (ha : a < h.length) :
    view h' d a = view h d a :=
  view_congr d fun b hr => he b (hr.lt hb ha)

def slotView (h : Heap) (d : Nat) : Slot → Tree
  | .prim v => .leaf v
  | .ref b => view h d b

def slotViews (h : Heap) (d : Nat) (ss : List (String × Slot)) : List (String × Tree) := ss.map fun p => (p.1, slotView h d p.2)

theorem view_succ {h : Heap} {a : Addr} {n : Node} (hn : h[a]? = some n) (d : Nat) : view h (d + 1) a = .node n.kind (slotViews h d n.slots) := by
  rw [view, hn]
  simp only [slotViews]
  refine congrArg _ (List.map_congr_left fun p _ => ?_)
  obtain ⟨nm, s⟩ := p
  cases s <;> rfl

theorem slotViews_congr {h h' : Heap} {d : Nat} {ss : List (String × Slot)} (he : ∀ nm b, (nm, Slot.ref b) ∈ ss → view h' d b = view h d b) :
    slotViews h' d ss = slotViews h d ss := by
  refine List.map_congr_left fun p hp => ?_
  obtain ⟨nm, s⟩ := p
  cases s with
  | prim v => rfl
  | ref b => exact congrArg (Prod.mk nm) (he nm b hp)

theorem Library.transfer {cs : Classes} {k : Nat} {h h' : Heap} (lib : Library cs k h) (hl : k ≤ h'.length) (he : ∀ a, a < k → h'[a]? = h[a]?) :
    Library cs k h' where
  size := hl
  closed a n ha hn := lib.closed a n ha (by rw [← he a ha]; exact hn)
  basic a n ha hn := lib.basic a n ha (by rw [← he a ha]; exact hn)
  attrs := lib.attrs
  names := lib.names

theorem Library.reach {cs : Classes} {k : Nat} {h : Heap} (lib : Library cs k h) {a : Addr} (ha : a < k) : ∀ {b}, Reach h a b → b < k := by
  intro b hr
  induction hr with
  | refl => exact ha
  | step _ h1 h2 ih => exact lib.closed _ _ ih h1 _ h2

theorem Fresh.keeps {h0 h : Heap} (f : Fresh h0.length (fun _ => False) h0 h) (a : Addr) (ha : a < h0.length) : h[a]? = h0[a]? :=
  f.old a ha id

theorem kept_len {k : Nat} {h : Heap} (hl : k ≤ h.length) : Kept k h.length (fun _ => False) := ⟨hl, nofun⟩

theorem Fresh.reach {base : Nat} {w : Addr → Prop} {h0 h : Heap} (f : Fresh base w h0 h) {a : Addr} (ha : base ≤ a) : ∀ {b}, Reach h a b → base ≤ b := by
  intro b hr
  induction hr with
  | refl => exact ha
  | step _ h1 h2 ih => exact f.new _ _ ih h1 _ h2

section
variable {cs : Classes} {k : Nat}

/-- One copy: what is known about `deepcopy`. -/
structure Copied (h : Heap) (a : Addr) (h' : Heap) (b : Addr) : Prop where
  fresh : Fresh h.length (fun _ => False) h h'
  at_ : h.length ≤ b ∧ b < h'.length
  view : ∀ d, view h' d b = view h d a

theorem copySlots_view {cp : Heap → Addr → Heap × Option Addr}
    (hcp : ∀ h a h' b, Library cs k h → Bounded h → a < k → cp h a = (h', some b) → Copied h a h' b) :
    ∀ (ss : List (String × Slot)) (h h' : Heap) (ts : List (String × Slot)), Library cs k h → Bounded h →
      (∀ nm a, (nm, Slot.ref a) ∈ ss → a < k) → copySlots cp h ss = (h', some ts) →
      (∀ a, a < h.length → h'[a]? = h[a]?) ∧ h.length ≤ h'.length ∧ Bounded h' ∧ (∀ nm b, (nm, Slot.ref b) ∈ ts → b < h'.length) ∧
        ∀ d, slotViews h' d ts = slotViews h d ss := by
  intro ss
  induction ss with
  | nil =>
    intro h h' ts _ hb _ he
    cases he
    exact ⟨fun _ _ => rfl, Nat.le_refl _, hb, (by rintro _ _ ⟨⟩), fun _ => rfl⟩
  | cons p r ih =>
    obtain ⟨n, s⟩ := p
    intro h h' ts lib hb hk he
    cases s with
    | prim v =>
      simp only [copySlots] at he
      cases hc : copySlots cp h r with
      | mk h1 o =>
        rw [hc] at he
        cases o with
        | none => cases he
        | some ss =>
          cases he
          obtain ⟨h1, h2, h3, h4, h5⟩ := ih h _ _ lib hb (fun nm a hm => hk nm a (List.mem_cons_of_mem _ hm)) hc
          refine ⟨h1, h2, h3, fun nm b hm => ?_, fun d => congrArg _ (h5 d)⟩
          rcases List.mem_cons.1 hm with hm | hm
          · cases hm
          · exact h4 nm b hm
    | ref a =>
      simp only [copySlots] at he
      cases hc : cp h a with
      | mk h1 o =>
        rw [hc] at he
        cases o with
        | none => cases he
        | some b =>
          have c1 := hcp h a h1 b lib hb (hk n a (List.mem_cons_self)) hc
          have hb1 : Bounded h1 := c1.fresh.bound
          have lib1 := lib.transfer (Nat.le_trans lib.size c1.fresh.len) fun x hx => c1.fresh.keeps x (Nat.lt_of_lt_of_le hx lib.size)
          simp only [] at he
          cases hc2 : copySlots cp h1 r with
          | mk h2 o =>
            rw [hc2] at he
            cases o with
            | none => cases he
            | some ss =>
              cases he
              obtain ⟨g1, g2, g3, g4, g5⟩ := ih h1 _ _ lib1 hb1 (fun nm a hm => hk nm a (List.mem_cons_of_mem _ hm)) hc2
              refine ⟨fun x hx => (g1 x (Nat.lt_of_lt_of_le hx c1.fresh.len)).trans (c1.fresh.keeps x hx), Nat.le_trans c1.fresh.len g2, g3, fun nm c hm => ?_, fun d => ?_⟩
              · rcases List.mem_cons.1 hm with hm | hm
                · cases hm; exact Nat.lt_of_lt_of_le c1.at_.2 g2
                · exact g4 nm c hm
              · have e1 : view h' d b = view h d a := (view_ext hb1 g1 d c1.at_.2).trans (c1.view d)
                have e2 : slotViews h1 d r = slotViews h d r := slotViews_congr fun nm c hm =>
                  view_ext hb c1.fresh.keeps d (Nat.lt_of_lt_of_le (hk nm c (List.mem_cons_of_mem _ hm)) lib.size)
                show (n, view h' d b) :: slotViews h' d ss = (n, view h d a) :: slotViews h d r
                rw [e1, g5 d, e2]

theorem deepcopy_view : ∀ (fuel : Nat) (h : Heap) (a : Addr) (h' : Heap) (b : Addr), Library cs k h → Bounded h → a < k →
    deepcopy fuel h a = (h', some b) → Copied h a h' b
  | 0, _, _, _, _, _, _, _, he => by cases he
  | fuel + 1, h, a, h', b, lib, hb, ha, he => by
    have f := deepcopy_fresh lib (kept_len lib.size) (fuel + 1) h a (Fresh.start _ hb) ha
    rw [he] at f
    refine ⟨f.1, f.2.2 b rfl, fun d => ?_⟩
    rw [deepcopy] at he
    cases hn : h[a]? with
    | none => rw [hn] at he; cases he
    | some n =>
      rw [hn] at he
      cases d with
      | zero => rfl
      | succ d =>
        have fin : ∀ (h1 : Heap) (ss : List (String × Slot)), Bounded h1 → (∀ nm b, (nm, Slot.ref b) ∈ ss → b < h1.length) →
            slotViews h1 d ss = slotViews h d n.slots → (h1 ++ [{ n with slots := ss }], some h1.length) = (h', some b) →
            view h' (d + 1) b = view h (d + 1) a := by
          intro h1 ss hb1 hs hv he
          cases he
          rw [view_succ hn, view_succ (n := { n with slots := ss }) (by simp), ← hv]
          congr 1
          exact slotViews_congr fun nm c hm => view_ext hb1 (fun x hx => List.getElem?_append_left hx) d (hs nm c hm)
        simp only [] at he
        split at he
        · refine fin h n.slots hb (fun nm c hm => hb a n hn c (mem_refs hm)) rfl ?_
          rw [← he]
        · cases hc : copySlots (deepcopy fuel) h n.slots with
          | mk h1 o =>
            rw [hc] at he
            cases o with
            | none => cases he
            | some ss =>
              obtain ⟨_, _, g3, g4, g5⟩ := copySlots_view (deepcopy_view fuel) n.slots h _ _ lib hb
                (fun nm b hm => lib.closed a n ha hn b (mem_refs hm)) hc
              exact fin h1 ss g3 g4 (g5 d) he

theorem setSlot_new {ss : List (String × Slot)} {name : String} {s : Slot} (hn : name ∉ ss.map (·.1)) : setSlot ss name s = ss ++ [(name, s)] := by
  induction ss with
  | nil => rfl
  | cons p r ih =>
    obtain ⟨n, t⟩ := p
    simp only [List.map_cons, List.mem_cons, not_or] at hn
    rw [setSlot, if_neg (fun h => hn.1 h.symm), ih hn.2]
    rfl

theorem initAttrs_view {fuel : Nat} {self : Addr} {cls : String} {h0 : Heap} :
    ∀ (attrs : List (String × Addr)) (h h' : Heap) (done : List (String × Slot)) (vs : Nat → List (String × Tree)),
      Library cs k h → Bounded h → self < h.length → k ≤ self → (∀ p ∈ attrs, p.2 < k) →
      (∀ x, x < k → h[x]? = h0[x]?) →
      h[self]? = some ⟨.struct cls, done⟩ → (done.map (·.1) ++ attrs.map (·.1)).Nodup →
      (∀ nm b, (nm, Slot.ref b) ∈ done → ∀ x, Reach h b x → x ≠ self) → (∀ d, slotViews h d done = vs d) →
      initAttrs fuel self h attrs = (h', true) →
      ∀ d, view h' (d + 1) self = .node (.struct cls) (vs d ++ attrs.map fun p => (p.1, view h0 d p.2)) := by
  intro attrs
  induction attrs with
  | nil =>
    intro h h' done vs _ _ _ _ _ _ hs _ _ hv he d
    cases he
    rw [view_succ hs, hv d]
    simp
  | cons p r ih =>
    obtain ⟨name, c⟩ := p
    intro h h' done vs lib hb hl hks hk h0e hs hnd hr hv he d
    simp only [initAttrs] at he
    cases hc : deepcopy fuel h c with
    | mk h1 o =>
      rw [hc] at he
      cases o with
      | none => cases he
      | some b =>
        have hck : c < k := hk _ (List.mem_cons_self)
        have c1 := deepcopy_view fuel h c h1 b lib hb hck hc
        have k1 : ∀ x, x < h.length → h1[x]? = h[x]? := c1.fresh.keeps
        simp only [] at he
        have wr : ∀ x, x ≠ self → (write h1 self name (.ref b))[x]? = h1[x]? := by
          intro x hx
          have hx' : self ≠ x := fun h => hx h.symm
          rw [write, List.getElem?_modify]
          simp [hx']
        have f2 : Fresh h.length (· = self) h (write h1 self name (.ref b)) := by
          have : Fresh h.length (· = self) h h1 :=
            ⟨c1.fresh.len, fun x hx _ => k1 x hx, c1.fresh.new, fun x n hx _ hn => ⟨n, by rw [← k1 x hx]; exact hn, fun _ hb => .inl hb⟩, c1.fresh.bound⟩
          exact this.writeRef (.inr rfl) c1.at_
        have hname : name ∉ done.map (·.1) := by
          intro hm
          have := (List.nodup_append.1 hnd).2.2 name hm name (by simp)
          exact this rfl
        have hlib : ∀ x, x < k → (write h1 self name (.ref b))[x]? = h[x]? := fun x hx => by
          rw [wr x (by omega)]
          exact k1 x (by omega)
        have keep : ∀ (e : Addr), e < h.length → (∀ x, Reach h e x → x ≠ self) →
            ∀ x, Reach h e x → (write h1 self name (.ref b))[x]? = h[x]? := fun e hel hre x hx => by
          rw [wr x (hre x hx)]
          exact k1 x (hx.lt hb hel)
        have hnew : ∀ x, Reach h1 b x → x ≠ self := fun x hx => by
          have := c1.fresh.reach c1.at_.1 hx
          omega
        have keepb : ∀ x, Reach h1 b x → (write h1 self name (.ref b))[x]? = h1[x]? := fun x hx => wr x (hnew x hx)
        have hdone : ∀ nm e, (nm, Slot.ref e) ∈ done → e < h.length := fun nm e hm => hb self _ hs e (mem_refs (n := ⟨.struct cls, done⟩) hm)
        have := ih (write h1 self name (.ref b)) h' (done ++ [(name, .ref b)]) (fun d => vs d ++ [(name, view h0 d c)])
          (lib.transfer (by have := c1.fresh.len; simp [write]; omega) hlib) f2.bound
          (by have := c1.fresh.len; simp [write]; omega) hks (fun q hq => hk q (List.mem_cons_of_mem _ hq))
          (fun x hx => (hlib x hx).trans (h0e x hx))
          (by rw [write, List.getElem?_modify, k1 self hl, hs]; simp [setSlot_new hname])
          (by simpa using hnd)
          (fun nm e hm x hx => by
            rcases List.mem_append.1 hm with hm | hm
            · exact hr nm e hm x (Reach.congr (keep e (hdone nm e hm) (hr nm e hm)) hx)
            · simp only [List.mem_singleton, Prod.mk.injEq, Slot.ref.injEq] at hm
              obtain ⟨_, rfl⟩ := hm
              exact hnew x (Reach.congr keepb hx))
          (fun d => by
            have e1 : slotViews (write h1 self name (.ref b)) d done = slotViews h d done :=
              slotViews_congr fun nm e hm => view_congr d (keep e (hdone nm e hm) (hr nm e hm))
            have e2 : view (write h1 self name (.ref b)) d b = view h0 d c := by
              rw [view_congr d keepb, c1.view d]
              exact (view_congr d fun x hx => (h0e x (lib.reach hck hx)).symm).symm
            rw [slotViews, List.map_append]
            show slotViews (write h1 self name (.ref b)) d done ++ [(name, view (write h1 self name (.ref b)) d b)] = _
            rw [e1, e2, hv d])
          he d
        rw [this]
        simp
end

end Pyof.Mem

namespace Pyof.Mem

theorem construct_view {cs : Classes} {k : Nat} {h0 h h' : Heap} {fuel : Nat} {cls : String} {a : Addr} {attrs : List (String × Addr)}
    (lib : Library cs k h) (hb : Bounded h) (he : ∀ x, x < k → h[x]? = h0[x]?) (hc : cs cls = some attrs)
    (hn : construct cs fuel h cls = (h', some a)) (d : Nat) :
    view h' (d + 1) a = .node (.struct cls) (attrs.map fun p => (p.1, view h0 d p.2)) := by
  simp only [construct, hc] at hn
  cases hi : initAttrs fuel h.length (h ++ [⟨.struct cls, []⟩]) attrs with
  | mk h1 o =>
    rw [hi] at hn
    cases o with
    | false => cases hn
    | true =>
      cases hn
      have f1 : Fresh h.length (fun _ => False) h (h ++ [⟨.struct cls, []⟩]) := (Fresh.start _ hb).alloc fun b hb => by cases hb
      have hlib : ∀ x, x < k → (h ++ [⟨.struct cls, []⟩])[x]? = h[x]? := fun x hx => f1.keeps x (Nat.lt_of_lt_of_le hx lib.size)
      exact initAttrs_view (h0 := h0) attrs _ _ [] (fun _ => []) (lib.transfer (Nat.le_trans lib.size f1.len) hlib) f1.bound (by simp) lib.size
        (lib.attrs cls attrs hc) (fun x hx => (hlib x hx).trans (he x hx)) (by simp) (by simpa using lib.names cls attrs hc)
        (by rintro _ _ ⟨⟩) (fun _ => rfl) hi d

/-! ## Every object belongs to one instance -/

structure Owned (k : Nat) (h0 h : Heap) (insts : List Addr) (own : Addr → Addr) : Prop where
  same : ∀ a, a < k → h[a]? = h0[a]?
  len : k ≤ h.length
  bound : Bounded h
  edge : ∀ (a : Addr) (n : Node), k ≤ a → h[a]? = some n → ∀ b ∈ n.refs, k ≤ b ∧ own b = own a
  inst : ∀ i ∈ insts, k ≤ i ∧ i < h.length ∧ own i = i

theorem Owned.reach {k : Nat} {h0 h : Heap} {insts : List Addr} {own : Addr → Addr} (o : Owned k h0 h insts own) {a : Addr} (ha : k ≤ a) :
    ∀ {b}, Reach h a b → k ≤ b ∧ own b = own a := by
  intro b hr
  induction hr with
  | refl => exact ⟨ha, rfl⟩
  | step _ h1 h2 ih =>
    have := o.edge _ _ ih.1 h1 _ h2
    exact ⟨this.1, this.2.trans ih.2⟩

theorem Owned.fresh {k : Nat} {h0 h h' : Heap} {insts : List Addr} {own : Addr → Addr} (o : Owned k h0 h insts own) {w : Addr → Prop} {i : Addr}
    (hw : ∀ a, w a → k ≤ a ∧ own a = i) (f : Fresh h.length w h h') :
    Owned k h0 h' insts fun b => if b < h.length then own b else i where
  same a ha := (f.old a (Nat.lt_of_lt_of_le ha o.len) fun h => by have := (hw a h).1; omega).trans (o.same a ha)
  len := Nat.le_trans o.len f.len
  bound := f.bound
  edge a n ha hn b hb := by
    have hl := o.len
    by_cases hal : a < h.length
    · have old : ∀ n0, h[a]? = some n0 → b ∈ n0.refs → k ≤ b ∧ (if b < h.length then own b else i) = (if a < h.length then own a else i) := by
        intro n0 h1 h2
        have h3 := o.edge a n0 ha h1 b h2
        rw [if_pos hal, if_pos (o.bound a n0 h1 b h2)]
        exact h3
      by_cases hwa : w a
      · obtain ⟨n0, h1, h2⟩ := f.upd a n hal hwa hn
        rcases h2 b hb with h2 | h2
        · exact old n0 h1 h2
        · rw [if_pos hal, if_neg (by omega), (hw a hwa).2]
          exact ⟨by omega, rfl⟩
      · exact old n (by rw [← f.old a hal hwa]; exact hn) hb
    · have := f.new a n (by omega) hn b hb
      rw [if_neg hal, if_neg (by omega)]
      exact ⟨by omega, rfl⟩
  inst j hj := by
    have := o.inst j hj
    have hl := f.len
    rw [if_pos (by omega)]
    exact ⟨by omega, by omega, this.2.2⟩

theorem Owned.modify {k : Nat} {h0 h : Heap} {insts : List Addr} {own : Addr → Addr} (o : Owned k h0 h insts own) {a b : Addr} {g : Node → Node}
    (ha : k ≤ a) (hb : k ≤ b ∧ b < h.length ∧ own b = own a) (hg : ∀ n, ∀ c ∈ (g n).refs, c ∈ n.refs ∨ c = b) :
    Owned k h0 (h.modify a g) insts own := by
  have get : ∀ (c : Addr) (m : Node), (h.modify a g)[c]? = some m → ∃ m0, h[c]? = some m0 ∧ (m = m0 ∨ (c = a ∧ m = g m0)) := by
    intro c m hm
    rw [List.getElem?_modify] at hm
    cases hc : h[c]? with
    | none => rw [hc] at hm; cases hm
    | some m0 =>
      rw [hc] at hm
      by_cases hca : a = c
      · subst hca; simp at hm; exact ⟨m0, rfl, .inr ⟨rfl, hm.symm⟩⟩
      · simp [hca] at hm; exact ⟨m0, rfl, .inl hm.symm⟩
  refine ⟨fun c hc => ?_, by simpa using o.len, fun c m hm e he => ?_, fun c m hc hm e he => ?_, fun j hj => by simpa using o.inst j hj⟩
  · rw [List.getElem?_modify, ← o.same c hc]
    have : a ≠ c := by omega
    simp [this]
  · obtain ⟨m0, h1, rfl | ⟨rfl, rfl⟩⟩ := get c m hm
    · simpa using o.bound c m h1 e he
    · rcases hg m0 e he with h2 | rfl
      · simpa using o.bound c m0 h1 e h2
      · simpa using hb.2.1
  · obtain ⟨m0, h1, rfl | ⟨rfl, rfl⟩⟩ := get c m hm
    · exact o.edge c m hc h1 e he
    · rcases hg m0 e he with h2 | rfl
      · exact o.edge c m0 hc h1 e h2
      · exact ⟨hb.1, hb.2.2⟩

theorem write_refs (name : String) (s : Slot) (n : Node) : ∀ c ∈ ({ n with slots := setSlot n.slots name s } : Node).refs, c ∈ n.refs ∨ s = .ref c :=
  fun c hc => setSlot_refs n name s c hc

theorem append_refs (b : Addr) (n : Node) : ∀ c ∈ ({ n with slots := n.slots ++ [("", .ref b)] } : Node).refs, c ∈ n.refs ∨ c = b := by
  intro c hc
  obtain ⟨nm, h⟩ := of_mem_refs hc
  rcases List.mem_append.1 h with h | h
  · exact .inl (mem_refs h)
  · simp only [List.mem_singleton, Prod.mk.injEq, Slot.ref.injEq] at h
    exact .inr h.2

theorem Owned.write {k : Nat} {h0 h : Heap} {insts : List Addr} {own : Addr → Addr} (o : Owned k h0 h insts own) {a b : Addr} {name : String}
    (ha : k ≤ a) (hb : k ≤ b ∧ b < h.length ∧ own b = own a) : Owned k h0 (Mem.write h a name (.ref b)) insts own :=
  o.modify ha hb fun n c hc => by
    rcases write_refs name (.ref b) n c hc with h | h
    · exact .inl h
    · cases h; exact .inr rfl

theorem Owned.append {k : Nat} {h0 h : Heap} {insts : List Addr} {own : Addr → Addr} (o : Owned k h0 h insts own) {a b : Addr}
    (ha : k ≤ a) (hb : k ≤ b ∧ b < h.length ∧ own b = own a) : Owned k h0 (Mem.append h a (.ref b)) insts own :=
  o.modify ha hb (append_refs b)

/-- All that belonged to `j` now belongs to `i`. -/
theorem Owned.merge {k : Nat} {h0 h : Heap} {insts : List Addr} {own : Addr → Addr} (o : Owned k h0 h insts own) {i j : Addr} (hij : j ≠ i)  :
    Owned k h0 h (insts.filter (· ≠ j)) fun x => if own x = j then i else own x where
  same := o.same
  len := o.len
  bound := o.bound
  edge a n ha hn b hb := by
    have := o.edge a n ha hn b hb
    rw [this.2]
    exact ⟨this.1, rfl⟩
  inst x hx := by
    have hx := List.mem_filter.1 hx
    have := o.inst x hx.1
    rw [this.2.2, if_neg (by simpa using hx.2)]
    exact ⟨this.1, this.2.1, rfl⟩

theorem create_fresh {cs : Classes} {k : Nat} {h h' : Heap} {fuel : Nat} {cls : String} {args : List (String × Slot)} {o : Option Addr}
    (lib : Library cs k h) (hb : Bounded h) (hargs : ∀ p ∈ args, ∃ v, p.2 = .prim v) (hc : create cs fuel h cls args = (h', o)) :
    Fresh h.length (fun _ => False) h h' ∧ ∀ a, o = some a → a = h.length ∧ a < h'.length := by
  have f := construct_fresh lib (kept_len lib.size) (fuel := fuel) (cls := cls) (Fresh.start (fun _ => False) hb)
  simp only [create] at hc
  cases hn : construct cs fuel h cls with
  | mk h1 o1 =>
    rw [hn] at f hc
    cases o1 with
    | none => cases hc; exact ⟨f.1, fun a ha => by cases ha⟩
    | some a =>
      cases hc
      obtain ⟨h2, h3, h4⟩ := f.2.2 a rfl
      have g := assignAll_fresh (.inl h3) args h1 f.1 hargs
      refine ⟨g.1, fun x hx => ?_⟩
      cases hx
      exact ⟨h2, by rw [g.2]; exact h4⟩

theorem Owned.lib {cs : Classes} {h0 h : Heap} {insts : List Addr} {own : Addr → Addr} (lib : Library cs h0.length h0)
    (o : Owned h0.length h0 h insts own) : Library cs h0.length h :=
  lib.transfer o.len o.same

/-- What an operation on `i` does: it changes only objects of `i`. -/
theorem Owned.op {cs : Classes} {h0 h h' : Heap} {insts : List Addr} {own : Addr → Addr} (lib : Library cs h0.length h0)
    (o : Owned h0.length h0 h insts own) {i : Addr} (hi : i ∈ insts) (hop : Op cs h i h') :
    (∃ own', Owned h0.length h0 h' insts own') ∧ ∀ b, b < h.length → own b ≠ i → h'[b]? = h[b]? := by
  have hi' := o.inst i hi
  have mod : ∀ {a : Addr} {g : Node → Node}, Reach h i a → ∀ b, b < h.length → own b ≠ i → (h.modify a g)[b]? = h[b]? := by
    intro a g hr b _ hb
    have ho := (o.reach hi'.1 hr).2
    have : a ≠ b := by rintro rfl; exact hb (ho.trans hi'.2.2)
    rw [List.getElem?_modify]
    simp [this]
  cases hop with
  | @unpack a fuel d hr =>
    have ⟨hk, ho⟩ := o.reach hi'.1 hr
    have f := unpack_fresh (o.lib lib) (w := (· = a)) ⟨o.len, by rintro _ rfl; exact hk⟩ fuel h a d (Fresh.start _ o.bound) (.inr rfl)
    refine ⟨⟨_, o.fresh (i := own i) (w := (· = a)) (by rintro _ rfl; exact ⟨hk, ho⟩) f.1⟩, fun b hbl hb => ?_⟩
    exact f.1.old b hbl (by rintro rfl; exact hb (ho.trans hi'.2.2))
  | @set a name v hr =>
    have ⟨hk, ho⟩ := o.reach hi'.1 hr
    have f : Fresh h.length (· = a) h (Mem.write h a name (.prim v)) := (Fresh.start _ o.bound).writePrim (.inr rfl)
    exact ⟨⟨_, o.fresh (i := own i) (w := (· = a)) (by rintro _ rfl; exact ⟨hk, ho⟩) f⟩, mod hr⟩
  | @link a b name hr hr2 =>
    have ⟨hk, ho⟩ := o.reach hi'.1 hr
    have ⟨hk2, ho2⟩ := o.reach hi'.1 hr2
    exact ⟨⟨own, o.write hk ⟨hk2, hr2.lt o.bound hi'.2.1, ho2.trans ho.symm⟩⟩, mod hr⟩
  | @append a b hr hr2 =>
    have ⟨hk, ho⟩ := o.reach hi'.1 hr
    have ⟨hk2, ho2⟩ := o.reach hi'.1 hr2
    exact ⟨⟨own, o.append hk ⟨hk2, hr2.lt o.bound hi'.2.1, ho2.trans ho.symm⟩⟩, mod hr⟩

/-- What copying an object does, in terms of the objects reachable from it. -/
theorem copyObj_done {h : Heap} (hb : Bounded h) {a : Addr} (ha : a < h.length) (hp : Plain h a) {fuel : Nat} {m : Memo} {h' : Heap} {j : Addr}
    (hc : copyObj fuel [] h a = some (m, h', j)) : ∃ R, Done h h [] h' R ∧ (a, j) ∈ R := by
  have src : Source h (Reach h a) :=
    ⟨fun b hr => hr.lt hb ha, fun b n hr hn c hc => .step hr hn hc, fun b n hr hn hk => hp b n hr hn hk⟩
  obtain ⟨R, d, hin, _⟩ := copyObj_copies src fuel _ _ _ _ _ _ ⟨Nat.le_refl _, fun _ _ => rfl⟩ (.refl a) hc
  rcases hin with hin | hin
  · cases hin
  · exact ⟨R, d, hin⟩

theorem Done.fresh {h h' : Heap} {R : Memo} (hb : Bounded h) (d : Done h h [] h' R) : Fresh h.length (fun _ => False) h h' := by
  have new : ∀ a n, h.length ≤ a → h'[a]? = some n → ∀ b ∈ n.refs, h.length ≤ b ∧ b < h'.length := by
    intro a n ha hn b hbm
    obtain ⟨x, hx⟩ := d.all a ha (List.getElem?_eq_some_iff.1 hn).1
    obtain ⟨_, _, n', ss, _, h2, h3⟩ := d.pairs x a hx
    cases Option.some.inj (hn.symm.trans h2)
    obtain ⟨nm, hm⟩ := of_mem_refs hbm
    obtain ⟨c, hc⟩ := h3.refs hm
    rcases hc with hc | hc
    · cases hc
    · exact ⟨(d.pairs c b hc).1, (d.pairs c b hc).2.1⟩
  refine ⟨d.len, fun a ha _ => d.old a ha, fun a n ha hn b hbm => (new a n ha hn b hbm).1, fun a n _ hw => hw.elim, fun a n hn b hbm => ?_⟩
  by_cases hl : a < h.length
  · exact Nat.lt_of_lt_of_le (hb a n (by rw [← d.old a hl]; exact hn) b hbm) d.len
  · exact (new a n (by omega) hn b hbm).2

/-- What a step does: it changes only objects of the instances it names. -/
theorem Owned.step {cs : Classes} {h0 h h' : Heap} {insts t insts' : List Addr} {own : Addr → Addr} (lib : Library cs h0.length h0)
    (o : Owned h0.length h0 h insts own) (st : Step cs h insts t h' insts') :
    (∃ own', Owned h0.length h0 h' insts' own') ∧ (∀ b, b < h.length → own b ∉ t → h'[b]? = h[b]?) ∧ ∀ j ∈ insts, j ∉ t → j ∈ insts' := by
  cases st with
  | create hargs hc =>
    rename_i a
    obtain ⟨f, ha⟩ := create_fresh (o.lib lib) o.bound hargs hc
    obtain ⟨ha1, ha2⟩ := ha a rfl
    have o' := o.fresh (i := a) (w := fun _ => False) nofun f
    refine ⟨⟨_, o'.same, o'.len, o'.bound, o'.edge, fun j hj => ?_⟩, fun b hb _ => f.keeps b hb, fun j hj _ => List.mem_cons_of_mem _ hj⟩
    rcases List.mem_cons.1 hj with rfl | hj
    · have := o.len
      exact ⟨by omega, ha2, by rw [if_neg (by omega)]⟩
    · exact o'.inst j hj
  | failed hargs hc =>
    obtain ⟨f, _⟩ := create_fresh (o.lib lib) o.bound hargs hc
    exact ⟨⟨_, o.fresh (i := 0) (w := fun _ => False) nofun f⟩, fun b hb _ => f.keeps b hb, fun _ hj _ => hj⟩
  | op hi hop =>
    have := o.op lib hi hop
    exact ⟨this.1, fun b hb ho => this.2 b hb (by simpa using ho), fun _ hj _ => hj⟩
  | copy hi hr hp hc =>
    rename_i i a fuel m j
    obtain ⟨R, d, hin⟩ := copyObj_done o.bound (hr.lt o.bound (o.inst i hi).2.1) hp hc
    have f := d.fresh o.bound
    have hj := d.pairs a j hin
    have o' := o.fresh (i := j) (w := fun _ => False) nofun f
    refine ⟨⟨_, o'.same, o'.len, o'.bound, o'.edge, fun x hx => ?_⟩, fun b hb _ => f.keeps b hb, fun x hx _ => List.mem_cons_of_mem _ hx⟩
    rcases List.mem_cons.1 hx with rfl | hx
    · have := o.len
      exact ⟨by omega, hj.2.1, by rw [if_neg (by omega)]⟩
    · exact o'.inst x hx
  | give hi hj hij hr =>
    rename_i i j a _
    have ⟨hk, ho⟩ := o.reach (o.inst i hi).1 hr
    have hj' := o.inst j hj
    have hi' := o.inst i hi
    refine ⟨⟨_, (o.merge (i := i) hij).write hk ⟨hj'.1, hj'.2.1, ?_⟩⟩, fun b _ hb => ?_, fun x hx hxt => ?_⟩
    · simp [ho, hj'.2.2, hi'.2.2, hij.symm]
    · have : a ≠ b := by rintro rfl; exact hb (by rw [ho, hi'.2.2]; simp)
      rw [Mem.write, List.getElem?_modify]
      simp [this]
    · exact List.mem_filter.2 ⟨hx, by simp at hxt ⊢; exact hxt.2⟩
  | giveItem hi hj hij hr =>
    rename_i i j a
    have ⟨hk, ho⟩ := o.reach (o.inst i hi).1 hr
    have hj' := o.inst j hj
    have hi' := o.inst i hi
    refine ⟨⟨_, (o.merge (i := i) hij).append hk ⟨hj'.1, hj'.2.1, ?_⟩⟩, fun b _ hb => ?_, fun x hx hxt => ?_⟩
    · simp [ho, hj'.2.2, hi'.2.2, hij.symm]
    · have : a ≠ b := by rintro rfl; exact hb (by rw [ho, hi'.2.2]; simp)
      rw [Mem.append, List.getElem?_modify]
      simp [this]
    · exact List.mem_filter.2 ⟨hx, by simp at hxt ⊢; exact hxt.2⟩

theorem hist_owned {cs : Classes} {h0 : Heap} (lib : Library cs h0.length h0) {h : Heap} {insts : List Addr} (hh : Hist cs h0 h insts) :
    ∃ own, Owned h0.length h0 h insts own := by
  induction hh with
  | start =>
    refine ⟨id, fun _ _ => rfl, Nat.le_refl _, fun a n hn b hb => lib.closed a n (List.getElem?_eq_some_iff.1 hn).1 hn b hb, fun a n ha hn => ?_, (by rintro _ ⟨⟩)⟩
    have := (List.getElem?_eq_some_iff.1 hn).1
    omega
  | step _ st ih =>
    obtain ⟨own, o⟩ := ih
    exact (o.step lib st).1

end Pyof.Mem
