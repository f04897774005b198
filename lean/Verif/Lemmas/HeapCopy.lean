import Verif.Spec.Heap
/-!
# Lemmas about `copyObj`
-/
namespace Pyof.Mem

/-- Corresponding slots: the same names and values, and references to corresponding objects. -/
inductive Slots (Q : Addr → Addr → Prop) : List (String × Slot) → List (String × Slot) → Prop
  | nil : Slots Q [] []
  | prim {n v ss ts} : Slots Q ss ts → Slots Q ((n, .prim v) :: ss) ((n, .prim v) :: ts)
  | ref {n a b ss ts} : Q a b → Slots Q ss ts → Slots Q ((n, .ref a) :: ss) ((n, .ref b) :: ts)

theorem Slots.mono {Q Q' : Addr → Addr → Prop} (hq : ∀ a b, Q a b → Q' a b) {ss ts} (h : Slots Q ss ts) : Slots Q' ss ts := by
  induction h with
  | nil => exact .nil
  | prim _ ih => exact .prim ih
  | ref h _ ih => exact .ref (hq _ _ h) ih

theorem Slots.refs {Q : Addr → Addr → Prop} {ss ts} (h : Slots Q ss ts) {nm b} (hm : (nm, Slot.ref b) ∈ ts) : ∃ a, Q a b := by
  induction h with
  | nil => cases hm
  | prim _ ih =>
    rcases List.mem_cons.1 hm with hm | hm
    · cases hm
    · exact ih hm
  | ref h _ ih =>
    rcases List.mem_cons.1 hm with hm | hm
    · cases hm; exact ⟨_, h⟩
    · exact ih hm

def In (m R : Memo) (a b : Addr) : Prop := (a, b) ∈ m ∨ (a, b) ∈ R

/-- What copying has done between the heaps `h` and `h'`: the new objects are the second components of `R`, and each of them corresponds to
its original in `S`, where the memo `m` tells the copies that were begun before. -/
structure Done (S h : Heap) (m : Memo) (h' : Heap) (R : Memo) : Prop where
  old : ∀ a, a < h.length → h'[a]? = h[a]?
  len : h.length ≤ h'.length
  pairs : ∀ x y, (x, y) ∈ R → h.length ≤ y ∧ y < h'.length ∧ ∃ n ss, S[x]? = some n ∧ h'[y]? = some { n with slots := ss } ∧ Slots (In m R) n.slots ss
  all : ∀ y, h.length ≤ y → y < h'.length → ∃ x, (x, y) ∈ R

theorem Done.refl (S h : Heap) (m : Memo) : Done S h m h [] :=
  ⟨fun _ _ => rfl, Nat.le_refl _, (by rintro _ _ ⟨⟩), fun y h1 h2 => by omega⟩

theorem Done.trans {S h : Heap} {m : Memo} {h1 : Heap} {R : Memo} {m1 : Memo} {h2 : Heap} {R2 : Memo} (d1 : Done S h m h1 R)
    (hm : ∀ a b, (a, b) ∈ m1 → In m R a b) (d2 : Done S h1 m1 h2 R2) : Done S h m h2 (R ++ R2) where
  old a ha := (d2.old a (Nat.lt_of_lt_of_le ha d1.len)).trans (d1.old a ha)
  len := Nat.le_trans d1.len d2.len
  pairs x y hp := by
    rcases List.mem_append.1 hp with hp | hp
    · obtain ⟨a1, a2, n, ss, a3, a4, a5⟩ := d1.pairs x y hp
      refine ⟨a1, Nat.lt_of_lt_of_le a2 d2.len, n, ss, a3, (d2.old y a2).trans a4, a5.mono fun a b h => ?_⟩
      rcases h with h | h
      · exact .inl h
      · exact .inr (List.mem_append_left _ h)
    · obtain ⟨a1, a2, n, ss, a3, a4, a5⟩ := d2.pairs x y hp
      refine ⟨Nat.le_trans d1.len a1, a2, n, ss, a3, a4, a5.mono fun a b h => ?_⟩
      rcases h with h | h
      · rcases hm a b h with h | h
        · exact .inl h
        · exact .inr (List.mem_append_left _ h)
      · exact .inr (List.mem_append_right _ h)
  all y ha hb := by
    by_cases hl : y < h1.length
    · obtain ⟨x, hx⟩ := d1.all y ha hl
      exact ⟨x, List.mem_append_left _ hx⟩
    · obtain ⟨x, hx⟩ := d2.all y (by omega) hb
      exact ⟨x, List.mem_append_right _ hx⟩

section
variable {S : Heap} {G : Addr → Prop}

/-- What is assumed of the originals. -/
structure Source (S : Heap) (G : Addr → Prop) : Prop where
  lt : ∀ a, G a → a < S.length
  refs : ∀ a n, G a → S[a]? = some n → ∀ b ∈ n.refs, G b
  basic : ∀ a n, G a → S[a]? = some n → n.kind = .basic → n.refs = []

def Agrees (S h : Heap) : Prop := S.length ≤ h.length ∧ ∀ a, a < S.length → h[a]? = S[a]?

theorem Agrees.done {h m h' R} (ag : Agrees S h) (d : Done S h m h' R) : Agrees S h' :=
  ⟨Nat.le_trans ag.1 d.len, fun a ha => (d.old a (Nat.lt_of_lt_of_le ha ag.1)).trans (ag.2 a ha)⟩

/-- What one copy does. -/
def Copies (S : Heap) (G : Addr → Prop) (cp : Memo → Heap → Addr → Option (Memo × Heap × Addr)) : Prop :=
  ∀ m h a m' h' b, Agrees S h → G a → cp m h a = some (m', h', b) →
    ∃ R, Done S h m h' R ∧ In m R a b ∧ ∀ x y, (x, y) ∈ m' → In m R x y

theorem copyAll_done {cp} (hcp : Copies S G cp) : ∀ (ss : List (String × Slot)) (m : Memo) (h : Heap) (m' : Memo) (h' : Heap) (ts : List (String × Slot)),
    Agrees S h → (∀ nm a, (nm, Slot.ref a) ∈ ss → G a) → copyAll cp m h ss = some (m', h', ts) →
    ∃ R, Done S h m h' R ∧ Slots (In m R) ss ts ∧ ∀ x y, (x, y) ∈ m' → In m R x y := by
  intro ss
  induction ss with
  | nil =>
    intro m h m' h' ts _ _ he
    cases he
    exact ⟨[], Done.refl .., .nil, fun x y h => .inl h⟩
  | cons p r ih =>
    obtain ⟨n, s⟩ := p
    intro m h m' h' ts ag hg he
    cases s with
    | prim v =>
      simp only [copyAll] at he
      split at he
      · cases he
      · rename_i m1 h1 ss hc
        cases he
        obtain ⟨R, d, s, hm⟩ := ih _ _ _ _ _ ag (fun nm a hm => hg nm a (List.mem_cons_of_mem _ hm)) hc
        exact ⟨R, d, .prim s, hm⟩
    | ref a =>
      simp only [copyAll] at he
      split at he
      · cases he
      · rename_i m1 h1 b hc
        split at he
        · cases he
        · rename_i m2 h2 ss hc2
          cases he
          obtain ⟨R, d, hin, hm⟩ := hcp _ _ _ _ _ _ ag (hg n a List.mem_cons_self) hc
          obtain ⟨R2, d2, s2, hm2⟩ := ih _ _ _ _ _ (ag.done d) (fun nm a hm => hg nm a (List.mem_cons_of_mem _ hm)) hc2
          have lift : ∀ x y, In m1 R2 x y → In m (R ++ R2) x y := by
            rintro x y (h | h)
            · rcases hm x y h with h | h
              · exact .inl h
              · exact .inr (List.mem_append_left _ h)
            · exact .inr (List.mem_append_right _ h)
          refine ⟨R ++ R2, d.trans hm d2, .ref ?_ (s2.mono lift), fun x y h => lift x y (hm2 x y h)⟩
          rcases hin with h | h
          · exact .inl h
          · exact .inr (List.mem_append_left _ h)

theorem slots_self {Q : Addr → Addr → Prop} : ∀ {ss : List (String × Slot)}, (∀ nm a, (nm, Slot.ref a) ∉ ss) → Slots Q ss ss
  | [], _ => .nil
  | (n, .prim v) :: r, h => .prim (slots_self fun nm a hm => h nm a (List.mem_cons_of_mem _ hm))
  | (n, .ref a) :: r, h => absurd List.mem_cons_self (h n a)

theorem lookup_in {m : Memo} {a b : Addr} (h : m.lookup a = some b) : (a, b) ∈ m := by
  induction m with
  | nil => cases h
  | cons p r ih =>
    obtain ⟨x, y⟩ := p
    rw [List.lookup_cons] at h
    split at h
    · rename_i e
      cases h
      rw [eq_of_beq e]
      exact List.mem_cons_self
    · exact List.mem_cons_of_mem _ (ih h)

theorem ref_mem {n : Node} {nm : String} {b : Addr} (h : (nm, Slot.ref b) ∈ n.slots) : b ∈ n.refs :=
  List.mem_filterMap.2 ⟨_, h, rfl⟩

/-- Copying with a new memo each. -/
theorem items {fuel : Nat} (hc : Copies S G (copyObj fuel)) : Copies S G (fun m h a => (copyObj fuel [] h a).map fun r => (m, r.2)) := by
  intro m h a m' h' b ag ga he
  cases hq : copyObj fuel [] h a with
  | none => simp [hq] at he
  | some r =>
    obtain ⟨m2, h2, b2⟩ := r
    simp only [hq, Option.map_some, Option.some.injEq, Prod.mk.injEq] at he
    obtain ⟨rfl, rfl, rfl⟩ := he
    obtain ⟨R, d, hin, _⟩ := hc _ _ _ _ _ _ ag ga hq
    have up : ∀ x y, In [] R x y → In m R x y := by
      rintro x y (h | h)
      · cases h
      · exact .inr h
    refine ⟨R, ⟨d.old, d.len, fun x y hp => ?_, d.all⟩, up _ _ hin, fun x y h => .inl h⟩
    obtain ⟨a1, a2, n', ss', a3, a4, a5⟩ := d.pairs x y hp
    exact ⟨a1, a2, n', ss', a3, a4, a5.mono up⟩

theorem copyObj_copies (src : Source S G) : ∀ fuel, Copies S G (copyObj fuel)
  | 0 => by intro m h a m' h' b _ _ he; cases he
  | fuel + 1 => by
    intro m h a m' h' b ag ga he
    rw [copyObj] at he
    split at he
    · rename_i c hl
      cases he
      exact ⟨[], Done.refl .., .inl (lookup_in hl), fun x y h => .inl h⟩
    · split at he
      · cases he
      · rename_i n hn
        have hS : S[a]? = some n := by rw [← ag.2 a (src.lt a ga)]; exact hn
        have hrefs : ∀ nm c, (nm, Slot.ref c) ∈ n.slots → G c := fun nm c hm => src.refs a n ga hS c (ref_mem hm)
        -- an object made at the end
        have last : ∀ (m1 : Memo) (h1 : Heap) (R : Memo) (ss : List (String × Slot)), Done S h m h1 R → Slots (In m R) n.slots ss →
            Done S h m (h1 ++ [{ n with slots := ss }]) ((a, h1.length) :: R) := by
          intro m1 h1 R ss d hs
          have up : ∀ x y, In m R x y → In m ((a, h1.length) :: R) x y := by
            rintro x y (h | h)
            · exact .inl h
            · exact .inr (List.mem_cons_of_mem _ h)
          refine ⟨fun x hx => ?_, ?_, fun x y hp => ?_, fun y h2 h3 => ?_⟩
          · rw [List.getElem?_append_left (Nat.lt_of_lt_of_le hx d.len)]; exact d.old x hx
          · have := d.len; simp; omega
          · rcases List.mem_cons.1 hp with hp | hp
            · cases hp
              exact ⟨d.len, by simp, n, ss, hS, by simp, hs.mono up⟩
            · obtain ⟨a1, a2, n', ss', a3, a4, a5⟩ := d.pairs x y hp
              exact ⟨a1, by simp; omega, n', ss', a3, by rw [List.getElem?_append_left a2]; exact a4, a5.mono up⟩
          · by_cases hl : y < h1.length
            · obtain ⟨x, hx⟩ := d.all y h2 hl
              exact ⟨x, List.mem_cons_of_mem _ hx⟩
            · refine ⟨a, ?_⟩
              have : y = h1.length := by simp at h3; omega
              rw [this]
              exact List.mem_cons_self
        split at he
        · rename_i hk
          cases he
          have hno : ∀ nm c, (nm, Slot.ref c) ∉ n.slots := fun nm c hm => by
            have := src.basic a n ga hS hk
            have h2 := ref_mem hm
            rw [this] at h2
            cases h2
          refine ⟨[(a, h.length)], last m h [] n.slots (Done.refl ..) (slots_self hno), .inr List.mem_cons_self, fun x y hp => ?_⟩
          rcases List.mem_cons.1 hp with hp | hp
          · cases hp; exact .inr List.mem_cons_self
          · exact .inl hp
        · split at he
          · cases he
          · rename_i m1 h1 ss hc
            cases he
            have ag1 : Agrees S (h ++ [{ n with slots := [] }]) :=
              ⟨by have := ag.1; simp; omega, fun x hx => by rw [List.getElem?_append_left (Nat.lt_of_lt_of_le hx ag.1)]; exact ag.2 x hx⟩
            obtain ⟨R, d, hs, hm⟩ := copyAll_done (copyObj_copies src fuel) n.slots _ _ _ _ _ ag1 hrefs hc
            have hl1 : h.length + 1 ≤ h1.length := by have := d.len; simpa using this
            have up : ∀ x y, In ((a, h.length) :: m) R x y → In m ((a, h.length) :: R) x y := by
              rintro x y (h | h)
              · rcases List.mem_cons.1 h with h | h
                · cases h; exact .inr List.mem_cons_self
                · exact .inl h
              · exact .inr (List.mem_cons_of_mem _ h)
            refine ⟨(a, h.length) :: R, ⟨fun x hx => ?_, ?_, fun x y hp => ?_, fun y h2 h3 => ?_⟩, .inr List.mem_cons_self, fun x y hp => up x y (hm x y hp)⟩
            · rw [List.getElem?_modify]
              have : h.length ≠ x := by omega
              simp only [this, if_false]
              rw [d.old x (by simp; omega), List.getElem?_append_left hx]
              simp
            · simp; omega
            · rcases List.mem_cons.1 hp with hp | hp
              · cases hp
                refine ⟨Nat.le_refl _, by simp; omega, n, ss, hS, ?_, hs.mono up⟩
                rw [List.getElem?_modify, d.old h.length (by simp)]
                simp
              · obtain ⟨a1, a2, n', ss', a3, a4, a5⟩ := d.pairs x y hp
                have a1' : h.length + 1 ≤ y := by simpa using a1
                refine ⟨by omega, by simpa using a2, n', ss', a3, ?_, a5.mono up⟩
                rw [List.getElem?_modify, a4]
                have : h.length ≠ y := by omega
                simp [this]
            · by_cases hy : y = h.length
              · rw [hy]; exact ⟨a, List.mem_cons_self⟩
              · obtain ⟨x, hx⟩ := d.all y (by simp; omega) (by simpa using h3)
                exact ⟨x, List.mem_cons_of_mem _ hx⟩
        · split at he
          · cases he
          · rename_i m1 h1 ss hc
            cases he
            obtain ⟨R, d, hs, hm⟩ := copyAll_done (items (copyObj_copies src fuel)) n.slots _ _ _ _ _ ag hrefs hc
            refine ⟨_, last m _ R ss d hs, .inr List.mem_cons_self, fun x y hp => ?_⟩
            rcases List.mem_cons.1 hp with hp | hp
            · cases hp; exact .inr List.mem_cons_self
            · rcases hm x y hp with h | h
              · exact .inl h
              · exact .inr (List.mem_cons_of_mem _ h)

theorem copyAll_total {cp} {P : Addr → Prop} (hcp : Copies S G cp) (ht : ∀ m h a, Agrees S h → G a → P a → ∃ r, cp m h a = some r) :
    ∀ (ss : List (String × Slot)) (m : Memo) (h : Heap), Agrees S h → (∀ nm a, (nm, Slot.ref a) ∈ ss → G a ∧ P a) → ∃ r, copyAll cp m h ss = some r
  | [], m, h, _, _ => ⟨_, rfl⟩
  | (n, .prim v) :: r, m, h, ag, hg => by
    obtain ⟨⟨m', h', ss⟩, hq⟩ := copyAll_total hcp ht r m h ag fun nm a hm => hg nm a (List.mem_cons_of_mem _ hm)
    exact ⟨_, by rw [copyAll, hq]⟩
  | (n, .ref a) :: r, m, h, ag, hg => by
    have ga := hg n a List.mem_cons_self
    obtain ⟨⟨m1, h1, b⟩, hq⟩ := ht m h a ag ga.1 ga.2
    obtain ⟨R, d, _⟩ := hcp _ _ _ _ _ _ ag ga.1 hq
    obtain ⟨⟨m', h', ss⟩, hq2⟩ := copyAll_total hcp ht r m1 h1 (ag.done d) fun nm a hm => hg nm a (List.mem_cons_of_mem _ hm)
    exact ⟨_, by rw [copyAll, hq]; simp only []; rw [hq2]⟩

theorem copyObj_total (src : Source S G) : ∀ fuel m h a, Agrees S h → G a → Shallow S fuel a → ∃ r, copyObj fuel m h a = some r
  | 0, _, _, _, _, _, hs => hs.elim
  | fuel + 1, m, h, a, ag, ga, hs => by
    obtain ⟨n, hn, hb⟩ := hs
    have hn' : h[a]? = some n := by rw [ag.2 a (src.lt a ga)]; exact hn
    have hrefs : ∀ nm c, (nm, Slot.ref c) ∈ n.slots → G c ∧ Shallow S fuel c :=
      fun nm c hm => ⟨src.refs a n ga hn c (ref_mem hm), hb c (ref_mem hm)⟩
    rw [copyObj]
    split
    · exact ⟨_, rfl⟩
    · rw [hn']
      simp only []
      split
      · exact ⟨_, rfl⟩
      · have ag1 : Agrees S (h ++ [{ n with slots := [] }]) :=
          ⟨by have := ag.1; simp; omega, fun x hx => by rw [List.getElem?_append_left (Nat.lt_of_lt_of_le hx ag.1)]; exact ag.2 x hx⟩
        obtain ⟨r, hr⟩ := copyAll_total (P := Shallow S fuel) (copyObj_copies src fuel) (copyObj_total src fuel) n.slots ((a, h.length) :: m) _ ag1 hrefs
        rw [hr]
        exact ⟨_, rfl⟩
      · obtain ⟨r, hr⟩ := copyAll_total (P := Shallow S fuel) (items (copyObj_copies src fuel)) (fun m h a ag ga hs => by
          obtain ⟨r, hr⟩ := copyObj_total src fuel [] h a ag ga hs
          exact ⟨_, by rw [hr]; rfl⟩) n.slots m h ag hrefs
        rw [hr]
        exact ⟨_, rfl⟩
end

/-- Corresponding objects have the same content. -/
theorem done_view {S h' : Heap} {R : Memo} (d0 : Done S S [] h' R) : ∀ (d : Nat) (x y : Addr), (x, y) ∈ R → view h' d y = view S d x
  | 0, _, _, _ => rfl
  | d + 1, x, y, hp => by
    obtain ⟨_, _, n, ss, h1, h2, h3⟩ := d0.pairs x y hp
    rw [view, view, h1, h2]
    simp only []
    congr 1
    have : ∀ {ss ts}, Slots (In [] R) ss ts →
        (ts.map fun p => (p.1, match p.2 with | .prim v => Tree.leaf v | .ref b => view h' d b)) =
        ss.map fun p => (p.1, match p.2 with | .prim v => Tree.leaf v | .ref b => view S d b) := by
      intro ss ts hs
      induction hs with
      | nil => rfl
      | prim _ ih => simp [ih]
      | ref hq _ ih =>
        rcases hq with hq | hq
        · cases hq
        · simp [ih, done_view d0 d _ _ hq]
    exact this h3

end Pyof.Mem
