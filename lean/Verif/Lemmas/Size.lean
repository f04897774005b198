import Verif.Spec.Size
import Verif.Lemmas.Window
import Verif.Lemmas.Libs
/-! `get_size` is right for honest values: the law for attributes and its preservation. -/
namespace Pyof
open Spec

theorem honestAll_iff {vs : List Val} : honestAll vs = true ↔ ∀ v ∈ vs, honest v = true := by
  induction vs with
  | nil => simp [honestAll]
  | cons v vs ih => simp [honestAll, ih]

theorem honestAll_set {vs : List Val} {i x} (h : honestAll vs = true) (hx : honest x = true) : honestAll (vs.set i x) = true := by
  rw [honestAll_iff] at *
  intro v hv
  rcases List.mem_or_eq_of_mem_set hv with hv | rfl
  · exact h v hv
  · exact hx

mutual
theorem honest_flat : ∀ v, honest v = true → ∀ y ∈ flat v, honest y = true
  | .list g xs, h, y, hy => by
    simp only [flat, honest] at h hy
    exact honest_flats xs h y hy
  | .none, h, y, hy | .int _, h, y, hy | .enum _, h, y, hy | .mask _, h, y, hy | .str _, h, y, hy | .bytes _, h, y, hy
  | .ub _ _, h, y, hy | .hw _, h, y, hy | .ip _ _, h, y, hy | .ip6 _ _, h, y, hy | .dpid _, h, y, hy | .chr _ _, h, y, hy
  | .bin _, h, y, hy | .pad _, h, y, hy | .obj _ _, h, y, hy | .foreign _ _, h, y, hy => by
    simp only [flat, List.mem_singleton] at hy
    subst hy
    exact h
theorem honest_flats : ∀ xs, honestAll xs = true → ∀ y ∈ flat.flats xs, honest y = true
  | [], _, y, hy => by simp [flat.flats] at hy
  | x :: xs, h, y, hy => by
    simp only [honestAll, Bool.and_eq_true] at h
    simp only [flat.flats, List.mem_append] at hy
    rcases hy with hy | hy
    · exact honest_flat x h.1 y hy
    · exact honest_flats xs h.2 y hy
end

/-- `get_size(v)` is right for every honest value given to the attribute. -/
def Sized (c : Attr) : Prop := ∀ v, honest v = true → SizeOK c v

/-- `x.get_size()` is right for every honest item. -/
def SizedItem (isItem : Val → Bool) (it : Attr) : Prop := ∀ v, honest v = true → isItem v = true → OwnSizeOK it v

theorem sized_uint (w ref dv) : Sized (ubint w ref dv) := fun v _ => (sizeOK_uint w ref dv v).1
theorem sized_pad (n) : Sized (padAttr n) := fun v _ => (sizeOK_pad n v).1
theorem sized_dpid : Sized dpidAttr := fun v _ => (sizeOK_dpid v).1
theorem sized_hw (d) : Sized (hwAttr d) := fun v _ => (sizeOK_hw d v).1
theorem sized_ip (a m) : Sized (ipAttr a m) := fun v _ => (sizeOK_ip a m v).1
theorem sized_ip6 : Sized ip6Attr := fun v _ => (sizeOK_ip6 v).1

theorem honestBin {v} (h : honest v = true) : HonestBin v := by
  induction v using honest.induct (motive_2 := fun _ => True) <;> simp_all [honest, HonestBin]

theorem sized_bin : Sized binAttr := fun _ h => (sizeOK_bin (honestBin h)).1

/-- The attributes of a class; `ns` are the lengths of its `Char` attributes. -/
inductive FieldsSized : List (Option Nat) → Fields → Prop
  | nil {ns} : FieldsSized ns []
  | any {n c fs} : Sized c → FieldsSized [] fs → FieldsSized [] ((n, c) :: fs)
  | skip {n c ns fs} : Sized c → FieldsSized ns fs → FieldsSized (none :: ns) ((n, c) :: fs)
  | chr {n k ns fs} : 0 < k → FieldsSized ns fs → FieldsSized (some k :: ns) ((n, charAttr k) :: fs)

theorem FieldsSized.zip {ns fs} (h : FieldsSized ns fs) : ∀ {vs}, honestAll vs = true → charsFit ns vs = true →
    ∀ p ∈ fs.zip vs, SizeOK p.1.2 p.2 := by
  induction h with
  | nil => intro vs _ _ p hp; simp at hp
  | any hc hr ih =>
    intro vs h1 h2 p hp
    cases vs with
    | nil => simp at hp
    | cons v vs =>
      simp only [honestAll, Bool.and_eq_true] at h1
      simp only [List.zip_cons_cons, List.mem_cons] at hp
      rcases hp with rfl | hp
      · exact hc _ h1.1
      · exact ih h1.2 (by simp [charsFit]) p hp
  | skip hc hr ih =>
    intro vs h1 h2 p hp
    cases vs with
    | nil => simp at hp
    | cons v vs =>
      simp only [honestAll, Bool.and_eq_true] at h1
      simp only [charsFit] at h2
      simp only [List.zip_cons_cons, List.mem_cons] at hp
      rcases hp with rfl | hp
      · exact hc _ h1.1
      · exact ih h1.2 h2 p hp
  | chr hk hr ih =>
    intro vs h1 h2 p hp
    cases vs with
    | nil => simp at hp
    | cons v vs =>
      simp only [honestAll, Bool.and_eq_true] at h1
      simp only [charsFit, Bool.and_eq_true] at h2
      simp only [List.zip_cons_cons, List.mem_cons] at hp
      rcases hp with rfl | hp
      · exact (sizeOK_char hk (by intro x m hv; subst hv; simpa using h2.1)).1
      · exact ih h1.2 h2.2 p hp

theorem fits_chars {cls vs} (h : fits cls vs = true) : charsFit (charLengths cls) vs = true := by
  simp only [fits, Bool.and_eq_true] at h
  exact h.1.1.1.1.1.1

theorem honest_obj {cls vs} (h : honest (.obj cls vs) = true) : honestAll vs = true ∧ fits cls vs = true := by
  simpa [honest] using h

/-- Packing the attributes of an honest object gives as many bytes as the sizes of the attributes. -/
theorem FieldsSized.attrs {cls fs} (h : FieldsSized (charLengths cls) fs) {vs b} (hv : honest (.obj cls vs) = true)
    (hb : packAttrs fs vs = .ok b) : sizeAttrs fs vs = .ok b.length :=
  sizeAttrs_ok (h.zip (honest_obj hv).1 (fits_chars (honest_obj hv).2)) hb

theorem sized_struct {cls fs init} (h : FieldsSized (charLengths cls) fs) (hi : honest (.obj cls init) = true) :
    Sized (structAttr cls fs init) := by
  intro v hv b hb
  simp only [structAttr] at hb ⊢
  split at hb
  · exact h.attrs hi hb
  · split at hb
    · rename_i hc; subst hc; simp only [if_true]; exact h.attrs hv hb
    · cases hb
  · cases hb

theorem sizedItem_struct {cls fs init} (h : FieldsSized (charLengths cls) fs) :
    SizedItem (isObj cls) (structAttr cls fs init) := by
  intro v hv hi b hb
  cases v <;> simp [isObj] at hi
  subst hi
  simp only [structAttr, if_true] at hb ⊢
  exact h.attrs hv hb

theorem sized_list {isItem it} (h : SizedItem isItem it) : Sized (listAttr isItem it) := by
  intro v hv b hb
  simp only [listAttr] at hb ⊢
  split at hb
  · cases hb; rfl
  · simp only [honest] at hv
    split at hb
    · cases hb
    · rename_i ys hy
      obtain ⟨h1, h2⟩ := addItems_flats _ _ hy
      simp only [hy]
      exact sizeItems_of_pack (fun y hm => h y (honest_flats _ hv y (h1 ▸ hm)) (h2 y hm)) hb
  · cases hb; rfl
  · cases hb; rfl
  · cases hb
  · cases hb
  · cases hb

theorem sizedItem_cut {isItem k it} (h : SizedItem isItem it) : SizedItem isItem (lengthCut k it) := h
theorem sized_cut {k c} (h : Sized c) : Sized (lengthCut k c) := h

/-! ## own lengths -/

theorem sizeAttrs_set_ub {fs : Fields} {i n w ref dv} (hf : fs[i]? = some (n, ubint w ref dv)) (vs : List Val) (x : Val) :
    sizeAttrs fs (vs.set i x) = sizeAttrs fs vs := by
  induction fs generalizing i vs with
  | nil => simp at hf
  | cons p fs ih =>
    cases vs with
    | nil => simp
    | cons v vs =>
      cases i with
      | zero =>
        simp only [List.getElem?_cons_zero, Option.some.injEq] at hf
        subst hf
        simp [sizeAttrs, ubint]
      | succ i =>
        simp only [List.getElem?_cons_succ] at hf
        obtain ⟨n', c⟩ := p
        simp only [List.set_cons_succ, sizeAttrs, ih hf]

theorem charsFit_set : ∀ (ns : List (Option Nat)) (vs : List Val) (i : Nat) (n : Int), charsFit ns vs = true →
    charsFit ns (vs.set i (.int n)) = true
  | [], vs, i, n, _ => by simp [charsFit]
  | none :: ns, [], i, n, h => by simpa using h
  | some k :: ns, [], i, n, h => by simpa using h
  | none :: ns, v :: vs, 0, n, h => by simpa [charsFit] using h
  | none :: ns, v :: vs, i + 1, n, h => by
    simp only [charsFit, List.set_cons_succ] at h ⊢
    exact charsFit_set ns vs i n h
  | some k :: ns, v :: vs, 0, n, h => by
    simp only [charsFit, List.set_cons_zero, Bool.and_eq_true] at h ⊢
    exact ⟨trivial, h.2⟩
  | some k :: ns, v :: vs, i + 1, n, h => by
    simp only [charsFit, List.set_cons_succ, Bool.and_eq_true] at h ⊢
    exact ⟨h.1, charsFit_set ns vs i n h.2⟩

theorem autoPack_sized {cls fs i n w ref dv vs b} (h : FieldsSized (charLengths cls) fs)
    (hf : fs[i]? = some (n, ubint w ref dv)) (hv : honest (.obj cls vs) = true) (hb : autoPack fs i vs = .ok b) :
    sizeAttrs fs vs = .ok b.length := by
  simp only [autoPack, withLength] at hb
  cases hs : sizeAttrs fs vs with
  | error e => simp [hs] at hb
  | ok k =>
    simp only [hs] at hb
    have := sizeAttrs_ok (h.zip (honestAll_set (honest_obj hv).1 (by rfl)) (charsFit_set _ _ i _ (fits_chars (honest_obj hv).2))) hb
    rw [sizeAttrs_set_ub hf, hs] at this
    exact this

theorem sizedItem_auto {cls fs i n w ref dv init} (h : FieldsSized (charLengths cls) fs)
    (hf : fs[i]? = some (n, ubint w ref dv)) : SizedItem (isObj cls) (autoStruct cls fs i init) := by
  intro v hv hi b hb
  cases v <;> simp [isObj] at hi
  subst hi
  simp only [autoStruct, structAttr, if_true] at hb ⊢
  exact autoPack_sized h hf hv hb

/-! ## variants -/

/-- `get_size` of the honest instances of one class of a family. -/
def SubSized (s : Sub) : Prop := ∀ vs b, honest (.obj s.name vs) = true → s.pack vs = .ok b → s.size vs = .ok b.length

theorem subSized_plain {name fs} (h : FieldsSized (charLengths name) fs) : SubSized (plainSub name fs) :=
  fun _ _ hv hb => h.attrs hv hb

theorem subSized_auto {name fs i n w ref dv} (h : FieldsSized (charLengths name) fs) (hf : fs[i]? = some (n, ubint w ref dv)) :
    SubSized (autoSub name fs i) :=
  fun _ _ hv hb => autoPack_sized h hf hv hb

theorem sizedItem_variant {proto ref trunc pick subs} (h : ∀ s ∈ subs, SubSized s) :
    SizedItem (isSub subs) (variantAttr proto ref trunc pick subs) := by
  intro v hv hi b hb
  cases v <;> simp only [isSub, Bool.false_eq_true] at hi
  rename_i c vs
  simp only [variantAttr] at hb ⊢
  cases hs : subOf subs c with
  | none => simp [hs] at hi
  | some s =>
    simp only [hs] at hb ⊢
    have hn : s.name = c := by
      have := List.find?_some hs
      simpa using this
    subst hn
    exact h s (List.mem_of_find?_eq_some hs) vs b hv hb

theorem mem_of_lookup {α β : Type} [BEq α] [LawfulBEq α] {l : List (α × β)} {k : α} {b : β} (h : l.lookup k = some b) : (k, b) ∈ l := by
  induction l with
  | nil => simp at h
  | cons p l ih =>
    obtain ⟨a, c⟩ := p
    simp only [List.lookup_cons] at h
    split at h
    · rename_i hk
      have : k = a := by simpa using hk
      subst this
      cases h
      simp
    · exact List.mem_cons_of_mem _ (ih h)

/-- Classes whose instances may be a body. -/
def ClassesSized (classes : List (String × Attr)) : Prop := ∀ p ∈ classes, SizedItem (isObj p.1) p.2

theorem ClassesSized.lookup {classes} (h : ClassesSized classes) {c a} (hl : classes.lookup c = some a) : SizedItem (isObj c) a :=
  h _ (mem_of_lookup hl)

theorem classesSized_nil : ClassesSized [] := by intro p hp; cases hp
theorem classesSized_cons {c a cs} (h : SizedItem (isObj c) a) (hr : ClassesSized cs) : ClassesSized ((c, a) :: cs) := by
  intro p hp
  rcases List.mem_cons.mp hp with rfl | hp
  · exact h
  · exact hr p hp

syntax "sz1" : tactic
macro_rules
  | `(tactic| sz1) => `(tactic| first
      | exact sized_uint _ _ _ | exact sized_pad _ | exact sized_hw _ | exact sized_bin | exact sized_ip _ _ | exact sized_ip6
      | exact sized_dpid
      | exact FieldsSized.nil
      | (refine FieldsSized.any ?_ ?_)
      | (refine FieldsSized.skip ?_ ?_)
      | (refine FieldsSized.chr (by decide) ?_)
      | (apply sized_struct) | (apply sized_list) | (apply sizedItem_struct) | (apply sizedItem_cut)
      | (apply sizedItem_auto (hf := rfl)) | (apply sized_cut)
      | rfl)
macro "sz" : tactic => `(tactic| repeat sz1)

end Pyof
