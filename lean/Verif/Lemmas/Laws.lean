import Verif.Spec.Contract
import Verif.Lemmas.Bytes
/-! The contracts `Enc`/`Dec` are preserved by the struct and list constructions. -/
namespace Pyof
open Spec

theorem Spec.Dec.weaken {c f} (h : Dec c f false) (t : Bool) : Dec c f t where
  unpack := fun d b pre post he ho _ hne => h.unpack d b pre post he ho (by simp) hne
  empty := h.empty

/-! ## structs -/

theorem denAll_cons {n f fs v vs ds} :
    denAll ((n, f) :: fs) (v :: vs) = some ds ↔
      ∃ d r, f.den v = some d ∧ denAll fs vs = some r ∧ ds = d :: r := by
  simp only [denAll]
  cases h1 : f.den v <;> cases h2 : denAll fs vs <;> simp [eq_comm]

theorem encAll_cons {n f fs d ds b} :
    encAll ((n, f) :: fs) (d :: ds) = some b ↔
      ∃ x r, f.enc d = some x ∧ encAll fs ds = some r ∧ b = x ++ r := by
  simp only [encAll]
  cases h1 : f.enc d <;> cases h2 : encAll fs ds <;> simp [eq_comm]

theorem encAll_cons_inv {n f fs ds b} (h : encAll ((n, f) :: fs) ds = some b) :
    ∃ d r x y, ds = d :: r ∧ f.enc d = some x ∧ encAll fs r = some y ∧ b = x ++ y := by
  cases ds with
  | nil => simp [encAll] at h
  | cons d r =>
    obtain ⟨x, y, h1, h2, h3⟩ := encAll_cons.mp h
    exact ⟨d, r, x, y, rfl, h1, h2, h3⟩

theorem encAll_nil_inv {ds b} (h : encAll [] ds = some b) : ds = [] ∧ b = [] := by
  cases ds <;> simp_all [encAll]

theorem denAll_cons_inv {n f fs vs ds} (h : denAll ((n, f) :: fs) vs = some ds) :
    ∃ v r d e, vs = v :: r ∧ f.den v = some d ∧ denAll fs r = some e ∧ ds = d :: e := by
  cases vs with
  | nil => simp [denAll] at h
  | cons v r =>
    obtain ⟨d, e, h1, h2, h3⟩ := denAll_cons.mp h
    exact ⟨v, r, d, e, rfl, h1, h2, h3⟩

theorem denAll_nil_inv {vs ds} (h : denAll [] vs = some ds) : vs = [] ∧ ds = [] := by
  cases vs <;> simp_all [denAll]

theorem Spec.Impl.encs {t cs fs} (h : Impl t cs fs) :
    ∀ vs ds, denAll fs vs = some ds →
      (∀ b, packAttrs cs vs = .ok b ↔ encAll fs ds = some b) ∧
      (∀ b, encAll fs ds = some b → sizeAttrs cs vs = .ok b.length) := by
  induction h with
  | nil =>
    intro vs ds hd
    obtain ⟨rfl, rfl⟩ := denAll_nil_inv hd
    simp [packAttrs, sizeAttrs, encAll]
  | @cons t n c f cs fs he _ _ ih =>
    intro vs ds hd
    obtain ⟨v, r, d, e, rfl, h1, h2, rfl⟩ := denAll_cons_inv hd
    obtain ⟨ihp, ihs⟩ := ih r e h2
    constructor
    · intro b
      rw [encAll_cons]
      simp only [packAttrs]
      cases hp : c.pack v with
      | error er =>
        simp only [reduceCtorEq, false_iff]
        intro ⟨x, y, hx, _⟩
        have := (he.pack v d h1 x).mpr hx
        rw [hp] at this; cases this
      | ok x =>
        have hx := (he.pack v d h1 x).mp hp
        cases hq : packAttrs cs r with
        | error er =>
          simp only [reduceCtorEq, false_iff]
          intro ⟨_, y, _, hy, _⟩
          have := (ihp y).mpr hy
          rw [hq] at this; cases this
        | ok y =>
          have hy := (ihp y).mp hq
          simp only [Except.ok.injEq]
          constructor
          · intro hb; exact ⟨x, y, hx, hy, hb.symm⟩
          · intro ⟨x', y', hx', hy', hb⟩
            rw [hx] at hx'; rw [hy] at hy'
            cases hx'; cases hy'; exact hb.symm
    · intro b hb
      obtain ⟨x, y, hx, hy, rfl⟩ := encAll_cons.mp hb
      simp [sizeAttrs, he.size v d x h1 hx, ihs y hy]
  | @last n c f he _ =>
    intro vs ds hd
    obtain ⟨v, r, d, e, rfl, h1, h2, rfl⟩ := denAll_cons_inv hd
    obtain ⟨rfl, rfl⟩ := denAll_nil_inv h2
    constructor
    · intro b
      rw [encAll_cons]
      simp only [packAttrs]
      cases hp : c.pack v with
      | error er =>
        simp only [reduceCtorEq, false_iff]
        intro ⟨x, y, hx, _⟩
        have := (he.pack v d h1 x).mpr hx
        rw [hp] at this; cases this
      | ok x =>
        have hx := (he.pack v d h1 x).mp hp
        simp [encAll, hx, eq_comm]
    · intro b hb
      obtain ⟨x, y, hx, hy, rfl⟩ := encAll_cons.mp hb
      obtain ⟨_, rfl⟩ := encAll_nil_inv hy
      simp [sizeAttrs, he.size v d x h1 hx]

/-- Decoding all fields of a struct in a non-empty buffer. -/
theorem Spec.Impl.decs {t cs fs} (h : Impl t cs fs) :
    ∀ ds b pre post, encAll fs ds = some b → okAll fs ds → (t = true → post = []) →
      pre ++ b ++ post ≠ [] →
      ∃ vs, unpackAttrs cs (pre ++ b ++ post) pre.length = .ok (vs, pre.length + b.length) ∧
        denAll fs vs = some ds := by
  induction h with
  | nil =>
    intro ds b pre post he _ _ _
    obtain ⟨rfl, rfl⟩ := encAll_nil_inv he
    exact ⟨[], by simp [unpackAttrs], by simp [denAll]⟩
  | @cons t n c f cs fs hE hD _ ih =>
    intro ds b pre post he ho ht hne
    obtain ⟨d, r, x, y, rfl, h1, h2, rfl⟩ := encAll_cons_inv he
    simp only [okAll] at ho
    have e1 : pre ++ (x ++ y) ++ post = pre ++ x ++ (y ++ post) := by simp
    have e2 : pre ++ (x ++ y) ++ post = (pre ++ x) ++ y ++ post := by simp
    obtain ⟨u, hu, hud, hun⟩ := hD.unpack d x pre (y ++ post) h1 ho.1 (by simp) (by rw [← e1]; exact hne)
    obtain ⟨vs, hvs, hden⟩ := ih r y (pre ++ x) post h2 ho.2 ht (by rw [← e2]; exact hne)
    refine ⟨u :: vs, ?_, ?_⟩
    · have hsz := hE.usize u d x hun hud h1
      simp only [unpackAttrs, unpackAttr, if_neg hne]
      rw [e1, hu]
      simp only [hsz]
      rw [← e1, e2]
      have hl : pre.length + x.length = (pre ++ x).length := by simp
      rw [hl, hvs]
      simp [Nat.add_assoc]
    · exact denAll_cons.mpr ⟨d, r, hud, hden, rfl⟩
  | @last n c f hE hD =>
    intro ds b pre post he ho ht hne
    obtain ⟨d, r, x, y, rfl, h1, h2, rfl⟩ := encAll_cons_inv he
    obtain ⟨rfl, rfl⟩ := encAll_nil_inv h2
    simp only [okAll] at ho
    rw [List.append_nil] at hne ⊢
    obtain ⟨u, hu, hud, hun⟩ := hD.unpack d x pre post h1 ho.1 ht hne
    refine ⟨[u], ?_, ?_⟩
    · have hsz := hE.usize u d x hun hud h1
      simp only [unpackAttrs, unpackAttr, if_neg hne, hu, hsz]
    · exact denAll_cons.mpr ⟨d, [], hud, rfl, rfl⟩

/-- Decoding all fields from the empty buffer: the class attributes' copies. -/
theorem Spec.Impl.decs_empty {t cs fs} (h : Impl t cs fs) :
    ∀ ds begin, encAll fs ds = some [] →
      ∃ vs, unpackAttrs cs [] begin = .ok (vs, begin) ∧ denAll fs vs = some ds := by
  induction h with
  | nil =>
    intro ds begin he
    obtain ⟨rfl, _⟩ := encAll_nil_inv he
    exact ⟨[], by simp [unpackAttrs], by simp [denAll]⟩
  | @cons t n c f cs fs _ hD _ ih =>
    intro ds begin he
    obtain ⟨d, r, x, y, rfl, h1, h2, h3⟩ := encAll_cons_inv he
    obtain ⟨hx, hy⟩ := List.append_eq_nil_iff.mp h3.symm
    subst hx; subst hy
    obtain ⟨vs, hvs, hden⟩ := ih r begin h2
    refine ⟨c.proto :: vs, ?_, denAll_cons.mpr ⟨d, r, hD.empty d h1, hden, rfl⟩⟩
    simp [unpackAttrs, unpackAttr, hvs]
  | @last n c f _ hD =>
    intro ds begin he
    obtain ⟨d, r, x, y, rfl, h1, h2, h3⟩ := encAll_cons_inv he
    obtain ⟨rfl, rfl⟩ := encAll_nil_inv h2
    have hx : x = [] := by simpa using h3.symm
    subst hx
    exact ⟨[c.proto], by simp [unpackAttrs, unpackAttr],
      denAll_cons.mpr ⟨d, [], hD.empty d h1, rfl, rfl⟩⟩

/-- Decoding a whole body at offset 0, empty or not. -/
theorem Spec.Impl.decs_body {t cs fs} (h : Impl t cs fs) {ds b} (he : encAll fs ds = some b) (ho : okAll fs ds) :
    ∃ vs, unpackAttrs cs b 0 = .ok (vs, b.length) ∧ denAll fs vs = some ds := by
  by_cases hb : b = []
  · subst hb
    exact h.decs_empty ds 0 he
  · have := h.decs ds b [] [] he ho (fun _ => rfl) (by simpa using hb)
    simpa using this

theorem struct_den_inv {cls fs v d} (h : (Spec.struct cls fs).den v = some d) :
    ∃ vs ds, v = .obj cls vs ∧ denAll fs vs = some ds ∧ d = .record ds := by
  cases v <;> simp [Spec.struct] at h
  obtain ⟨rfl, ds, h1, h2⟩ := h
  exact ⟨_, ds, rfl, h1, h2.symm⟩

theorem struct_enc_inv {cls fs d b} (h : (Spec.struct cls fs).enc d = some b) :
    ∃ ds, d = .record ds ∧ encAll fs ds = some b := by
  cases d <;> simp [Spec.struct] at h
  exact ⟨_, rfl, h⟩

theorem Spec.Impl.enc_struct {t cs fs} (h : Impl t cs fs) (cls : String) (init : List Val) :
    Enc (structAttr cls cs init) (Spec.struct cls fs) where
  pack := by
    intro v d hv b
    obtain ⟨vs, ds, rfl, h1, rfl⟩ := struct_den_inv hv
    simp only [structAttr, Spec.struct, if_true]
    exact (h.encs vs ds h1).1 b
  size := by
    intro v d b hv he
    obtain ⟨vs, ds, rfl, h1, rfl⟩ := struct_den_inv hv
    simp only [structAttr, if_true]
    exact (h.encs vs ds h1).2 b he
  usize := by
    intro v d b _ hv he
    obtain ⟨vs, ds, rfl, h1, rfl⟩ := struct_den_inv hv
    simp only [structAttr, if_true]
    exact (h.encs vs ds h1).2 b he

theorem Spec.Impl.dec_struct {t cs fs} (h : Impl t cs fs) (cls : String) (init : List Val)
    (hne : NonEmpty (Spec.struct cls fs)) :
    Dec (structAttr cls cs init) (Spec.struct cls fs) t where
  unpack := by
    intro d b pre post he ho ht hb
    obtain ⟨ds, rfl, he⟩ := struct_enc_inv he
    obtain ⟨vs, hvs, hden⟩ := h.decs ds b pre post he ho ht hb
    refine ⟨.obj cls vs, ?_, ?_, by simp⟩
    · simp only [structAttr, hvs]
    · simp [Spec.struct, hden]
  empty := fun d he => absurd he (hne d)

/-- A struct with a field that is never empty is never empty. -/
theorem Spec.NonEmpty.struct {cls : String} {fs : FieldFmts} {n f} (hf : NonEmpty f) (hm : (n, f) ∈ fs) :
    NonEmpty (Spec.struct cls fs) := by
  intro d he
  obtain ⟨ds, rfl, he⟩ := struct_enc_inv he
  induction fs generalizing ds with
  | nil => cases hm
  | cons p fs ih =>
    obtain ⟨m, g⟩ := p
    obtain ⟨d, r, x, y, rfl, h1, h2, h3⟩ := encAll_cons_inv he
    obtain ⟨hx, hy⟩ := List.append_eq_nil_iff.mp h3.symm
    subst hx; subst hy
    rcases List.mem_cons.mp hm with hm | hm
    · cases hm; exact hf d h1
    · exact ih hm r h2 h2

/-! ## lists -/

theorem encList_cons_inv {f d ds b} (h : encList f (d :: ds) = some b) :
    ∃ x y, f.enc d = some x ∧ encList f ds = some y ∧ b = x ++ y := by
  simp only [encList] at h
  cases h1 : f.enc d <;> cases h2 : encList f ds <;> simp [h1, h2] at h
  exact ⟨_, _, rfl, rfl, h.symm⟩

theorem optMap_cons_inv {α β} {f : α → Option β} {a r bs} (h : optMap f (a :: r) = some bs) :
    ∃ b s, f a = some b ∧ optMap f r = some s ∧ bs = b :: s := by
  simp only [optMap] at h
  cases h1 : f a <;> cases h2 : optMap f r <;> simp [h1, h2] at h
  exact ⟨_, _, rfl, rfl, h.symm⟩

theorem optMap_mem {α β} {f : α → Option β} {xs bs} (h : optMap f xs = some bs) :
    ∀ x ∈ xs, ∃ b, f x = some b := by
  induction xs generalizing bs with
  | nil => simp
  | cons a r ih =>
    obtain ⟨b, s, h1, h2, _⟩ := optMap_cons_inv h
    intro x hx
    rcases List.mem_cons.mp hx with rfl | hx
    · exact ⟨b, h1⟩
    · exact ih h2 x hx

/-- Items that are not themselves lists and have the right class are added as they are. -/
theorem addItems_flat {isItem : Val → Bool} {xs : List Val}
    (h : ∀ x ∈ xs, isItem x = true ∧ ∀ f ys, x ≠ .list f ys) : addItems isItem xs = .ok xs := by
  induction xs with
  | nil => simp [addItems]
  | cons x xs ih =>
    have hx := h x (by simp)
    have : addItem isItem x = .ok [x] := by
      cases x <;> simp_all [addItem]
    simp [addItems, this, ih (fun y hy => h y (by simp [hy]))]

/-- What a list format needs of its items: they are objects accepted by the list class. -/
structure ItemOk (isItem : Val → Bool) (f : Fmt) : Prop where
  isItem : ∀ x d, f.den x = some d → isItem x = true
  notList : ∀ x d, f.den x = some d → (∀ g ys, x ≠ .list g ys) ∧ x ≠ .none

theorem packItems_enc {it f} (he : Enc it f) :
    ∀ xs ds, optMap f.den xs = some ds → ∀ b, packItems it xs = .ok b ↔ encList f ds = some b := by
  intro xs
  induction xs with
  | nil =>
    intro ds h b
    simp [optMap] at h; subst h
    simp [packItems, encList]
  | cons x xs ih =>
    intro ds h b
    obtain ⟨d, s, h1, h2, rfl⟩ := optMap_cons_inv h
    simp only [packItems, encList]
    cases hp : it.pack x with
    | error e =>
      cases hd : f.enc d with
      | none => simp
      | some y =>
        have := (he.pack x d h1 y).mpr hd
        rw [hp] at this; cases this
    | ok y =>
      have hy := (he.pack x d h1 y).mp hp
      rw [hy]
      cases hq : packItems it xs with
      | error e =>
        cases hd : encList f s with
        | none => simp
        | some z =>
          have := (ih s h2 z).mpr hd
          rw [hq] at this; cases this
      | ok z =>
        rw [(ih s h2 z).mp hq]
        simp

theorem sizeItems_enc {isItem it f} (he : Enc it f) (hi : ItemOk isItem f) :
    ∀ xs ds b, optMap f.den xs = some ds → encList f ds = some b → sizeItems it xs = .ok b.length := by
  intro xs
  induction xs with
  | nil =>
    intro ds b h hb
    simp [optMap] at h; subst h
    simp [encList] at hb; subst hb
    simp [sizeItems]
  | cons x xs ih =>
    intro ds b h hb
    obtain ⟨d, s, h1, h2, rfl⟩ := optMap_cons_inv h
    obtain ⟨y, z, hy, hz, rfl⟩ := encList_cons_inv hb
    simp [sizeItems, he.usize x d y (hi.notList x d h1).2 h1 hy, ih s z h2 hz]

theorem list_den_inv {f v d} (h : (Spec.list f).den v = some d) :
    (v = .none ∧ d = .arr []) ∨ ∃ g xs ds, v = .list g xs ∧ optMap f.den xs = some ds ∧ d = .arr ds := by
  cases v <;> simp [Spec.list] at h
  · exact .inl ⟨rfl, h.symm⟩
  · obtain ⟨ds, h1, h2⟩ := h
    exact .inr ⟨_, _, ds, rfl, h1, h2.symm⟩

theorem list_enc_inv {f d b} (h : (Spec.list f).enc d = some b) :
    ∃ ds, d = .arr ds ∧ encList f ds = some b := by
  cases d <;> simp [Spec.list] at h
  exact ⟨_, rfl, h⟩

theorem enc_list {isItem it f} (he : Enc it f) (hi : ItemOk isItem f) :
    Enc (listAttr isItem it) (Spec.list f) where
  pack := by
    intro v d hv b
    rcases list_den_inv hv with ⟨rfl, rfl⟩ | ⟨g, xs, ds, rfl, h1, rfl⟩
    · simp [listAttr, Spec.list, encList]
    · have hf : addItems isItem xs = .ok xs := addItems_flat fun x hx => by
        obtain ⟨d, hd⟩ := optMap_mem h1 x hx
        exact ⟨hi.isItem x d hd, (hi.notList x d hd).1⟩
      simp only [listAttr, hf, Spec.list]
      exact packItems_enc he xs ds h1 b
  size := by
    intro v d b hv hb
    obtain ⟨ds', rfl, hb⟩ := list_enc_inv hb
    rcases list_den_inv hv with ⟨rfl, h⟩ | ⟨g, xs, ds, rfl, h1, h⟩
    · cases h; cases hb; simp [listAttr]
    · cases h
      have hf : addItems isItem xs = .ok xs := addItems_flat fun x hx => by
        obtain ⟨d, hd⟩ := optMap_mem h1 x hx
        exact ⟨hi.isItem x d hd, (hi.notList x d hd).1⟩
      simp only [listAttr, hf]
      exact sizeItems_enc he hi xs ds' b h1 hb
  usize := by
    intro v d b hn hv hb
    obtain ⟨ds', rfl, hb⟩ := list_enc_inv hb
    rcases list_den_inv hv with ⟨rfl, h⟩ | ⟨g, xs, ds, rfl, h1, h⟩
    · exact absurd rfl hn
    · cases h
      simp only [listAttr]
      exact sizeItems_enc he hi xs ds' b h1 hb

/-- Decoding the items of a list that ends with the buffer. -/
theorem unpackItems_dec {it f} (he : Enc it f) (hd : Dec it f false) (hne : NonEmpty f) :
    ∀ ds b pre, encList f ds = some b → (∀ x ∈ ds, f.ok x) →
      ∃ xs, unpackItems it (pre ++ b) pre.length = .ok xs ∧ optMap f.den xs = some ds := by
  intro ds
  induction ds with
  | nil =>
    intro b pre hb _
    simp [encList] at hb; subst hb
    refine ⟨[], ?_, by simp [optMap]⟩
    rw [unpackItems]; simp
  | cons d ds ih =>
    intro b pre hb ho
    obtain ⟨x, y, hx, hy, rfl⟩ := encList_cons_inv hb
    have hxne : x ≠ [] := fun h => hne d (h ▸ hx)
    have hxl : 0 < x.length := List.length_pos_iff.mpr hxne
    obtain ⟨u, hu, hud, hun⟩ := hd.unpack d x pre y hx (ho d (by simp)) (by simp)
      (by intro h; simp at h; exact hxne h.2.1)
    obtain ⟨xs, hxs, hden⟩ := ih y (pre ++ x) hy (fun z hz => ho z (by simp [hz]))
    refine ⟨u :: xs, ?_, ?_⟩
    · rw [unpackItems, if_pos (by simp; omega)]
      rw [List.append_assoc] at hu
      rw [hu]
      simp only [he.usize u d x hun hud hx]
      rw [if_neg (by omega)]
      rw [List.append_assoc, List.length_append] at hxs
      rw [hxs]
    · simp [optMap, hud, hden]

theorem dec_list {isItem it f} (he : Enc it f) (hd : Dec it f false) (hne : NonEmpty f) :
    Dec (listAttr isItem it) (Spec.list f) true where
  unpack := by
    intro d b pre post hb ho ht _
    obtain ⟨ds, rfl, hb⟩ := list_enc_inv hb
    have hp : post = [] := ht rfl
    subst hp
    obtain ⟨xs, hxs, hden⟩ := unpackItems_dec he hd hne ds b pre hb ho
    refine ⟨.list true xs, ?_, ?_, by simp⟩
    · simp only [listAttr, List.append_nil, hxs]
    · simp [Spec.list, hden]
  empty := by
    intro d hb
    obtain ⟨ds, rfl, hb⟩ := list_enc_inv hb
    cases ds with
    | nil => simp [Spec.list, listAttr, optMap]
    | cons d ds =>
      obtain ⟨x, y, hx, _, h⟩ := encList_cons_inv hb
      obtain ⟨hx0, _⟩ := List.append_eq_nil_iff.mp h.symm
      exact absurd (hx0 ▸ hx) (hne d)

end Pyof
