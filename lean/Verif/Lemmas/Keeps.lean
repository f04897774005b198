import Verif.Lemmas.Again
import Verif.Lemmas.Body
import Verif.Lemmas.Variant
/-! Packing does not change contents. -/
namespace Pyof
open Spec

theorem keeps_id {c : Attr} {f} (h : c.post = id) : Keeps c f := fun v d hd => by rw [h]; exact hd

theorem Spec.KeepsAll.den {cs fs} (h : KeepsAll cs fs) {vs ds} (hd : denAll fs vs = some ds) :
    denAll fs (postAttrs cs vs) = some ds := by
  induction h generalizing vs ds with
  | nil => obtain ⟨rfl, rfl⟩ := denAll_nil_inv hd; rfl
  | cons h1 _ ih =>
    obtain ⟨v, vs, d, ds, rfl, h2, h3, rfl⟩ := denAll_cons_inv hd
    simp only [postAttrs, denAll, h1 _ _ h2, ih h3]

theorem content_struct {cls cs init fs} (h : KeepsAll cs fs) : Keeps (structAttr cls cs init) (struct cls fs) := by
  intro v d hd
  obtain ⟨vs, ds, rfl, h1, rfl⟩ := struct_den_inv hd
  simp only [structAttr, if_true, struct, h.den h1, Option.map_some]

theorem optMap_map {f : Fmt} {post : Val → Val} (h : ∀ x d, f.den x = some d → f.den (post x) = some d) :
    ∀ {xs ds}, optMap f.den xs = some ds → optMap f.den (xs.map post) = some ds := by
  intro xs
  induction xs with
  | nil => intro ds hd; exact hd
  | cons x xs ih =>
    intro ds hd
    obtain ⟨d, es, h1, h2, rfl⟩ := optMap_cons_inv hd
    simp only [List.map_cons, optMap, h x d h1, ih h2]

theorem keeps_list {isItem it f} (h : Keeps it f) : Keeps (listAttr isItem it) (list f) := by
  intro v d hd
  cases v <;> first | exact hd | skip
  rename_i g xs
  simp only [list, Option.map_eq_some_iff] at hd
  obtain ⟨ds, h1, rfl⟩ := hd
  simp only [listAttr, list, optMap_map h h1, Option.map_some]

theorem keeps_bareList {isItem it f} (h : Keeps it f) : Keeps (bareListAttr isItem it) (bareList f) := by
  intro v d hd
  cases v <;> first | exact hd | skip
  rename_i g xs
  cases g with
  | false => cases hd
  | true => exact keeps_list (isItem := isItem) h (.list true xs) d hd

theorem keeps_noItems {isItem it} : Keeps (bareListAttr isItem it) noItems := by
  intro v d hd
  cases v <;> first | exact hd | skip
  rename_i g xs
  cases xs with
  | nil => exact hd
  | cons x xs => simp [noItems] at hd

theorem Spec.Keeps.cut {c f} (h : Keeps c f) (k : Nat) : Keeps (lengthCut k c) f := h
theorem Spec.Keeps.delimited {c f} (h : Keeps c f) (k : Nat) : Keeps c (Spec.delimited k f) := h
theorem Spec.Keeps.atMostOne {c f} (h : Keeps c (Spec.list f)) : Keeps c (Spec.atMostOne f) := h
theorem Spec.Keeps.pad8 {c f} (h : Keeps c f) : Keeps c (Spec.pad8 f) := h
theorem Spec.Keeps.exact {c f} (h : Keeps c f) (k : Nat) : Keeps c (Spec.exact k f) := by
  intro v d hd
  simp only [Spec.exact] at hd ⊢
  split at hd
  · rename_i e he
    simp only [h v e he]
    exact hd
  · cases hd

theorem Spec.Keeps.orDefault {c f d} (h : Keeps c f) (hn : c.post .none = .none) (hc : ∀ v, c.post v = .none → v = .none) :
    Keeps c (Spec.orDefault d f) := by
  intro v e hd
  by_cases hv : v = .none
  · subst hv; rw [hn]; exact hd
  · have h1 : (Spec.orDefault d f).den v = f.den v := by cases v <;> first | rfl | exact absurd rfl hv
    have h2 : (Spec.orDefault d f).den (c.post v) = f.den (c.post v) := by
      have : c.post v ≠ .none := fun e => hv (hc v e)
      revert this
      generalize c.post v = w
      intro this
      cases w <;> first | rfl | exact absurd rfl this
    rw [h1] at hd
    rw [h2]
    exact h v e hd

theorem keeps_variant {proto ref trunc pick subs sel lay}
    (h : ∀ t c s, sel t = some c → subOf subs c = some s → ∀ vs d, (lay c).den (.obj c vs) = some d →
      (lay c).den (.obj c (s.post vs)) = some d) :
    Keeps (variantAttr proto ref trunc pick subs) (union sel lay) := by
  intro v d hd
  cases v <;> first | exact hd | skip
  rename_i c vs
  cases hs : subOf subs c with
  | none => simp only [variantAttr, hs]; exact hd
  | some s =>
    simp only [variantAttr, hs]
    simp only [union] at hd ⊢
    split at hd
    · rename_i t ds hl
      split at hd
      · rename_i hsel
        rw [h t c s hsel hs vs _ hl]
        simp only [hsel, if_true]
        exact hd
      · cases hd
    · cases hd

/-! ## Own lengths -/

theorem KeepsAll.append_len {cs₁ fs₁ c cs₂ fs₂ m} (h1 : KeepsAll cs₁ fs₁) (h2 : KeepsAll cs₂ fs₂) {vs₁ l vs₂ ds₁ ds₂ x}
    (hd1 : denAll fs₁ vs₁ = some ds₁) (hd2 : denAll fs₂ vs₂ = some ds₂) :
    ∃ ws₁ y ws₂, postAttrs (cs₁ ++ (m, c) :: cs₂) ((vs₁ ++ l :: vs₂).set fs₁.length x) = ws₁ ++ y :: ws₂ ∧
      denAll fs₁ ws₁ = some ds₁ ∧ denAll fs₂ ws₂ = some ds₂ := by
  induction h1 generalizing vs₁ ds₁ with
  | nil =>
    obtain ⟨rfl, rfl⟩ := denAll_nil_inv hd1
    exact ⟨[], c.post x, postAttrs cs₂ vs₂, rfl, rfl, h2.den hd2⟩
  | cons h3 _ ih =>
    obtain ⟨v, vs, d, ds, rfl, h4, h5, rfl⟩ := denAll_cons_inv hd1
    obtain ⟨ws₁, y, ws₂, h6, h7, h8⟩ := ih h5
    refine ⟨_ :: ws₁, y, ws₂, by simp only [List.cons_append, List.length_cons, List.set_cons_succ, postAttrs, h6]; rfl, ?_, h8⟩
    simp only [denAll, h3 _ _ h4, h7]

theorem autoPost_keeps {cls cs₁ cs₂ m c fs₁ fs₂ cs i} (h1 : KeepsAll cs₁ fs₁) (h2 : KeepsAll cs₂ fs₂)
    (hc : cs = cs₁ ++ (m, c) :: cs₂) (hi : i = fs₁.length) {vs d} (hd : (ownLen cls fs₁ fs₂).den (.obj cls vs) = some d) :
    (ownLen cls fs₁ fs₂).den (.obj cls (autoPost cs i vs)) = some d := by
  subst hc hi
  obtain ⟨vs₁, l, vs₂, ds₁, ds₂, hv, rfl, hd1, hd2⟩ := ownLen_den_inv hd
  cases hv
  simp only [autoPost, withLength]
  cases sizeAttrs (cs₁ ++ (m, c) :: cs₂) (vs₁ ++ l :: vs₂) with
  | error e => exact hd
  | ok n =>
    obtain ⟨ws₁, y, ws₂, h3, h4, h5⟩ := KeepsAll.append_len h1 h2 hd1 hd2 (c := c) (m := m) (l := l) (x := .int (n : Nat))
    simp only [h3]
    exact ownLen_den h4 h5

theorem keeps_own {cls cs₁ cs₂ m c fs₁ fs₂ cs i init} (h1 : KeepsAll cs₁ fs₁) (h2 : KeepsAll cs₂ fs₂)
    (hc : cs = cs₁ ++ (m, c) :: cs₂) (hi : i = fs₁.length) : Keeps (autoStruct cls cs i init) (ownLen cls fs₁ fs₂) := by
  intro v d hd
  obtain ⟨vs₁, l, vs₂, ds₁, ds₂, rfl, _⟩ := ownLen_den_inv hd
  simp only [autoStruct, if_true]
  exact autoPost_keeps h1 h2 hc hi hd

/-! ## Messages -/

theorem msgKeeps_plain {m : MsgCls} {s : MsgFmt} {fs} (ha : m.after = fun vs => postAttrs m.body vs)
    (hf : s.fmt.den = (struct s.name fs).den) (h : KeepsAll m.body fs) : MsgKeeps m s := by
  intro vs d hd
  rw [hf] at hd ⊢
  obtain ⟨ws, ds, hw, h1, rfl⟩ := struct_den_inv hd
  cases hw
  rw [ha]
  simp only [struct, if_true, h.den h1, Option.map_some]

theorem msgKeeps_id {m : MsgCls} {s : MsgFmt} (ha : m.after = id) : MsgKeeps m s := by
  intro vs d hd
  rw [ha]
  exact hd

theorem hdrDen_setLength {n hdr hdr' c v t x} (h : setLength n hdr = .ok hdr') (hx : hdrDen c v t hdr = some x) :
    hdrDen c v t hdr' = some x := by
  obtain ⟨_, _, _, _, _, rfl, rfl⟩ := setLength_inv h
  exact hx

theorem msgKeeps_post {m : MsgCls} {s : MsgFmt} (h : MsgKeeps m s) {v x d} (hd : msgDen s v = some (x, d)) :
    msgDen s (m.post v) = some (x, d) := by
  have hd0 := hd
  cases v <;> first | exact hd | skip
  rename_i c vs
  cases vs with
  | nil => exact hd
  | cons hdr vs =>
    simp only [msgDen] at hd
    split at hd
    · rename_i hc
      subst hc
      split at hd
      · rename_i h1 h2
        cases hd
        simp only [MsgCls.post]
        split
        · exact hd0
        · split
          · exact hd0
          · split
            · exact hd0
            · rename_i hl
              simp only [msgDen, if_true, hdrDen_setLength hl h1, h vs d h2]
      · cases hd
    · cases hd

/-- Proves `KeepsAll` for a declaration. -/
macro "keeps_fields" : tactic => `(tactic| (
  repeat' first
    | exact KeepsAll.nil
    | refine KeepsAll.cons (keeps_id rfl) ?_
    | refine KeepsAll.cons (by assumption) ?_
    | refine KeepsAll.cons keeps_noItems ?_
    | refine KeepsAll.cons (content_struct ?_) ?_))

end Pyof
