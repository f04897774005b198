import Verif.Model.Body
import Verif.Lemmas.Auto
/-! Lists of objects, and bodies that pack themselves. -/
namespace Pyof
open Spec

theorem itemOk_struct {cls fs} : ItemOk (isObj cls) (Spec.struct cls fs) where
  isItem := by
    intro x d hx
    obtain ⟨vs, ds, rfl, _⟩ := struct_den_inv hx
    simp [isObj]
  notList := by
    intro x d hx
    obtain ⟨vs, ds, rfl, _⟩ := struct_den_inv hx
    simp

theorem itemOk_delimited {isItem f k} (h : ItemOk isItem f) : ItemOk isItem (delimited k f) := ⟨h.isItem, h.notList⟩

theorem enc_atMostOne {c f} (h : Enc c (Spec.list f)) : Enc c (Spec.atMostOne f) := ⟨h.pack, h.size, h.usize⟩

theorem dec_atMostOne {isItem it f} (he : Enc it f) (hd : Dec it f true) (hne : NonEmpty f) :
    Dec (listAttr isItem it) (Spec.atMostOne f) true where
  unpack := by
    intro d b pre post hb ho ht _
    obtain ⟨ds, rfl, hb⟩ := list_enc_inv (f := f) hb
    have hp : post = [] := ht rfl
    subst hp
    obtain ⟨xs, h1, h2⟩ := unpackItems_le_one he hd hne pre hb ho.1 ho.2
    exact ⟨.list true xs, by simp [listAttr, h1], by simp [Spec.atMostOne, Spec.list, h2], by simp⟩
  empty := by
    intro d hb
    obtain ⟨ds, rfl, hb⟩ := list_enc_inv (f := f) hb
    cases ds with
    | nil => rfl
    | cons d ds =>
      obtain ⟨x, y, h1, h2, h3⟩ := encList_cons_inv hb
      have : x = [] := (List.append_eq_nil_iff.mp h3.symm).1
      exact absurd (this ▸ h1) (hne d)

/-- `a` implements `g`, and is the class of the values `g` describes. -/
structure StatsItem (classes : List (String × Attr)) (a : Attr) (g : Fmt) (name : String) : Prop where
  lookup : classes.lookup name = some a
  enc : Enc a g
  inv : ∀ v d, g.den v = some d → ∃ vs, v = .obj name vs
  ne : NonEmpty g

theorem packAll_items {classes a g name} (h : StatsItem classes a g name) :
    ∀ xs ds, optMap g.den xs = some ds → selfPack.packAll classes xs = packItems a xs := by
  intro xs
  induction xs with
  | nil => intro _ _; simp [selfPack.packAll, packItems]
  | cons x xs ih =>
    intro ds hd
    obtain ⟨d, es, h1, h2, rfl⟩ := optMap_cons_inv hd
    obtain ⟨vs, rfl⟩ := h.inv x d h1
    simp only [selfPack.packAll, packItems, h.lookup, ih es h2]
    rfl

/-- What `pack` puts into the `body` attribute stands for the items. -/
theorem selfPack_body {classes a g name} (h : StatsItem classes a g name) {body xs ds}
    (hb : Spec.bodyItems body = some xs) (hd : optMap g.den xs = some ds) :
    (selfPack classes body = none ∧ (body = .none ∨ body = .bytes []) ∧ ds = []) ∨
    ∃ r, selfPack classes body = some r ∧ ∀ b, r = .ok b ↔ encList g ds = some b := by
  unfold Spec.bodyItems at hb
  split at hb
  · cases hb
    right
    obtain ⟨d, es, h1, h2, rfl⟩ := optMap_cons_inv hd
    cases h2
    obtain ⟨vs, hv⟩ := h.inv _ d h1
    cases hv
    refine ⟨a.pack _, by simp only [selfPack, h.lookup]; rfl, fun b => ?_⟩
    rw [h.enc.pack _ d h1]
    simp only [encList]
    cases g.enc d <;> simp
  · cases hb
    right
    refine ⟨_, rfl, fun b => ?_⟩
    rw [packAll_items h _ _ hd]
    exact packItems_enc h.enc _ _ hd b
  · cases hb; cases hd; exact .inl ⟨rfl, .inl rfl, rfl⟩
  · cases hb; cases hd; exact .inl ⟨rfl, .inr rfl, rfl⟩
  · cases hb

theorem cmpNum_num {v n} (h : numOf v = some n) : cmpNum v = some (n : Int) := by
  cases v with
  | int i => simp [numOf] at h; simp [cmpNum]; omega
  | enum i => simp [numOf] at h; simp [cmpNum]; omega
  | ub w x =>
    cases x <;> simp [numOf] at h <;> simp [cmpNum, unwrap] <;> omega
  | _ => simp [numOf] at h

end Pyof
