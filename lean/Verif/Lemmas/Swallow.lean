import Verif.Lemmas.Laws
import Verif.Model.Variant
/-! Structures whose last field is a list without a bound: decoding one takes everything that is left. -/
namespace Pyof

theorem unpackItems_reaches {it : Attr} {buff : Bytes} : ∀ {off : Nat} {xs : List Val}, unpackItems it buff off = .ok xs →
    ∃ n, sizeItems it xs = .ok n ∧ buff.length ≤ off + n := by
  intro off xs h
  induction off using unpackItems.induct it buff generalizing xs with
  | case1 off hlt e he => rw [unpackItems, if_pos hlt] at h; simp [he] at h
  | case2 off hlt u hu e he => rw [unpackItems, if_pos hlt] at h; simp [hu, he] at h
  | case3 off hlt u hu he => rw [unpackItems, if_pos hlt] at h; simp [hu, he] at h
  | case4 off hlt u hu n hn hz e he ih => rw [unpackItems, if_pos hlt] at h; simp [hu, hn, hz, he] at h
  | case5 off hlt u hu n hn hz r hr ih =>
    rw [unpackItems, if_pos hlt] at h
    simp only [hu, hn, if_neg hz, hr] at h
    cases h
    obtain ⟨m, hm, hl⟩ := ih hr
    exact ⟨n + m, by simp only [sizeItems, hn, hm], by omega⟩
  | case6 off hlt => rw [unpackItems, if_neg hlt] at h; cases h; exact ⟨0, rfl, by omega⟩

/-- Decoding gives objects. -/
def GivesObj (it : Attr) : Prop := ∀ buff off u, it.unpack buff off = .ok u → ∃ c vs, u = .obj c vs

theorem givesObj_struct {cls fields init} : GivesObj (structAttr cls fields init) := by
  intro buff off u h
  simp only [structAttr] at h
  split at h
  · cases h
  · cases h; exact ⟨_, _, rfl⟩

theorem givesObj_variant {proto ref tr pick subs} : GivesObj (variantAttr proto ref tr pick subs) := by
  intro buff off u h
  simp only [variantAttr, variantUnpack] at h
  repeat' split at h
  all_goals first | (cases h; done) | (cases h; exact ⟨_, _, rfl⟩)

theorem unpackItems_objs {it : Attr} (ho : GivesObj it) {buff : Bytes} : ∀ {off : Nat} {xs : List Val}, unpackItems it buff off = .ok xs →
    ∀ x ∈ xs, ∃ c vs, x = .obj c vs := by
  intro off xs h
  induction off using unpackItems.induct it buff generalizing xs with
  | case1 off hlt e he => rw [unpackItems, if_pos hlt] at h; simp [he] at h
  | case2 off hlt u hu e he => rw [unpackItems, if_pos hlt] at h; simp [hu, he] at h
  | case3 off hlt u hu he => rw [unpackItems, if_pos hlt] at h; simp [hu, he] at h
  | case4 off hlt u hu n hn hz e he ih => rw [unpackItems, if_pos hlt] at h; simp [hu, hn, hz, he] at h
  | case5 off hlt u hu n hn hz r hr ih =>
    rw [unpackItems, if_pos hlt] at h
    simp only [hu, hn, if_neg hz, hr] at h
    cases h
    intro x hx
    rcases List.mem_cons.1 hx with rfl | hx
    · exact ho _ _ _ hu
    · exact ih hr x hx
  | case6 off hlt => rw [unpackItems, if_neg hlt] at h; cases h; simp

theorem addItems_objs {isItem : Val → Bool} : ∀ {xs ys : List Val}, (∀ x ∈ xs, ∃ c vs, x = .obj c vs) → addItems isItem xs = .ok ys → ys = xs
  | [], ys, _, h => by simp [addItems] at h; exact h
  | x :: xs, ys, ho, h => by
    obtain ⟨c, vs, rfl⟩ := ho x (by simp)
    simp only [addItems, addItem] at h
    by_cases hi : isItem (.obj c vs) = true
    · simp only [hi, if_true] at h
      cases hr : addItems isItem xs with
      | error e => simp [hr] at h
      | ok zs =>
        simp only [hr] at h
        cases h
        rw [addItems_objs (fun x hx => ho x (by simp [hx])) hr]
        rfl
    · simp [hi] at h

/-- A structure that ends in such a list covers the rest of the buffer. -/
theorem swallow {nm : String} {isItem : Val → Bool} {it : Attr} (ho : GivesObj it) {buff : Bytes} (hne : buff ≠ []) :
    ∀ {cs : Fields} {off : Nat} {vs : List Val} {e n : Nat}, (∀ p ∈ cs, ∀ v, p.2.size v = p.2.usize v) →
      unpackAttrs (cs ++ [(nm, listAttr isItem it)]) buff off = .ok (vs, e) →
      sizeAttrs (cs ++ [(nm, listAttr isItem it)]) vs = .ok n → buff.length ≤ off + n
  | [], off, vs, e, n, _, h, hs => by
    simp only [List.nil_append, unpackAttrs, unpackAttr, if_neg hne] at h
    simp only [listAttr] at h
    cases hu : unpackItems it buff off with
    | error e => simp [hu] at h
    | ok xs =>
      obtain ⟨m, hm, hl⟩ := unpackItems_reaches hu
      simp only [hu, hm] at h
      cases h
      simp only [List.nil_append, sizeAttrs, listAttr] at hs
      cases ha : addItems isItem xs with
      | error e => simp [ha] at hs
      | ok ys =>
        have := addItems_objs (unpackItems_objs ho hu) ha
        subst this
        simp only [ha, hm] at hs
        cases hs
        exact hl
  | (k, c) :: cs, off, vs, e, n, hsz, h, hs => by
    simp only [List.cons_append, unpackAttrs, unpackAttr, if_neg hne] at h
    cases hu : c.unpack buff off with
    | error e => simp [hu] at h
    | ok v =>
      cases hk : c.usize v with
      | error e => simp [hu, hk] at h
      | ok m =>
        simp only [hu, hk] at h
        cases hr : unpackAttrs (cs ++ [(nm, listAttr isItem it)]) buff (off + m) with
        | error e => simp [hr] at h
        | ok p =>
          obtain ⟨ws, e2⟩ := p
          simp only [hr] at h
          cases h
          have hc := hsz (k, c) (by simp) v
          simp only [hk] at hc
          simp only [List.cons_append, sizeAttrs, hc] at hs
          cases hq : sizeAttrs (cs ++ [(nm, listAttr isItem it)]) ws with
          | error e => simp [hq] at hs
          | ok q =>
            simp only [hq] at hs
            cases hs
            have := swallow ho hne (fun p hp => hsz p (by simp [hp])) hr hq
            omega

/-- A list of such structures decodes to at most one of them. -/
theorem unpackItems_swallow {cls : String} {cs : Fields} {nm : String} {isItem : Val → Bool} {it : Attr} {init : List Val}
    (ho : GivesObj it) (hsz : ∀ p ∈ cs, ∀ v, p.2.size v = p.2.usize v) {buff : Bytes} {off : Nat} {xs : List Val}
    (h : unpackItems (structAttr cls (cs ++ [(nm, listAttr isItem it)]) init) buff off = .ok xs) : xs.length ≤ 1 := by
  rw [unpackItems] at h
  split at h
  · rename_i hlt
    have hne : buff ≠ [] := by intro h0; simp [h0] at hlt
    cases hu : (structAttr cls (cs ++ [(nm, listAttr isItem it)]) init).unpack buff off with
    | error e => simp [hu] at h
    | ok u =>
      simp only [hu] at h
      simp only [structAttr] at hu
      cases hr : unpackAttrs (cs ++ [(nm, listAttr isItem it)]) buff off with
      | error e => simp [hr] at hu
      | ok p =>
        obtain ⟨vs, e⟩ := p
        simp only [hr] at hu
        cases hu
        cases hs : (structAttr cls (cs ++ [(nm, listAttr isItem it)]) init).usize (.obj cls vs) with
        | error e => simp [hs] at h
        | ok n =>
          have hl := swallow ho hne hsz hr (by simpa [structAttr] using hs)
          simp only [hs] at h
          by_cases hz : n = 0
          · simp [hz] at h
          · rw [if_neg hz, unpackItems, if_neg (by omega)] at h
            cases h
            simp
  · cases h; simp

/-- The last attribute of a decoded structure that ends in a list. -/
theorem unpackAttrs_lastList {nm : String} {isItem : Val → Bool} {it : Attr} {buff : Bytes} :
    ∀ {cs : Fields} {off : Nat} {vs : List Val} {e : Nat}, unpackAttrs (cs ++ [(nm, listAttr isItem it)]) buff off = .ok (vs, e) →
      ∃ us xs o, vs = us ++ [.list true xs] ∧ us.length = cs.length ∧ (xs = [] ∨ unpackItems it buff o = .ok xs)
  | [], off, vs, e, h => by
    simp only [List.nil_append, unpackAttrs, unpackAttr] at h
    by_cases hne : buff = []
    · simp only [hne, if_true] at h
      cases h
      exact ⟨[], [], 0, rfl, rfl, .inl rfl⟩
    · simp only [if_neg hne, listAttr] at h
      cases hu : unpackItems it buff off with
      | error e => simp [hu] at h
      | ok xs =>
        cases hm : sizeItems it xs with
        | error e => simp [hu, hm] at h
        | ok m =>
          simp only [hu, hm] at h
          cases h
          exact ⟨[], xs, off, rfl, rfl, .inr hu⟩
  | (k, c) :: cs, off, vs, e, h => by
    simp only [List.cons_append, unpackAttrs] at h
    cases hu : unpackAttr c buff off with
    | error e => simp [hu] at h
    | ok p =>
      obtain ⟨v, m⟩ := p
      simp only [hu] at h
      cases hr : unpackAttrs (cs ++ [(nm, listAttr isItem it)]) buff (off + m) with
      | error e => simp [hr] at h
      | ok p =>
        obtain ⟨ws, e2⟩ := p
        simp only [hr] at h
        cases h
        obtain ⟨us, xs, o, rfl, hl, hx⟩ := unpackAttrs_lastList hr
        exact ⟨v :: us, xs, o, rfl, by simp [hl], hx⟩

end Pyof
