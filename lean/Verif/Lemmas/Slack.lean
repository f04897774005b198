import Verif.Spec.History
import Verif.Lemmas.ThreadsMsg
/-!
# Assignments made by `pack()` do not matter, whatever is changed later

`Eqv a v w`: after any changes made to both, the class attribute `a` packs `v` and `w` to the same bytes.
-/
namespace Pyof.Threads

def Shape (v w : Val) : Prop := v = w ∨ (∃ c vs ws, v = .obj c vs ∧ w = .obj c ws) ∨ ∃ f xs ys, v = .list f xs ∧ w = .list f ys

/-- What can be seen of a value. -/
def Obs (a : Attr) (v w : Val) : Prop := a.pack v = a.pack w ∧ a.size v = a.size w ∧ Shape v w

theorem Obs.refl {a : Attr} (v : Val) : Obs a v v := ⟨rfl, rfl, Or.inl rfl⟩

def alters : List (Path × Change) → Val → Val
  | [], v => v
  | (p, c) :: es, v => alters es (alter v p c)

def Eqv (a : Attr) (v w : Val) : Prop := ∀ es, Obs a (alters es v) (alters es w)

theorem Eqv.obs {a : Attr} {v w : Val} (h : Eqv a v w) : Obs a v w := h []
theorem Eqv.alter {a : Attr} {v w : Val} (h : Eqv a v w) (p : Path) (c : Change) : Eqv a (alter v p c) (alter w p c) := fun es => h ((p, c) :: es)
theorem Eqv.refl {a : Attr} (v : Val) : Eqv a v v := fun _ => Obs.refl _
theorem Eqv.trans {a : Attr} {u v w : Val} (h : Eqv a u v) (h' : Eqv a v w) : Eqv a u w := by
  intro es
  obtain ⟨h1, h2, h3⟩ := h es
  obtain ⟨h4, h5, h6⟩ := h' es
  refine ⟨h1.trans h4, h2.trans h5, ?_⟩
  rcases h3 with h3 | ⟨c, vs, ws, h3, h3'⟩ | ⟨f, xs, ys, h3, h3'⟩
  · rw [h3]; exact h6
  · rcases h6 with h6 | ⟨c', vs', ws', h6, h6'⟩ | ⟨f, xs, ys, h6, h6'⟩
    · rw [← h6]; exact Or.inr (Or.inl ⟨c, vs, ws, h3, h3'⟩)
    · rw [h3'] at h6; cases h6; exact Or.inr (Or.inl ⟨c, vs, ws', h3, h6'⟩)
    · rw [h3'] at h6; cases h6
  · rcases h6 with h6 | ⟨c', vs', ws', h6, h6'⟩ | ⟨f', xs', ys', h6, h6'⟩
    · rw [← h6]; exact Or.inr (Or.inr ⟨f, xs, ys, h3, h3'⟩)
    · rw [h3'] at h6; cases h6
    · rw [h3'] at h6; cases h6; exact Or.inr (Or.inr ⟨f, xs, ys', h3, h6'⟩)

/-- A relation that is preserved by changes. -/
theorem bisim {a : Attr} {S : Val → Val → Prop} (obs : ∀ v w, S v w → Obs a v w)
    (step : ∀ v w p c, S v w → S (alter v p c) (alter w p c) ∨ alter v p c = alter w p c) {v w : Val} (h : S v w) : Eqv a v w := by
  intro es
  induction es generalizing v w with
  | nil => exact obs v w h
  | cons e es ih =>
    obtain ⟨p, c⟩ := e
    rcases step v w p c h with h | h
    · exact ih h
    · simp only [alters, h]; exact Obs.refl _

/-- The law: what packing assigns does not matter. -/
def Slack (a : PAttr) : Prop := ∀ v D, Allowed (a.writes v) D → Eqv a.attr v (over v D)

theorem over_leaf {v : Val} {D : Done} (h : ∀ q x, D q ≠ some x) : over v D = v := by
  refine over_id v D fun q => ?_
  cases hq : D q with
  | none => rfl
  | some x => exact absurd hq (h q x)

theorem slack_leaf (a : Attr) : Slack (leafP a) := by
  intro v D h
  rw [over_leaf fun q x hq => h q x hq]
  exact Eqv.refl _

def IsLeaf (a : PAttr) : Prop := (∃ b, a = leafP b) ∧ a.attr.post = id

/-! ## Attributes of an object -/

/-- The attributes agree but for those in `slots`. -/
def Agree (fs : PFields) (slots : Nat → Prop) (vs ws : List Val) : Prop :=
  vs.length = ws.length ∧ ∀ (j : Nat) v w, vs[j]? = some v → ws[j]? = some w → ¬ slots j →
    v = w ∨ ∃ f, fs[j]? = some f ∧ ¬ IsLeaf f.2 ∧ Eqv f.2.attr v w

theorem Agree.modify {fs : PFields} {slots : Nat → Prop} {vs ws : List Val} (h : Agree fs slots vs ws) (i : Nat) (p : Path) (c : Change) :
    Agree fs slots (vs.modify i fun v => alter v p c) (ws.modify i fun v => alter v p c) := by
  refine ⟨by simp [h.1], ?_⟩
  intro j v w hv hw hj
  rw [List.getElem?_modify] at hv hw
  cases hv' : vs[j]? with
  | none => rw [hv'] at hv; cases hv
  | some v' =>
    cases hw' : ws[j]? with
    | none => rw [hw'] at hw; cases hw
    | some w' =>
      rw [hv'] at hv; rw [hw'] at hw
      have := h.2 j v' w' hv' hw' hj
      simp only [Option.map_eq_map, Option.map_some, Option.some.injEq] at hv hw
      by_cases e : i = j
      · simp only [e, if_true] at hv hw
        subst hv; subst hw
        rcases this with rfl | ⟨f, h1, h2, h3⟩
        · exact Or.inl rfl
        · exact Or.inr ⟨f, h1, h2, h3.alter p c⟩
      · simp only [e, if_false, id_eq] at hv hw
        subst hv; subst hw
        exact this

theorem Agree.trans {fs : PFields} {slots : Nat → Prop} {us vs ws : List Val} (h : Agree fs slots us vs) (h' : Agree fs slots vs ws) :
    Agree fs slots us ws := by
  refine ⟨h.1.trans h'.1, ?_⟩
  intro j u w hu hw hj
  have hl : j < vs.length := by rw [← h.1]; exact (List.getElem?_eq_some_iff.1 hu).1
  have hv : vs[j]? = some vs[j] := List.getElem?_eq_getElem hl
  rcases h.2 j u _ hu hv hj with h1 | ⟨f, h1, h2, h3⟩
  · rw [h1]; exact h'.2 j _ w hv hw hj
  · rcases h'.2 j _ w hv hw hj with h4 | ⟨f', h4, h5, h6⟩
    · rw [← h4]; exact Or.inr ⟨f, h1, h2, h3⟩
    · rw [h1] at h4; cases h4; exact Or.inr ⟨f, h1, h2, h3.trans h6⟩

/-- The attributes after what packing assigns. -/
theorem agree_own {fs : PFields} (hs : ∀ f ∈ fs, Slack f.2) {slots : Nat → Prop} {vs : List Val} {D : Done}
    (h : ∀ j q x, D (j :: q) = some x → slots j ∨ fieldWrites fs vs (j :: q) x) : Agree fs slots vs (overs vs D 0) := by
  refine ⟨(overs_length _ _ _).symm, ?_⟩
  intro j v w hv hw hj
  rw [overs_getElem?, hv] at hw
  simp only [Option.map_some, Option.some.injEq, Nat.zero_add] at hw
  have hD : ∀ q x, D (j :: q) = some x → fieldWrites fs vs (j :: q) x := fun q x hq => (h j q x hq).resolve_left hj
  cases hf : fs[j]? with
  | none =>
    left
    rw [← hw, over_leaf]
    intro q x hq
    obtain ⟨f, _, h1, _⟩ := hD q x hq
    rw [hf] at h1; cases h1
  | some f =>
    have hA : Allowed (f.2.writes v) (fun q => D (j :: q)) := by
      intro q x hq
      obtain ⟨f', v', h1, h2, h3⟩ := hD q x hq
      rw [hf] at h1; rw [hv] at h2; cases h1; cases h2; exact h3
    by_cases hl : IsLeaf f.2
    · left
      obtain ⟨⟨b, hb⟩, _⟩ := hl
      rw [← hw, over_leaf]
      intro q x hq
      have := hA q x hq
      rw [hb] at this; exact this
    · right
      exact ⟨f, rfl, hl, by rw [← hw]; exact hs f (List.mem_of_getElem? hf) v _ hA⟩

theorem packAttrs_congr : ∀ (fs : Fields) (vs ws : List Val), vs.length = ws.length →
    (∀ (j : Nat) f v w, fs[j]? = some f → vs[j]? = some v → ws[j]? = some w → f.2.pack v = f.2.pack w) → packAttrs fs vs = packAttrs fs ws
  | [], _, _, _, _ => by simp [packAttrs]
  | (n, a) :: fs, [], ws, hl, h => by
    cases ws with
    | nil => rfl
    | cons w ws => simp at hl
  | (n, a) :: fs, v :: vs, [], hl, h => by simp at hl
  | (n, a) :: fs, v :: vs, w :: ws, hl, h => by
    have h0 := h 0 (n, a) v w rfl rfl rfl
    have ih := packAttrs_congr fs vs ws (by simpa using hl) (fun j f v w h1 h2 h3 => h (j + 1) f v w (by simpa using h1) (by simpa using h2) (by simpa using h3))
    simp only at h0
    simp only [packAttrs, h0, ih]

theorem sizeAttrs_congr : ∀ (fs : Fields) (vs ws : List Val), vs.length = ws.length →
    (∀ (j : Nat) f v w, fs[j]? = some f → vs[j]? = some v → ws[j]? = some w → f.2.size v = f.2.size w) → sizeAttrs fs vs = sizeAttrs fs ws
  | [], _, _, _, _ => by simp [sizeAttrs]
  | (n, a) :: fs, [], ws, hl, h => by
    cases ws with
    | nil => rfl
    | cons w ws => simp at hl
  | (n, a) :: fs, v :: vs, [], hl, h => by simp at hl
  | (n, a) :: fs, v :: vs, w :: ws, hl, h => by
    have h0 := h 0 (n, a) v w rfl rfl rfl
    have ih := sizeAttrs_congr fs vs ws (by simpa using hl) (fun j f v w h1 h2 h3 => h (j + 1) f v w (by simpa using h1) (by simpa using h2) (by simpa using h3))
    simp only at h0
    simp only [sizeAttrs, h0, ih]

theorem fields_some {fs : PFields} {j : Nat} {f : String × Attr} (h : fs.fields[j]? = some f) : ∃ g, fs[j]? = some g ∧ f = (g.1, g.2.attr) := by
  simp only [PFields.fields, List.getElem?_map, Option.map_eq_some_iff] at h
  obtain ⟨g, h1, h2⟩ := h
  exact ⟨g, h1, h2.symm⟩

theorem Agree.attr {fs : PFields} {slots : Nat → Prop} {vs ws : List Val} (h : Agree fs slots vs ws) {j : Nat} {g : String × PAttr} {v w : Val}
    (hg : fs[j]? = some g) (hv : vs[j]? = some v) (hw : ws[j]? = some w) (hj : ¬ slots j) : Obs g.2.attr v w := by
  rcases h.2 j v w hv hw hj with rfl | ⟨f, h1, _, h3⟩
  · exact Obs.refl _
  · rw [hg] at h1; cases h1; exact h3.obs

theorem Agree.size {fs : PFields} {slots : Nat → Prop} {vs ws : List Val} (h : Agree fs slots vs ws) (hi : ∀ i, slots i → Slot fs i) :
    sizeAttrs fs.fields vs = sizeAttrs fs.fields ws := by
  refine sizeAttrs_congr _ _ _ h.1 ?_
  intro j f v w hf hv hw
  obtain ⟨g, hg, rfl⟩ := fields_some hf
  by_cases hj : slots j
  · obtain ⟨n, a, ha, hn⟩ := (hi j hj).leaf g hg
    simp only [ha, leafP, hn]
  · exact (h.attr hg hv hw hj).2.1

theorem Agree.pack {fs : PFields} {slots : Nat → Prop} {vs ws : List Val} (h : Agree fs slots vs ws) (h0 : ∀ j, ¬ slots j) :
    packAttrs fs.fields vs = packAttrs fs.fields ws := by
  refine packAttrs_congr _ _ _ h.1 ?_
  intro j f v w hf hv hw
  obtain ⟨g, hg, rfl⟩ := fields_some hf
  exact (h.attr hg hv hw (h0 j)).1

/-- Once the attribute `i` is the same, nothing else differs. -/
theorem Agree.set {fs : PFields} {i : Nat} {vs ws : List Val} (h : Agree fs (· = i) vs ws) (x : Val) :
    Agree fs (fun _ => False) (vs.set i x) (ws.set i x) := by
  refine ⟨by simp [h.1], ?_⟩
  intro j v w hv hw _
  by_cases e : i = j
  · subst e
    have h1 := (List.getElem?_eq_some_iff.1 hv).1
    have h2 := (List.getElem?_eq_some_iff.1 hw).1
    simp only [List.length_set] at h1 h2
    rw [List.getElem?_set_self h1] at hv
    rw [List.getElem?_set_self h2] at hw
    cases hv; cases hw; exact Or.inl rfl
  · rw [List.getElem?_set_ne e] at hv hw
    exact h.2 j v w hv hw (fun h => e h.symm)

/-! ## Classes -/

def SlackCls (k : PCls) : Prop := ∃ S : List Val → List Val → Prop,
  (∀ vs ws, S vs ws → k.pack vs = k.pack ws ∧ k.size vs = k.size ws) ∧
  (∀ vs ws i p c, S vs ws → S (vs.modify i fun v => alter v p c) (ws.modify i fun v => alter v p c)) ∧
  ∀ vs D, Allowed (k.writes vs) D → D [] = none ∧ S vs (overs vs D 0)

theorem allowed_root {s : Path → Val → Prop} (h0 : ∀ x, ¬ s [] x) {D : Done} (hD : Allowed s D) : D [] = none := by
  cases h : D [] with
  | none => rfl
  | some x => exact absurd (hD _ _ h) (h0 x)

theorem slack_plain (name : String) {fs : PFields} (hs : ∀ f ∈ fs, Slack f.2) : SlackCls (plainCls name fs) :=
  ⟨Agree fs (fun _ => False), fun _ _ h => ⟨h.pack (fun _ h => h), h.size (fun _ h => h.elim)⟩, fun _ _ _ _ _ h => h.modify _ _ _,
    fun _ _ hD => ⟨allowed_root (fun _ h => h) hD, agree_own hs fun _ _ _ hq => Or.inr (hD _ _ hq)⟩⟩

theorem Agree.auto {fs : PFields} {i : Nat} {vs ws : List Val} (h : Agree fs (· = i) vs ws) (hi : Slot fs i) :
    autoPack fs.fields i vs = autoPack fs.fields i ws ∧ sizeAttrs fs.fields vs = sizeAttrs fs.fields ws := by
  have hz := h.size (by rintro _ rfl; exact hi)
  refine ⟨?_, hz⟩
  simp only [autoPack, withLength, hz]
  cases sizeAttrs fs.fields ws with
  | error e => rfl
  | ok n => exact (h.set _).pack (fun _ h => h)

theorem auto_own {name : String} {fs : PFields} {i : Nat} (hs : ∀ f ∈ fs, Slack f.2) {vs : List Val} {D : Done}
    (hD : Allowed ((autoCls name fs i).writes vs) D) : D [] = none ∧ Agree fs (· = i) vs (overs vs D 0) := by
  refine ⟨allowed_root (auto_root vs) hD, agree_own hs ?_⟩
  intro j q x hq
  rcases hD _ _ hq with ⟨h1, _⟩ | h
  · cases h1; exact Or.inl rfl
  · exact Or.inr h

theorem slack_auto {name : String} {fs : PFields} {i : Nat} (hs : ∀ f ∈ fs, Slack f.2) (hi : Slot fs i) : SlackCls (autoCls name fs i) :=
  ⟨Agree fs (· = i), fun _ _ h => h.auto hi, fun _ _ _ _ _ h => h.modify _ _ _, fun _ _ hD => auto_own hs hD⟩

theorem slack_oneOf {a : Attr} {cs : List PCls} (hs : ∀ k ∈ cs, SlackCls k)
    (ha : ∀ k ∈ cs, ∀ vs, cs.find? (fun k' => k'.name == k.name) = some k → a.pack (.obj k.name vs) = k.pack vs ∧ a.size (.obj k.name vs) = k.size vs) :
    Slack (oneOf a cs) := by
  intro v D hD
  by_cases hv : ∃ c vs k, v = .obj c vs ∧ cs.find? (fun k => k.name == c) = some k
  · obtain ⟨c, vs, k, rfl, hk⟩ := hv
    have hm := List.mem_of_find?_eq_some hk
    have hn : k.name = c := by simpa using List.find?_some hk
    subst hn
    obtain ⟨S, h1, h2, h3⟩ := hs k hm
    have hD' : Allowed (k.writes vs) D := by
      intro q x hq
      have := hD q x hq
      simpa only [oneOf, hk] using this
    obtain ⟨h4, h5⟩ := h3 vs D hD'
    rw [over_obj h4]
    refine bisim (S := fun v w => ∃ vs ws, v = .obj k.name vs ∧ w = .obj k.name ws ∧ S vs ws) ?_ ?_ ⟨_, _, rfl, rfl, h5⟩
    · rintro _ _ ⟨vs, ws, rfl, rfl, h⟩
      obtain ⟨h6, h7⟩ := h1 vs ws h
      refine ⟨?_, ?_, Or.inr (Or.inl ⟨_, _, _, rfl, rfl⟩)⟩
      · show a.pack _ = a.pack _
        rw [(ha k hm vs hk).1, (ha k hm ws hk).1, h6]
      · show a.size _ = a.size _
        rw [(ha k hm vs hk).2, (ha k hm ws hk).2, h7]
    · rintro _ _ p c ⟨vs, ws, rfl, rfl, h⟩
      cases p with
      | nil =>
        cases c with
        | assign x => exact Or.inr rfl
        | items t => exact Or.inl ⟨_, _, rfl, rfl, h⟩
      | cons i p => exact Or.inl ⟨_, _, rfl, rfl, h2 _ _ i p c h⟩
  · have : over v D = v := by
      refine over_leaf fun q x hq => ?_
      have hx := hD q x hq
      apply hv
      cases v <;> simp only [oneOf] at hx
      case obj c vs =>
        cases hk : cs.find? (fun k => k.name == c) with
        | none => rw [hk] at hx; exact hx.elim
        | some k => exact ⟨c, vs, k, rfl, hk⟩
    rw [this]
    exact Eqv.refl _

/-! ## Lists -/

/-- Lists whose items, or the items of lists in them, agree. -/
inductive LR (it : Attr) : Val → Val → Prop
  | eq (v : Val) : LR it v v
  | item {v w : Val} : (∀ f xs, v ≠ .list f xs) → (∀ f xs, w ≠ .list f xs) → Eqv it v w → LR it v w
  | list {f : Bool} {xs ys : List Val} : xs.length = ys.length → (∀ (j : Nat) x y, xs[j]? = some x → ys[j]? = some y → LR it x y) →
      LR it (.list f xs) (.list f ys)

theorem rearrange_rel {R : Val → Val → Prop} (hr : ∀ v, R v v) {xs ys : List Val} (hl : xs.length = ys.length)
    (h : ∀ (j : Nat) x y, xs[j]? = some x → ys[j]? = some y → R x y) : ∀ (t : List Item),
    (rearrange xs t).length = (rearrange ys t).length ∧
      ∀ (j : Nat) x y, (rearrange xs t)[j]? = some x → (rearrange ys t)[j]? = some y → R x y
  | [] => ⟨rfl, fun j x y hx => by simp [rearrange] at hx⟩
  | .new z :: t => by
    obtain ⟨h1, h2⟩ := rearrange_rel hr hl h t
    refine ⟨by simpa [rearrange] using h1, ?_⟩
    intro j x y hx hy
    simp only [rearrange, List.filterMap_cons] at hx hy
    cases j with
    | zero => simp at hx hy; subst hx; subst hy; exact hr _
    | succ j => exact h2 j x y (by simpa [rearrange] using hx) (by simpa [rearrange] using hy)
  | .old i :: t => by
    obtain ⟨h1, h2⟩ := rearrange_rel hr hl h t
    cases hx' : xs[i]? with
    | none =>
      have hy' : ys[i]? = none := by
        rw [List.getElem?_eq_none_iff] at hx' ⊢; omega
      refine ⟨by simpa [rearrange, hx', hy'] using h1, ?_⟩
      intro j x y hx hy
      exact h2 j x y (by simpa [rearrange, hx'] using hx) (by simpa [rearrange, hy'] using hy)
    | some a =>
      have hlt : i < ys.length := by rw [← hl]; exact (List.getElem?_eq_some_iff.1 hx').1
      have hy' : ys[i]? = some ys[i] := List.getElem?_eq_getElem hlt
      refine ⟨by simpa [rearrange, hx', hy'] using h1, ?_⟩
      intro j x y hx hy
      simp only [rearrange, List.filterMap_cons, hx', hy'] at hx hy
      cases j with
      | zero => simp at hx hy; subst hx; subst hy; exact h i _ _ hx' hy'
      | succ j => exact h2 j x y (by simpa [rearrange] using hx) (by simpa [rearrange] using hy)

theorem modify_rel {R : Val → Val → Prop} {xs ys : List Val} {i : Nat} {g : Val → Val}
    (h : ∀ (j : Nat) x y, xs[j]? = some x → ys[j]? = some y → R x y ∧ R (g x) (g y)) :
    ∀ (j : Nat) x y, (xs.modify i g)[j]? = some x → (ys.modify i g)[j]? = some y → R x y := by
  intro j x y hx hy
  rw [List.getElem?_modify] at hx hy
  cases hx' : xs[j]? with
  | none => rw [hx'] at hx; cases hx
  | some x' =>
    cases hy' : ys[j]? with
    | none => rw [hy'] at hy; cases hy
    | some y' =>
      rw [hx'] at hx; rw [hy'] at hy
      simp only [Option.map_eq_map, Option.map_some, Option.some.injEq] at hx hy
      have := h j x' y' hx' hy'
      by_cases e : i = j
      · simp only [e, if_true] at hx hy
        subst hx; subst hy; exact this.2
      · simp only [e, if_false, id_eq] at hx hy
        subst hx; subst hy; exact this.1

theorem alter_notList {v : Val} (hv : ∀ f xs, v ≠ .list f xs) (i : Nat) (p : Path) (c : Change) : ∀ f xs, alter v (i :: p) c ≠ .list f xs := by
  intro f xs h
  cases v <;> first | exact hv _ _ rfl | (simp only [alter] at h; cases h)

theorem LR.alter {it : Attr} {v w : Val} (h : LR it v w) : ∀ p c, LR it (Threads.alter v p c) (Threads.alter w p c) := by
  induction h with
  | eq v => intro p c; exact .eq _
  | item h1 h2 h3 =>
    intro p c
    cases p with
    | nil =>
      cases c with
      | assign x => exact .eq _
      | items t =>
        rename_i v w
        have e : ∀ {u : Val}, (∀ f xs, u ≠ .list f xs) → Threads.alter u [] (.items t) = u := by
          intro u hu
          cases u <;> first | rfl | exact absurd rfl (hu _ _)
        rw [e h1, e h2]; exact .item h1 h2 h3
    | cons i p => exact .item (alter_notList h1 i p c) (alter_notList h2 i p c) (h3.alter _ _)
  | @list f xs ys hl h ih =>
    intro p c
    cases p with
    | nil =>
      cases c with
      | assign x => exact .eq _
      | items t =>
        obtain ⟨h1, h2⟩ := rearrange_rel (R := LR it) .eq hl h t
        exact .list h1 h2
    | cons i p => exact .list (by simp [hl]) (modify_rel fun j x y hx hy => ⟨h j x y hx hy, ih j x y hx hy p c⟩)

theorem Shape.isItem {isItem : Val → Bool} (hc : ClassOnly isItem) {v w : Val} (h : Shape v w) (hv : ∀ f xs, v ≠ .list f xs) : isItem v = isItem w := by
  rcases h with rfl | ⟨c, vs, ws, rfl, rfl⟩ | ⟨f, xs, ys, rfl, _⟩
  · rfl
  · exact hc.1 c vs ws
  · exact absurd rfl (hv _ _)

inductive Pairs (R : Val → Val → Prop) : List Val → List Val → Prop
  | nil : Pairs R [] []
  | cons {x y : Val} {xs ys : List Val} : R x y → Pairs R xs ys → Pairs R (x :: xs) (y :: ys)

theorem Pairs.append {R : Val → Val → Prop} {xs ys us vs : List Val} (h : Pairs R xs ys) (h' : Pairs R us vs) : Pairs R (xs ++ us) (ys ++ vs) := by
  induction h with
  | nil => exact h'
  | cons h1 _ ih => exact .cons h1 ih

/-- Items that pack alike. -/
def SameItem (it : Attr) (v w : Val) : Prop := it.pack v = it.pack w ∧ it.usize v = it.usize w

theorem Pairs.pack {it : Attr} {xs ys : List Val} (h : Pairs (SameItem it) xs ys) :
    packItems it xs = packItems it ys ∧ sizeItems it xs = sizeItems it ys := by
  induction h with
  | nil => exact ⟨rfl, rfl⟩
  | cons h1 _ ih => simp only [packItems, sizeItems, h1.1, h1.2, ih.1, ih.2, and_self]

def SameItems (it : Attr) (r s : Res (List Val)) : Prop := (∃ e, r = .error e ∧ s = .error e) ∨ ∃ xs ys, r = .ok xs ∧ s = .ok ys ∧ Pairs (SameItem it) xs ys

theorem addItems_same {isItem : Val → Bool} {it : Attr} : ∀ {xs ys : List Val}, xs.length = ys.length →
    (∀ (j : Nat) x y, xs[j]? = some x → ys[j]? = some y → SameItems it (addItem isItem x) (addItem isItem y)) →
    SameItems it (addItems isItem xs) (addItems isItem ys)
  | [], [], _, _ => by simp only [addItems]; exact Or.inr ⟨[], [], rfl, rfl, .nil⟩
  | [], _ :: _, hl, _ => by simp at hl
  | _ :: _, [], hl, _ => by simp at hl
  | x :: xs, y :: ys, hl, h => by
    have ih := addItems_same (xs := xs) (ys := ys) (by simpa using hl) (fun j a b ha hb => h (j + 1) a b (by simpa using ha) (by simpa using hb))
    simp only [addItems]
    rcases h 0 x y rfl rfl with ⟨e, h1, h2⟩ | ⟨us, vs, h1, h2, h3⟩
    · simp only [h1, h2]; exact Or.inl ⟨e, rfl, rfl⟩
    · simp only [h1, h2]
      rcases ih with ⟨e, h4, h5⟩ | ⟨us', vs', h4, h5, h6⟩
      · simp only [h4, h5]; exact Or.inl ⟨e, rfl, rfl⟩
      · simp only [h4, h5]; exact Or.inr ⟨_, _, rfl, rfl, h3.append h6⟩

theorem SameItems.refl {it : Attr} (r : Res (List Val)) : SameItems it r r := by
  cases r with
  | error e => exact Or.inl ⟨e, rfl, rfl⟩
  | ok xs =>
    refine Or.inr ⟨xs, xs, rfl, rfl, ?_⟩
    induction xs with
    | nil => exact .nil
    | cons x xs ih => exact .cons ⟨rfl, rfl⟩ ih

theorem sameItem_of {isItem : Val → Bool} (hc : ClassOnly isItem) {it : Attr} (hu : ∀ c vs, it.usize (.obj c vs) = it.size (.obj c vs)) {v w : Val}
    (h : Obs it v w) (hi : isItem v = true) : SameItem it v w := by
  obtain ⟨c, vs, rfl⟩ := hc.2 v hi
  rcases h.2.2 with h3 | ⟨c', us, ws, h3, h4⟩ | ⟨_, _, _, h3, _⟩
  · subst h3; exact ⟨rfl, rfl⟩
  · cases h3; subst h4
    exact ⟨h.1, by rw [hu, hu]; exact h.2.1⟩
  · cases h3

theorem LR.add {isItem : Val → Bool} (hc : ClassOnly isItem) {it : Attr} (hu : ∀ c vs, it.usize (.obj c vs) = it.size (.obj c vs)) {v w : Val}
    (h : LR it v w) : SameItems it (addItem isItem v) (addItem isItem w) := by
  induction h with
  | eq v => exact .refl _
  | @item v w h1 h2 h3 =>
    have e : ∀ {u : Val}, (∀ f xs, u ≠ .list f xs) → addItem isItem u = if isItem u then .ok [u] else .error .wrongItem := by
      intro u hu
      cases u <;> first | exact absurd rfl (hu _ _) | simp only [addItem]
    rw [e h1, e h2, ← Shape.isItem hc h3.obs.2.2 h1]
    cases hi : isItem v with
    | false => exact Or.inl ⟨_, rfl, rfl⟩
    | true => exact Or.inr ⟨_, _, rfl, rfl, .cons (sameItem_of hc hu h3.obs hi) .nil⟩
  | list hl _ ih =>
    simp only [addItem]
    exact addItems_same hl ih

theorem LR.obs {isItem : Val → Bool} (hc : ClassOnly isItem) {it : Attr} (hu : ∀ c vs, it.usize (.obj c vs) = it.size (.obj c vs)) {v w : Val}
    (h : LR it v w) : Obs (listAttr isItem it) v w := by
  cases h with
  | eq => exact Obs.refl _
  | item h1 h2 h3 =>
    rcases h3.obs.2.2 with rfl | ⟨c, vs, ws, rfl, rfl⟩ | ⟨f, xs, ys, rfl, _⟩
    · exact Obs.refl _
    · refine ⟨rfl, ?_, Or.inr (Or.inl ⟨_, _, _, rfl, rfl⟩)⟩
      have hs := hc.1 c vs ws
      show (if pyTrue (.obj c vs) then (if isItem (.obj c vs) then it.usize (.obj c vs) else .error .wrongItem) else .ok 0) =
        (if pyTrue (.obj c ws) then (if isItem (.obj c ws) then it.usize (.obj c ws) else .error .wrongItem) else .ok 0)
      rw [← hs, hu, hu, h3.obs.2.1]
      rfl
    · exact absurd rfl (h1 _ _)
  | @list f xs ys hl h =>
    have := LR.add hc hu (LR.list (f := f) hl h)
    simp only [addItem] at this
    refine ⟨?_, ?_, Or.inr (Or.inr ⟨_, _, _, rfl, rfl⟩)⟩ <;>
    · simp only [listAttr]
      rcases this with ⟨e, h1, h2⟩ | ⟨us, vs, h1, h2, h3⟩
      · rw [h1, h2]
      · rw [h1, h2]; first | exact h3.pack.1 | exact h3.pack.2

theorem lr_item {it : PAttr} (hs : Slack it) (hr : ∀ v x, ¬ it.writes v [] x) {v : Val} (hv : ∀ f xs, v ≠ .list f xs) {D : Done}
    (hD : Allowed (fun q x => listWrites it q v x) D) : LR it.attr v (over v D) := by
  have hA : Allowed (it.writes v) D := fun q x hq => (listWrites_item hv q x).1 (hD q x hq)
  have h0 := allowed_root (hr v) hA
  refine .item hv ?_ (hs v D hA)
  intro f xs h
  cases v <;> first | exact hv _ _ rfl | (simp only [over, h0] at h; cases h)

mutual
theorem lr_own {it : PAttr} (hs : Slack it) (hr : ∀ v x, ¬ it.writes v [] x) : ∀ (v : Val) (D : Done),
    Allowed (fun q x => listWrites it q v x) D → LR it.attr v (over v D)
  | .list f xs, D, hD => by
    have h0 : D [] = none := allowed_root (fun x h => by simp only [listWrites] at h) hD
    simp only [over, h0]
    refine .list (overs_length _ _ _).symm (lrs_own hs hr xs D 0 fun j q x hq => ?_)
    rw [Nat.zero_add] at hq
    have := hD _ _ hq
    simp only [listWrites] at this
    exact this
  | .none, D, hD
  | .int _, D, hD
  | .enum _, D, hD
  | .mask _, D, hD
  | .str _, D, hD
  | .bytes _, D, hD
  | .ub _ _, D, hD
  | .hw _, D, hD
  | .ip _ _, D, hD
  | .ip6 _ _, D, hD
  | .dpid _, D, hD
  | .chr _ _, D, hD
  | .bin _, D, hD
  | .pad _, D, hD
  | .obj _ _, D, hD
  | .foreign _ _, D, hD => lr_item hs hr (by intro _ _ h; cases h) hD
theorem lrs_own {it : PAttr} (hs : Slack it) (hr : ∀ v x, ¬ it.writes v [] x) : ∀ (xs : List Val) (D : Done) (n : Nat),
    (∀ (j : Nat) q x, D ((n + j) :: q) = some x → ∃ y, xs[j]? = some y ∧ listWrites it q y x) →
    ∀ (j : Nat) x y, xs[j]? = some x → (overs xs D n)[j]? = some y → LR it.attr x y
  | [], _, _, _, j, x, y, hx, _ => by simp at hx
  | u :: xs, D, n, hD, 0, x, y, hx, hy => by
    simp only [overs, List.getElem?_cons_zero, Option.some.injEq] at hx hy
    subst hx; subst hy
    refine lr_own hs hr u _ fun q x hq => ?_
    obtain ⟨y, h1, h2⟩ := hD 0 q x (by simpa using hq)
    cases h1; exact h2
  | u :: xs, D, n, hD, j + 1, x, y, hx, hy => by
    simp only [overs, List.getElem?_cons_succ] at hx hy
    refine lrs_own hs hr xs D (n + 1) (fun j q x hq => ?_) j x y hx hy
    have := hD (j + 1) q x (by rw [show n + (j + 1) = n + 1 + j by omega]; exact hq)
    simpa using this
end

theorem slack_list {isItem : Val → Bool} (hc : ClassOnly isItem) {it : PAttr} (hs : Slack it) (hr : ∀ v x, ¬ it.writes v [] x)
    (hu : ∀ c vs, it.attr.usize (.obj c vs) = it.attr.size (.obj c vs)) : Slack (listP isItem it) := by
  intro v D hD
  exact bisim (S := LR it.attr) (fun _ _ h => h.obs hc hu) (fun _ _ p c h => Or.inl (h.alter p c)) (lr_own hs hr v D hD)

/-- Lists of type `FixedTypeList` whose items agree. -/
def BR (it : Attr) (v w : Val) : Prop := v = w ∨ ∃ f xs ys, v = .list f xs ∧ w = .list f ys ∧ xs.length = ys.length ∧
  ∀ (j : Nat) x y, xs[j]? = some x → ys[j]? = some y → Eqv it x y

theorem packItems_same {it : Attr} : ∀ {xs ys : List Val}, xs.length = ys.length →
    (∀ (j : Nat) x y, xs[j]? = some x → ys[j]? = some y → it.pack x = it.pack y) → packItems it xs = packItems it ys
  | [], [], _, _ => rfl
  | [], _ :: _, hl, _ => by simp at hl
  | _ :: _, [], hl, _ => by simp at hl
  | x :: xs, y :: ys, hl, h => by
    have ih := packItems_same (xs := xs) (ys := ys) (by simpa using hl) (fun j a b ha hb => h (j + 1) a b (by simpa using ha) (by simpa using hb))
    simp only [packItems, h 0 x y rfl rfl, ih]

theorem slack_bare {isItem : Val → Bool} {it : PAttr} (hs : Slack it) : Slack (bareListP isItem it) := by
  intro v D hD
  refine bisim (S := BR it.attr) ?_ ?_ ?_
  · rintro v w (rfl | ⟨f, xs, ys, rfl, rfl, hl, h⟩)
    · exact Obs.refl _
    · refine ⟨?_, rfl, Or.inr (Or.inr ⟨_, _, _, rfl, rfl⟩)⟩
      cases f with
      | false => rfl
      | true => exact packItems_same hl fun j x y hx hy => (h j x y hx hy).obs.1
  · rintro v w p c (rfl | ⟨f, xs, ys, rfl, rfl, hl, h⟩)
    · exact Or.inr rfl
    · cases p with
      | nil =>
        cases c with
        | assign x => exact Or.inr rfl
        | items t =>
          obtain ⟨h1, h2⟩ := rearrange_rel (R := Eqv it.attr) Eqv.refl hl h t
          exact Or.inl (Or.inr ⟨f, _, _, rfl, rfl, h1, h2⟩)
      | cons i p =>
        exact Or.inl (Or.inr ⟨f, _, _, rfl, rfl, by simp [hl], modify_rel fun j x y hx hy => ⟨h j x y hx hy, (h j x y hx hy).alter p c⟩⟩)
  · by_cases hv : ∃ xs, v = .list true xs
    · obtain ⟨xs, rfl⟩ := hv
      have h0 : D [] = none := allowed_root (fun x h => h) hD
      right
      refine ⟨true, xs, overs xs D 0, rfl, by simp only [over, h0], (overs_length _ _ _).symm, ?_⟩
      intro j x y hx hy
      rw [overs_getElem?, hx] at hy
      simp only [Option.map_some, Option.some.injEq, Nat.zero_add] at hy
      rw [← hy]
      refine hs x _ fun q z hq => ?_
      obtain ⟨y', h1, h2⟩ := hD _ _ hq
      rw [hx] at h1; cases h1; exact h2
    · left
      rw [over_leaf]
      intro q x hq
      have := hD q x hq
      simp only [bareListP] at this
      split at this
      · exact hv ⟨_, rfl⟩
      · exact this

/-! ## The classes that assign attributes while packing -/

theorem slack_leaves (fs : Fields) : ∀ f ∈ leaves fs, Slack f.2 := by
  intro f hf
  obtain ⟨g, _, rfl⟩ := List.mem_map.1 hf
  exact slack_leaf g.2

theorem leaves_isLeaf {fs : Fields} (hi : ∀ f ∈ fs, f.2.post = id) {j : Nat} {f : String × PAttr} (h : (leaves fs)[j]? = some f) : IsLeaf f.2 := by
  obtain ⟨g, hg, rfl⟩ := List.mem_map.1 (List.mem_of_getElem? h)
  exact ⟨⟨_, rfl⟩, hi g hg⟩

theorem oxm_ids : ∀ f ∈ V04.oxmFields, f.2.post = id := by
  intro f hf
  simp only [V04.oxmFields, List.mem_cons, List.not_mem_nil, or_false] at hf
  rcases hf with rfl | rfl | rfl | rfl | rfl | rfl <;> rfl

theorem slack_leavesBut {special : List (String × PAttr)} (hs : ∀ a ∈ special, Slack a.2) (fs : Fields) : ∀ f ∈ leavesBut special fs, Slack f.2 := by
  intro f hf
  obtain ⟨g, _, rfl⟩ := List.mem_map.1 hf
  show Slack (match special.lookup g.1 with | some a => a | none => leafP g.2)
  cases h : special.lookup g.1 with
  | none => exact slack_leaf g.2
  | some a =>
    have : (g.1, a) ∈ special := by
      clear hs hf
      induction special with
      | nil => simp at h
      | cons b r ih =>
        obtain ⟨n, c⟩ := b
        simp only [List.lookup] at h
        split at h
        · rename_i he; simp at he; cases h; subst he; simp
        · exact List.mem_cons_of_mem _ (ih h)
    exact hs _ this

/-- Attributes that are leaves and no slots are equal. -/
theorem Agree.eq {fs : PFields} {slots : Nat → Prop} {vs ws : List Val} (h : Agree fs slots vs ws) {j : Nat} (hf : ∀ f, fs[j]? = some f → IsLeaf f.2)
    (hj : ¬ slots j) : vs[j]? = ws[j]? := by
  cases hv : vs[j]? with
  | none =>
    rw [List.getElem?_eq_none_iff, h.1] at hv
    exact (List.getElem?_eq_none_iff.2 hv).symm
  | some v =>
    have hl : j < ws.length := by rw [← h.1]; exact (List.getElem?_eq_some_iff.1 hv).1
    have hw : ws[j]? = some ws[j] := List.getElem?_eq_getElem hl
    rw [hw]
    rcases h.2 j v _ hv hw hj with h1 | ⟨f, h1, h2, _⟩
    · rw [h1]
    · exact absurd (hf f h1) h2

theorem oxm_obs {vs ws : List Val} (h : Agree (leaves V04.oxmFields) (fun j => j = 1 ∨ j = 2) vs ws) :
    V04.oxmPack vs = V04.oxmPack ws ∧ sizeAttrs V04.oxmFields vs = sizeAttrs V04.oxmFields ws := by
  · refine ⟨?_, ?_⟩
    · have e : ∀ j, j ≠ 1 → j ≠ 2 → vs[j]? = ws[j]? := fun j h1 h2 => h.eq (fun f => leaves_isLeaf oxm_ids) (by omega)
      show V04.oxmPack vs = V04.oxmPack ws
      have hp : V04.oxmPrep vs = V04.oxmPrep ws := by
        by_cases hl : vs.length = 6
        · have hl' := h.1
          rw [hl] at hl'
          match vs, ws, hl, hl'.symm with
          | [c, _, _, v, f, m], [c', _, _, v', f', m'], _, _ =>
            have h0 := e 0 (by decide) (by decide)
            have h3 := e 3 (by decide) (by decide)
            have h4 := e 4 (by decide) (by decide)
            have h5 := e 5 (by decide) (by decide)
            simp at h0 h3 h4 h5
            subst h0; subst h3; subst h4; subst h5
            rfl
        · have no : ∀ us : List Val, us.length ≠ 6 → V04.oxmPrep us = .error .unmodelled := by
            intro us hl
            match us, hl with
            | [], _ | [_], _ | [_, _], _ | [_, _, _], _ | [_, _, _, _], _ | [_, _, _, _, _], _ | _ :: _ :: _ :: _ :: _ :: _ :: _ :: _, _ => rfl
            | [_, _, _, _, _, _], h => exact absurd rfl h
          rw [no vs hl, no ws (by rw [← h.1]; exact hl)]
      simp only [V04.oxmPack, hp]
    · have := h.size (by
        rintro _ (rfl | rfl) <;> exact ⟨by intro f hf; cases hf; exact ⟨1, _, rfl, fun _ => rfl⟩⟩)
      rw [leaves_fields] at this
      exact this

theorem slack_oxmCls : SlackCls oxmCls := by
  refine ⟨Agree (leaves V04.oxmFields) (fun j => j = 1 ∨ j = 2), fun _ _ h => oxm_obs h, fun _ _ _ _ _ h => h.modify _ _ _, ?_⟩
  · intro vs D hD
    refine ⟨allowed_root (oxm_root vs) hD, agree_own (slack_leaves _) ?_⟩
    intro j q x hq
    by_cases h1 : j = 1
    · exact Or.inl (Or.inl h1)
    by_cases h2 : j = 2
    · exact Or.inl (Or.inr h2)
    exact absurd (hD _ _ hq) (oxm_other h1 h2)

theorem slack_oxm : Slack oxmP := by
  refine slack_oneOf (by intro k hk; simp at hk; subst hk; exact slack_oxmCls) ?_
  intro k hk vs _
  simp at hk; subst hk
  exact ⟨by simp [V04.oxm, oxmCls], by simp [V04.oxm, oxmCls]⟩

theorem slack_oxms : Slack oxmsP := slack_list (classOnly_obj _) slack_oxm (fun v x => safe_oxm.root v x) (fun _ _ => rfl)

theorem slack_matchFields : ∀ f ∈ matchFieldsP, Slack f.2 :=
  slack_leavesBut (by intro a ha; simp at ha; subst ha; exact slack_oxms) _

theorem match_obs {fs : PFields} (hf : fs.fields = V04.matchFields) (hi : Slot fs 1) {vs ws : List Val} (h : Agree fs (· = 1) vs ws) :
    V04.matchPack vs = V04.matchPack ws ∧ V04.matchSize vs = V04.matchSize ws := by
  have hz := h.size (by rintro _ rfl; exact hi)
  rw [hf] at hz
  refine ⟨?_, by simp only [V04.matchSize, hz]⟩
  simp only [V04.matchPack, withLength, hz]
  cases sizeAttrs V04.matchFields ws with
  | error e => rfl
  | ok n =>
    have h1 := (h.set (.int n)).pack (fun _ h => h)
    have h2 := (h.set (.int n)).size (fun _ h => h.elim)
    rw [hf] at h1 h2
    simp only [h1, h2]

theorem slack_matchCls : SlackCls matchCls :=
  ⟨Agree matchFieldsP (· = 1), fun _ _ h => match_obs matchFieldsP_fields slot_match h, fun _ _ _ _ _ h => h.modify _ _ _,
    fun _ _ hD => auto_own (name := "04.Match") slack_matchFields hD⟩

theorem slack_match : Slack matchP := by
  refine slack_oneOf (by intro k hk; simp at hk; subst hk; exact slack_matchCls) ?_
  intro k hk vs _
  simp at hk; subst hk
  exact ⟨by simp [V04.match, matchCls], by simp [V04.match, matchCls]⟩

theorem slack_actionCls (s : Sub) : SlackCls (actionCls s) :=
  ⟨(· = ·), fun _ _ h => by subst h; exact ⟨rfl, rfl⟩, fun _ _ _ _ _ h => by subst h; rfl, fun vs D hD => by
    refine ⟨allowed_root (fun _ h => h) hD, ?_⟩
    have := over_leaf (v := .obj "" vs) (D := D) (fun q x hq => hD q x hq)
    rw [over_obj (allowed_root (fun _ h => h) hD)] at this
    simp only [Val.obj.injEq, true_and] at this
    exact this.symm⟩

theorem slack_setFieldFields : ∀ f ∈ setFieldFieldsP, Slack f.2 :=
  slack_leavesBut (by intro a ha; simp at ha; subst ha; exact slack_oxm) _

theorem setFieldPrep_else {vs : List Val} (h : ∀ t l c us, vs ≠ [t, l, .obj c us]) : V04.setFieldPrep vs = .error .unmodelled := by
  unfold V04.setFieldPrep
  split
  · exact absurd rfl (h _ _ _ _)
  · rfl

theorem setField_obs {fs : PFields} (hf : fs.fields = V04.setFieldFields) (hi : Slot fs 1) {vs ws : List Val} (h : Agree fs (· = 1) vs ws) :
    V04.setFieldPack vs = V04.setFieldPack ws ∧ V04.actionSize V04.setFieldFields vs = V04.actionSize V04.setFieldFields ws := by
  · have hz := h.size (by rintro _ rfl; exact hi)
    rw [hf] at hz
    refine ⟨?_, by simp only [V04.actionSize, hz]⟩
    obtain ⟨g, hg, hg'⟩ := fields_some (fs := fs) (j := 2) (f := ("field", V04.oxm)) (by rw [hf]; rfl)
    have hx' : g.2.attr = V04.oxm := (congrArg Prod.snd hg').symm
    by_cases hv : ∃ t l c us, vs = [t, l, .obj c us]
    · obtain ⟨t, l, c, us, rfl⟩ := hv
      have hl := h.1
      match ws, hl, h with
      | [t', l', f'], _, h =>
        have h2 := h.attr (j := 2) hg rfl rfl (by decide)
        obtain ⟨us', rfl⟩ : ∃ us', f' = .obj c us' := by
          rcases h2.2.2 with h3 | ⟨c', a, b, h3, h4⟩ | ⟨_, _, _, h3, _⟩
          · exact ⟨us, h3.symm⟩
          · cases h3; exact ⟨b, h4⟩
          · cases h3
        have hx : V04.oxm.pack (.obj c us) = V04.oxm.pack (.obj c us') := by rw [← hx']; exact h2.1
        simp only [V04.setFieldPack, V04.setFieldPrep, hx]
        cases V04.oxm.pack (.obj c us') with
        | error e => rfl
        | ok p =>
          have h4 := (h.set (.int (ceil8 (4 + p.length)))).pack (fun _ h => h)
          rw [hf] at h4
          simp only [List.set] at h4
          simp only [h4]
          cases packAttrs V04.setFieldFields _ <;> rfl
    · have hw : ∀ t l c us, ws ≠ [t, l, .obj c us] := by
        rintro t l c us rfl
        have hl := h.1
        match vs, hl, h, hv with
        | [t', l', f'], _, h, hv =>
          have h2 := h.attr (j := 2) hg rfl rfl (by decide)
          apply hv
          rcases h2.2.2 with h3 | ⟨c', a, b, h3, h4⟩ | ⟨_, _, _, _, h3⟩
          · exact ⟨_, _, c, us, by rw [h3]⟩
          · cases h4; exact ⟨_, _, _, a, by rw [h3]⟩
          · cases h3
      simp only [V04.setFieldPack, setFieldPrep_else hw, setFieldPrep_else (vs := vs) (fun t l c us h => hv ⟨t, l, c, us, h⟩)]

theorem slack_setFieldCls : SlackCls setFieldCls := by
  refine ⟨Agree setFieldFieldsP (· = 1), fun _ _ h => setField_obs setFieldP_fields slot_setField h, fun _ _ _ _ _ h => h.modify _ _ _, ?_⟩
  · intro vs D hD
    refine ⟨allowed_root (setField_root vs) hD, agree_own slack_setFieldFields ?_⟩
    intro j q x hq
    have := hD _ _ hq
    simp only [setFieldCls] at this
    split at this
    · rcases this with ⟨h1, _⟩ | h
      · cases h1; exact Or.inl rfl
      · exact Or.inr h
    · exact this.elim

theorem slack_family {proto : Val} {ref : Ref} {trunc : Bool} {pick : Nat → Res Sub} {subs : List Sub} (g : Sub → PCls)
    (hn : ∀ s, (g s).name = s.name) (hs : ∀ s ∈ subs, SlackCls (g s))
    (hp : ∀ s ∈ subs, (g s).pack = s.pack ∧ (g s).size = s.size) :
    Slack (oneOf (variantAttr proto ref trunc pick subs) (subs.map g)) := by
  refine slack_oneOf (by intro k hk; obtain ⟨s, hs', rfl⟩ := List.mem_map.1 hk; exact hs s hs') ?_
  intro k _ vs hf
  rw [List.find?_map] at hf
  obtain ⟨s, h1, rfl⟩ := Option.map_eq_some_iff.1 hf
  have h2 : subOf subs (g s).name = some s := by
    rw [← h1]; unfold subOf; congr 1; funext s'; simp [hn]
  have h3 := hp s (List.mem_of_find?_eq_some h1)
  exact ⟨by simp [variantAttr, h2, h3.1], by simp [variantAttr, h2, h3.2]⟩

theorem slack_action : Slack actionP := by
  refine slack_family (fun s => if s.name = "04.ActionSetField" then setFieldCls else actionCls s) ?_ ?_ ?_
  · intro s
    by_cases h : s.name = "04.ActionSetField"
    · simp [h, setFieldCls]
    · simp [h, actionCls]
  · intro s _
    by_cases h : s.name = "04.ActionSetField"
    · simp [h, slack_setFieldCls]
    · simp only [h, if_false]; exact slack_actionCls s
  · intro s hs
    simp only [V04.actionSubs, V04.actionClasses, List.map_cons, List.map_nil, List.mem_cons, List.not_mem_nil, or_false] at hs
    rcases hs with rfl | rfl | rfl | rfl | rfl | rfl | rfl | rfl | rfl | rfl | rfl | rfl | rfl | rfl | rfl | rfl <;> exact ⟨rfl, rfl⟩

theorem slack_actions : Slack actionsP := slack_list (classOnly_sub _) slack_action (fun v x => safe_action.root v x) (fun _ _ => rfl)

theorem slot_instruction {s : Sub} (hs : s ∈ V04.instructionSubs) : Slot (leavesBut [("actions", actionsP)] s.fields) 1 := by
  refine ⟨?_⟩
  simp only [V04.instructionSubs, List.mem_cons, List.not_mem_nil, or_false] at hs
  rcases hs with rfl | rfl | rfl | rfl | rfl | rfl | rfl <;> (intro f hf; cases hf; exact ⟨2, _, rfl, fun _ => rfl⟩)

theorem pack_instruction {s : Sub} (hs : s ∈ V04.instructionSubs) : (autoCls s.name (leavesBut [("actions", actionsP)] s.fields) 1).pack = s.pack ∧
    (autoCls s.name (leavesBut [("actions", actionsP)] s.fields) 1).size = s.size := by
  simp only [V04.instructionSubs, List.mem_cons, List.not_mem_nil, or_false] at hs
  rcases hs with rfl | rfl | rfl | rfl | rfl | rfl | rfl <;> exact ⟨rfl, rfl⟩

theorem slack_instructions : Slack instructionsP := by
  refine slack_list (classOnly_sub _) ?_ ?_ (fun _ _ => rfl)
  · refine slack_family (fun s => autoCls s.name (leavesBut [("actions", actionsP)] s.fields) 1) (fun _ => rfl) ?_ (fun s hs => pack_instruction hs)
    intro s hs
    exact slack_auto (slack_leavesBut (by intro a ha; simp at ha; subst ha; exact slack_actions) _) (slot_instruction hs)
  · exact fun v x => (safe_family (fun s => autoCls s.name (leavesBut [("actions", actionsP)] s.fields) 1) (fun _ => rfl)
      (fun s hs => safe_auto (safe_leavesBut (by intro a ha; simp at ha; subst ha; exact safe_actions) _) (slot_instruction hs))
      (fun s hs => pack_instruction hs)).root v x

theorem slack_bucketFields : ∀ f ∈ bucketFieldsP, Slack f.2 :=
  slack_leavesBut (by intro a ha; simp at ha; subst ha; exact slack_bare slack_action) _

theorem bucket_obs {fs : PFields} (hf : fs.fields = V04.bucketFields) (hl : ∀ f, fs[0]? = some f → IsLeaf f.2) {vs ws : List Val}
    (h : Agree fs (fun _ => False) vs ws) : packAttrs V04.bucketFields vs = packAttrs V04.bucketFields ws ∧ V04.bucketSize vs = V04.bucketSize ws := by
  have hp := h.pack (fun _ h => h)
  have hz := h.size (fun _ h => h.elim)
  rw [hf] at hp hz
  refine ⟨hp, ?_⟩
  have h0 := h.eq (j := 0) hl (fun h => h)
  cases vs with
  | nil =>
    cases ws with
    | nil => rfl
    | cons w ws => simp at h0
  | cons v vs =>
    cases ws with
    | nil => simp at h0
    | cons w ws =>
      simp at h0
      subst h0
      cases v <;> first | exact hz | rfl

theorem slack_bucketCls : SlackCls bucketCls :=
  ⟨Agree bucketFieldsP (fun _ => False), fun _ _ h => bucket_obs bucketFieldsP_fields (by intro f hf; cases hf; exact ⟨⟨_, rfl⟩, rfl⟩) h,
    fun _ _ _ _ _ h => h.modify _ _ _,
    fun _ _ hD => ⟨allowed_root (fun _ h => h) hD, agree_own slack_bucketFields fun _ _ _ hq => Or.inr (hD _ _ hq)⟩⟩

theorem slack_buckets : Slack bucketsP := by
  refine slack_list (classOnly_obj _) ?_ ?_ (fun _ _ => rfl)
  · refine slack_oneOf (by intro k hk; simp at hk; subst hk; exact slack_bucketCls) ?_
    intro k hk vs _
    simp at hk; subst hk
    exact ⟨by simp [V04.bucket, bucketCls, lengthCut, structAttr], by simp [V04.bucket, bucketCls, lengthCut]⟩
  · exact fun v x => (safe_oneOf (a := V04.bucket) (by intro k hk; simp at hk; subst hk; exact safe_bucketCls) (by
      intro k hk vs _
      simp at hk; subst hk
      exact ⟨by simp [V04.bucket, bucketCls, lengthCut, structAttr], by simp [V04.bucket, bucketCls, lengthCut]⟩)).root v x

theorem slack_helloElems : Slack helloElemsP := by
  have hs : Slot (leaves V04.helloElemFields) 1 := ⟨by intro f hf; cases hf; exact ⟨2, _, rfl, fun _ => rfl⟩⟩
  have ha : ∀ k ∈ [helloElemCls], ∀ vs, [helloElemCls].find? (fun k' => k'.name == k.name) = some k →
      V04.helloElem.pack (.obj k.name vs) = k.pack vs ∧ V04.helloElem.size (.obj k.name vs) = k.size vs := by
    intro k hk vs _
    simp at hk; subst hk
    exact ⟨by simp [V04.helloElem, helloElemCls, autoCls, lengthCut, autoStruct, leaves_fields],
      by simp [V04.helloElem, helloElemCls, autoCls, lengthCut, autoStruct, structAttr, leaves_fields]⟩
  refine slack_list (classOnly_obj _) ?_ ?_ (fun _ _ => rfl)
  · exact slack_oneOf (by intro k hk; simp at hk; subst hk; exact slack_auto (slack_leaves _) hs) ha
  · exact fun v x => (safe_oneOf (by intro k hk; simp at hk; subst hk; exact safe_auto (safe_leaves _) hs) ha).root v x

/-! ## Messages -/

/-- Headers that differ in the length only. -/
def SameHeader (h h' : Val) : Prop := h = h' ∨ ∃ c us us', h = .obj c us ∧ h' = .obj c us' ∧ Agree [] (· = 2) us us'

theorem SameHeader.trans {a b c : Val} (h : SameHeader a b) (h' : SameHeader b c) : SameHeader a c := by
  rcases h with rfl | ⟨n, us, vs, rfl, rfl, h1⟩
  · exact h'
  · rcases h' with rfl | ⟨n', us', vs', h2, rfl, h3⟩
    · exact Or.inr ⟨n, us, vs, rfl, rfl, h1⟩
    · cases h2; exact Or.inr ⟨n, us, vs', rfl, rfl, h1.trans h3⟩

theorem SameHeader.alter {a b : Val} (h : SameHeader a b) (p : Path) (c : Change) : SameHeader (alter a p c) (alter b p c) := by
  rcases h with rfl | ⟨n, us, vs, rfl, rfl, h1⟩
  · exact Or.inl rfl
  · cases p with
    | nil =>
      cases c with
      | assign x => exact Or.inl rfl
      | items t => exact Or.inr ⟨n, us, vs, rfl, rfl, h1⟩
    | cons i p => exact Or.inr ⟨n, _, _, rfl, rfl, h1.modify i p c⟩

theorem SameHeader.size {m : MsgCls} {a b : Val} (h : SameHeader a b) : (headerAttr m.ver m.types m.code).size a = (headerAttr m.ver m.types m.code).size b := by
  rcases h with rfl | ⟨n, us, vs, rfl, rfl, h1⟩
  · rfl
  · have : sizeAttrs (headerFields m.ver m.types) us = sizeAttrs (headerFields m.ver m.types) vs := by
      refine sizeAttrs_congr _ _ _ h1.1 ?_
      intro j f v w hf hv hw
      by_cases hj : j = 2
      · subst hj; cases hf; rfl
      · rcases h1.2 j v w hv hw hj with rfl | ⟨_, h2, _⟩
        · rfl
        · simp at h2
    simp only [headerAttr, structAttr, this]

theorem SameHeader.set {a b : Val} (h : SameHeader a b) (n : Nat) : setLength n a = setLength n b := by
  rcases h with rfl | ⟨c, us, vs, rfl, rfl, h1⟩
  · rfl
  · have hl := h1.1
    have e : ∀ j, j ≠ 2 → us[j]? = vs[j]? := fun j hj => h1.eq (by intro f hf; simp at hf) hj
    by_cases h4 : us.length = 4
    · match us, vs, h4, (by rw [← hl]; exact h4 : vs.length = 4) with
      | [a, t, l, x], [a', t', l', x'], _, _ =>
        have g0 := e 0 (by decide)
        have g1 := e 1 (by decide)
        have g3 := e 3 (by decide)
        simp at g0 g1 g3
        subst g0; subst g1; subst g3; rfl
    · have no : ∀ us : List Val, us.length ≠ 4 → setLength n (.obj c us) = .error .attribute := by
        intro us h
        unfold setLength
        split
        · rename_i he; cases he; exact absurd rfl h
        · rfl
      rw [no us h4, no vs (by rw [← hl]; exact h4)]

theorem generic_same {m : MsgCls} {body : PFields} (hb : body.fields = m.body) {h h' : Val} {vs ws : List Val} (hh : SameHeader h h')
    (ha : Agree body (fun _ => False) vs ws) (hv : m.valid vs = m.valid ws) : genericPack m h vs = genericPack m h' ws := by
  have h1 := ha.size (fun _ h => h.elim)
  have h2 := ha.pack (fun _ h => h)
  rw [hb] at h1 h2
  have hz : sizeAttrs m.fields (h :: vs) = sizeAttrs m.fields (h' :: ws) := by
    simp only [MsgCls.fields, sizeAttrs, hh.size, h1]
  have hk : ∀ k, packAttrs m.fields (k :: vs) = packAttrs m.fields (k :: ws) := fun k => by simp only [MsgCls.fields, packAttrs, h2]
  simp only [genericPack, hz, hh.set, hv, hk]

/-- The attributes that a message assigns itself. -/
def lenSlot (fs : PFields) (j : Nat) : Prop := ∃ a, fs[j]? = some ("actions_len", a)

/-- The law for messages: what packing assigns does not matter. -/
def SlackMsg (m : PMsg) : Prop := (∀ f ∈ m.body, Slack f.2) ∧
  ∀ c h h' vs ws, SameHeader h h' → vs.length = m.body.length → Agree m.body (lenSlot m.body) vs ws → m.cls.pack (.obj c (h :: vs)) = m.cls.pack (.obj c (h' :: ws))

theorem Agree.mono {fs : PFields} {s t : Nat → Prop} {vs ws : List Val} (h : Agree fs s vs ws) (hst : ∀ j, j < vs.length → s j → t j) : Agree fs t vs ws :=
  ⟨h.1, fun j v w hv hw hj => h.2 j v w hv hw fun hs => hj (hst j (List.getElem?_eq_some_iff.1 hv).1 hs)⟩

theorem slack_plainMsg {m : MsgCls} {special : List (String × PAttr)} (hs : ∀ a ∈ special, Slack a.2)
    (hb : (leavesBut special m.body).fields = m.body) (hp : m.prep = fun vs => .ok vs) (hv : m.valid = fun _ => .ok ())
    (hn : ∀ f ∈ m.body, f.1 ≠ "actions_len") : SlackMsg (plainMsg special m) := by
  refine ⟨slack_leavesBut hs _, ?_⟩
  intro c h h' vs ws hh _ ha
  show m.pack _ = m.pack _
  simp only [MsgCls.pack, hp]
  refine generic_same hb hh (ha.mono ?_) (by rw [hv])
  rintro j _ ⟨a, hj⟩
  obtain ⟨g, hg, h2⟩ := List.mem_map.1 (List.mem_of_getElem? hj)
  refine hn g hg ?_
  have := congrArg Prod.fst h2
  exact this

theorem packetOut_obs {m : MsgCls} {fs : PFields} {acts : Attr} {i n : Nat} (hb : fs.fields = m.body)
    (hport : ∀ f, fs[1]? = some f → IsLeaf f.2) (hi : ∃ g, fs[i]? = some g ∧ g.2.attr = acts) (hin : i < n) (hi2 : 2 < i)
    (hp : ∀ vs, m.prep vs = if h : vs.length = n then
      (match acts.size (vs[i]'(by omega)) with | .ok k => .ok (vs.set 2 (.int k)) | .error e => .error e) else .error .unmodelled)
    (hv : ∀ b p vs, m.valid (b :: p :: vs) = m.valid [.none, p]) {c : String} {h h' : Val} {vs ws : List Val} (hh : SameHeader h h')
    (hA : Agree fs (· = 2) vs ws) : m.pack (.obj c (h :: vs)) = m.pack (.obj c (h' :: ws)) := by
  obtain ⟨g, hg, rfl⟩ := hi
  by_cases hlen : vs.length = n
  · have hlen' : ws.length = n := hA.1.symm.trans hlen
    have hsz : g.2.attr.size (vs[i]'(by omega)) = g.2.attr.size (ws[i]'(by omega)) :=
      (hA.attr hg (List.getElem?_eq_getElem (by omega)) (List.getElem?_eq_getElem (by omega)) (by omega)).2.1
    simp only [MsgCls.pack, hp, dif_pos hlen, dif_pos hlen', hsz]
    cases g.2.attr.size (ws[i]'(by omega)) with
    | error e => rfl
    | ok k =>
      refine generic_same hb hh (hA.set _) ?_
      have h1 := hA.eq (j := 1) hport (by decide)
      match vs, ws, h1, (by omega : 2 < vs.length), (by omega : 2 < ws.length) with
      | a :: p :: vs, a' :: p' :: ws, h1, _, _ =>
        simp at h1
        subst h1
        show m.valid (a :: p :: _) = m.valid (a' :: p :: _)
        rw [hv, hv a']
  · have hlen' : ws.length ≠ n := fun e => hlen (hA.1.trans e)
    simp only [MsgCls.pack, hp, dif_neg hlen, dif_neg hlen']

theorem slack_packetOut {m : MsgCls} {acts : PAttr} {port : Attr} {i n : Nat} (ha : Slack acts) (hb : (leavesBut [("actions", acts)] m.body).fields = m.body)
    (hport : (leavesBut [("actions", acts)] m.body)[1]? = some ("in_port", leafP port)) (hid : port.post = id)
    (hl : ∀ j, lenSlot (leavesBut [("actions", acts)] m.body) j → j = 2)
    (hi : (leavesBut [("actions", acts)] m.body)[i]? = some ("actions", acts)) (hin : i < n) (hi2 : 2 < i)
    (hp : ∀ vs, m.prep vs = if h : vs.length = n then
      (match acts.attr.size (vs[i]'(by omega)) with | .ok k => .ok (vs.set 2 (.int k)) | .error e => .error e) else .error .unmodelled)
    (hv : ∀ b p vs, m.valid (b :: p :: vs) = m.valid [.none, p]) : SlackMsg (packetOutMsg m acts i n) := by
  refine ⟨slack_leavesBut (by intro a h; simp at h; subst h; exact ha) _, ?_⟩
  intro c h h' vs ws hh _ hA
  exact packetOut_obs hb (by intro f hf; rw [hport] at hf; cases hf; exact ⟨⟨_, rfl⟩, hid⟩) ⟨_, hi, rfl⟩ hin hi2 hp hv hh (hA.mono fun j _ hj => hl j hj)

theorem slack_plain0 {m : MsgCls} (hp : m.prep = fun vs => .ok vs) (hv : m.valid = fun _ => .ok ()) (hn : ∀ f ∈ m.body, f.1 ≠ "actions_len") :
    SlackMsg (plainMsg [] m) :=
  slack_plainMsg (by intro a h; cases h) (leavesBut_fields _ (by intro f _ a h; cases h)) hp hv hn

theorem lenSlot_names {fs : PFields} {i : Nat} (h : ∀ j, j < fs.length → (fs.map (·.1))[j]? = some "actions_len" → j = i) {j : Nat} (hj : lenSlot fs j) : j = i := by
  obtain ⟨a, ha⟩ := hj
  exact h j (List.getElem?_eq_some_iff.1 ha).1 (by simp [ha])

theorem prep_out01 (vs : List Val) : V01.packetOut.prep vs = if h : vs.length = 5 then
    (match V01.actions.size (vs[3]'(by omega)) with | .ok k => .ok (vs.set 2 (.int k)) | .error e => .error e) else .error .unmodelled := by
  match vs with
  | [b, p, l, acts, d] =>
    show (match V01.actions.size acts with | .error e => _ | .ok n => _) = (match V01.actions.size acts with | .ok k => _ | .error e => _)
    cases V01.actions.size acts <;> rfl
  | [] | [_] | [_, _] | [_, _, _] | [_, _, _, _] => rfl
  | _ :: _ :: _ :: _ :: _ :: _ :: r => simp [V01.packetOut, V01.packetOutPrep]

theorem prep_out04 (vs : List Val) : V04.packetOut.prep vs = if h : vs.length = 6 then
    (match V04.actions.size (vs[4]'(by omega)) with | .ok k => .ok (vs.set 2 (.int k)) | .error e => .error e) else .error .unmodelled := by
  match vs with
  | [b, p, l, pad, acts, d] =>
    show (match V04.actions.size acts with | .error e => _ | .ok n => _) = (match V04.actions.size acts with | .ok k => _ | .error e => _)
    cases V04.actions.size acts <;> rfl
  | [] | [_] | [_, _] | [_, _, _] | [_, _, _, _] | [_, _, _, _, _] => rfl
  | _ :: _ :: _ :: _ :: _ :: _ :: _ :: r => simp [V04.packetOut, V04.packetOutPrep]

theorem slack_out01 : SlackMsg (packetOutMsg V01.packetOut (leafP V01.actions) 3 5) :=
  slack_packetOut (port := ubint 2) (slack_leaf _) rfl rfl rfl (fun j => lenSlot_names (by decide)) rfl (by decide) (by decide) prep_out01 (fun _ _ _ => rfl)

theorem slack_out04 : SlackMsg (packetOutMsg V04.packetOut actionsP 4 6) :=
  slack_packetOut (port := ubint 4) slack_actions rfl rfl rfl (fun j => lenSlot_names (by decide)) rfl (by decide) (by decide) prep_out04 (fun _ _ _ => rfl)

theorem noLen {fs : Fields} (h : "actions_len" ∉ fs.map (·.1)) : ∀ f ∈ fs, f.1 ≠ "actions_len" :=
  fun f hf e => h (List.mem_map.2 ⟨f, hf, e⟩)

theorem slack_messages : ∀ m ∈ messages, SlackMsg m := by
  intro m hm
  unfold messages at hm
  repeat (
    rcases List.mem_cons.1 hm with rfl | hm
    · first
      | exact slack_plain0 rfl rfl (noLen (by decide +kernel))
      | exact slack_out01
      | exact slack_out04
      | exact slack_plainMsg (by intro a h; simp at h; subst h; exact slack_helloElems) rfl rfl rfl (noLen (by decide +kernel))
      | exact slack_plainMsg (by intro a h; simp at h; subst h; exact slack_match) rfl rfl rfl (noLen (by decide +kernel))
      | exact slack_plainMsg (by intro a h; simp at h; subst h; exact slack_buckets) rfl rfl rfl (noLen (by decide +kernel))
      | exact slack_plainMsg (by intro a h; simp at h; rcases h with rfl | rfl; exact slack_match; exact slack_instructions) rfl rfl rfl (noLen (by decide +kernel)))
  cases hm

/-- Two messages that differ only in what packing assigns. -/
def SameMsg (m : PMsg) (v w : Val) : Prop := ∃ h h' vs ws, v = .obj m.cls.name (h :: vs) ∧ w = .obj m.cls.name (h' :: ws) ∧ SameHeader h h' ∧
  vs.length = m.body.length ∧ Agree m.body (lenSlot m.body) vs ws

theorem Agree.refl {fs : PFields} {s : Nat → Prop} (vs : List Val) : Agree fs s vs vs :=
  ⟨rfl, fun j v w hv hw _ => by rw [hv] at hw; cases hw; exact Or.inl rfl⟩

theorem SameMsg.alter {m : PMsg} {v w : Val} (h : SameMsg m v w) (i : Nat) (p : Path) (c : Change) : SameMsg m (Threads.alter v (i :: p) c) (Threads.alter w (i :: p) c) := by
  obtain ⟨h, h', vs, ws, rfl, rfl, h1, h2, h3⟩ := h
  cases i with
  | zero => exact ⟨_, _, vs, ws, rfl, rfl, h1.alter p c, h2, h3⟩
  | succ i => exact ⟨h, h', vs.modify i fun v => Threads.alter v p c, _, rfl, rfl, h1, by simp [h2], h3.modify i p c⟩

theorem SameMsg.trans {m : PMsg} {u v w : Val} (h : SameMsg m u v) (h' : SameMsg m v w) : SameMsg m u w := by
  obtain ⟨a, b, us, vs, rfl, rfl, h1, h2, h3⟩ := h
  obtain ⟨a', b', us', vs', h4, rfl, h5, h6, h7⟩ := h'
  cases h4
  exact ⟨a, b', us, vs', rfl, rfl, h1.trans h5, h2, h3.trans h7⟩

theorem SameMsg.pack {m : PMsg} (hm : SlackMsg m) {v w : Val} (h : SameMsg m v w) : m.cls.pack v = m.cls.pack w := by
  obtain ⟨h, h', vs, ws, rfl, rfl, h1, h2, h3⟩ := h
  exact hm.2 _ _ _ _ _ h1 h2 h3

/-- The assignments that packing makes. -/
theorem sameMsg_own {m : PMsg} (hm : SlackMsg m) {vs : List Val} (hl : vs.length = m.body.length + 1) {R : Path → Val → Prop} (h0 : ∀ x, ¬ R [] x)
    (ho : Own m vs R) (hh : InHeader vs R) {D : Done} (hD : Allowed R D) : SameMsg m (.obj m.cls.name vs) (over (.obj m.cls.name vs) D) := by
  rw [over_obj (allowed_root h0 hD)]
  cases vs with
  | nil => simp at hl
  | cons h vs =>
    simp only [overs]
    refine ⟨h, _, vs, _, rfl, rfl, ?_, by simpa using hl, (overs_length _ _ _).symm, ?_⟩
    · by_cases h4 : Four h
      · right
        obtain ⟨c, a, t, l, x, rfl⟩ := h4
        have hn : D [0] = none := by
          cases hq : D [0] with
          | none => rfl
          | some x => have := (hh _ _ (hD _ _ hq)).1; cases this
        refine ⟨c, _, _, rfl, over_obj (D := fun p => D (0 :: p)) hn, agree_own (by intro f hf; cases hf) ?_⟩
        intro j q x hq
        have := (hh _ _ (hD _ _ hq)).1
        simp only [List.cons.injEq] at this
        exact Or.inl this.1
      · left
        rw [over_leaf]
        intro q x hq
        obtain ⟨_, h', e, hf⟩ := hh _ _ (hD _ _ hq)
        simp at e; subst e
        exact h4 hf
    · intro j v w hv hw hj
      rw [overs_getElem?, hv] at hw
      simp only [Option.map_some, Option.some.injEq] at hw
      have hlt : j < m.body.length := by
        have := (List.getElem?_eq_some_iff.1 hv).1
        simp at hl; omega
      obtain ⟨⟨n, a⟩, hf⟩ : ∃ f, m.body[j]? = some f := ⟨_, List.getElem?_eq_getElem hlt⟩
      have hne : n ≠ "actions_len" := fun e => hj ⟨a, by rw [hf, e]⟩
      have hA : Allowed (a.writes v) (fun q => D ((0 + 1 + j) :: q)) := by
        intro q x hq
        rw [show 0 + 1 + j = j + 1 by omega] at hq
        exact (ho hl j n a v hf hne (by simpa using hv) q x).1 (hD _ _ hq)
      by_cases hL : IsLeaf a
      · left
        obtain ⟨⟨b, rfl⟩, _⟩ := hL
        rw [← hw, over_leaf]
        exact fun q x hq => hA q x hq
      · right
        refine ⟨_, hf, hL, ?_⟩
        rw [← hw]
        exact hm.1 _ (List.mem_of_getElem? hf) v _ hA

end Pyof.Threads
