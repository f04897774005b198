import Verif.Model.Meta
/-!
# C44 version inheritance
-/
namespace Pyof.Props
open Pyof Meta

/-- A dictionary has every key once. -/
def Keys (d : List (Str × α)) : Prop := (d.map (·.1)).Nodup

/-! ## Ordered dictionaries -/

private theorem lookup_none {d : List (Str × α)} {n : Str} : d.lookup n = none ↔ n ∉ d.map (·.1) := by
  induction d with
  | nil => simp
  | cons p d ih =>
    obtain ⟨m, x⟩ := p
    by_cases h : n = m
    · subst h; simp
    · have : (n == m) = false := by simpa using h
      simp [List.lookup_cons, this, h, ih]

private theorem assign_names (d : ClassDict) (n : Str) (x : Item) :
    (assign d n x).map (·.1) = if n ∈ d.map (·.1) then d.map (·.1) else d.map (·.1) ++ [n] := by
  induction d with
  | nil => simp [assign]
  | cons p d ih =>
    obtain ⟨m, y⟩ := p
    by_cases h : m = n
    · subst h; simp [assign]
    · have h' : ¬ n = m := fun e => h e.symm
      simp only [assign, if_neg h, List.map_cons, ih, List.mem_cons, h', false_or]
      split <;> simp

private theorem assign_new {d : ClassDict} {n : Str} {x : Item} (h : n ∉ d.map (·.1)) : assign d n x = d ++ [(n, x)] := by
  induction d with
  | nil => rfl
  | cons p d ih =>
    obtain ⟨m, y⟩ := p
    simp only [List.map_cons, List.mem_cons, not_or] at h
    simp only [assign, if_neg (fun e : m = n => h.1 e.symm), ih h.2, List.cons_append]

private theorem assign_old {d : ClassDict} {n : Str} {x : Item} (h : n ∈ d.map (·.1)) (hd : Keys d) :
    assign d n x = d.map (fun p => if p.1 = n then (p.1, x) else p) := by
  induction d with
  | nil => simp at h
  | cons p d ih =>
    obtain ⟨m, y⟩ := p
    simp only [Keys, List.map_cons, List.nodup_cons] at hd
    by_cases e : m = n
    · subst e
      have : d.map (fun p => if p.1 = m then (p.1, x) else p) = d := by
        conv => rhs; rw [← List.map_id d]
        apply List.map_congr_left
        intro p hp
        have : p.1 ≠ m := fun e => hd.1 (e ▸ List.mem_map_of_mem hp)
        simp [this]
      simp [assign, this]
    · have hm : n ∈ d.map (·.1) := by
        simp only [List.map_cons, List.mem_cons] at h
        exact h.resolve_left (fun e' => e e'.symm)
      simp only [assign, if_neg e, List.map_cons, ih hm hd.2]

private theorem keys_assign {d : ClassDict} {n : Str} {x : Item} (h : Keys d) : Keys (assign d n x) := by
  unfold Keys at *
  rw [assign_names]
  split
  · exact h
  · rename_i hn
    exact List.nodup_append.2 ⟨h, by simp, by intro a ha b hb; simp at hb; subst hb; intro e; exact hn (e ▸ ha)⟩

/-- `d.update(e)`: the keys of `d` in their places, with the values of `e` where it has them, then the other entries of `e` in order. -/
theorem update_eq {d e : ClassDict} (hd : Keys d) (he : Keys e) :
    update d e = d.map (fun p => (p.1, (e.lookup p.1).getD p.2)) ++ e.filter (fun p => p.1 ∉ d.map (·.1)) := by
  induction e generalizing d with
  | nil => simp [update]
  | cons p e ih =>
    obtain ⟨n, x⟩ := p
    simp only [Keys, List.map_cons, List.nodup_cons] at he
    have step : update d ((n, x) :: e) = update (assign d n x) e := rfl
    have hn : e.lookup n = none := lookup_none.2 he.1
    rw [step, ih (keys_assign hd) he.2]
    by_cases h : n ∈ d.map (·.1)
    · rw [assign_names, if_pos h, assign_old h hd, List.map_map]
      congr 1
      · apply List.map_congr_left
        intro p hp
        by_cases e1 : p.1 = n
        · simp [e1, hn, List.lookup_cons]
        · have : (p.1 == n) = false := by simpa using e1
          simp [e1, this, List.lookup_cons]
      · have : ((n, x).1 ∈ d.map (·.1)) := h
        simp [List.filter_cons, this]
    · rw [assign_names, if_neg h, assign_new h, List.map_append, List.append_assoc]
      congr 1
      · apply List.map_congr_left
        intro p hp
        have e1 : p.1 ≠ n := fun e1 => h (e1 ▸ List.mem_map_of_mem hp)
        have : (p.1 == n) = false := by simpa using e1
        simp [this, List.lookup_cons]
      · have e2 : e.filter (fun p => p.1 ∉ d.map (·.1) ++ [n]) = e.filter (fun p => p.1 ∉ d.map (·.1)) := by
          apply List.filter_congr
          intro p hp
          have : p.1 ≠ n := fun e1 => he.1 (e1 ▸ List.mem_map_of_mem hp)
          simp [this]
        rw [e2]
        simp only [List.map_cons, List.map_nil, hn, Option.getD_none, List.singleton_append]
        rw [List.filter_cons, if_pos (by simpa using h)]

private theorem pop_all (removed : List Str) (d : ClassDict) : removed.foldl pop d = d.filter (fun p => p.1 ∉ removed) := by
  induction removed generalizing d with
  | nil => exact (List.filter_eq_self.2 (by simp)).symm
  | cons n r ih =>
    rw [List.foldl_cons, ih, pop, List.filter_filter]
    apply List.filter_congr
    intro p _
    simp [Bool.and_comm]

/-! ## C44 fields -/

private theorem filterMap_congr' {f g : α → Option β} {l : List α} (h : ∀ x ∈ l, f x = g x) : l.filterMap f = l.filterMap g := by
  induction l with
  | nil => rfl
  | cons a l ih => simp only [List.filterMap_cons, h a (by simp), ih (fun x hx => h x (by simp [hx]))]

private theorem takeWhile_mem {p : α → Bool} {l : List α} {x : α} (h : x ∈ l.takeWhile p) : p x = true := by
  induction l with
  | nil => simp at h
  | cons a l ih =>
    rw [List.takeWhile_cons] at h
    split at h
    · rcases List.mem_cons.1 h with rfl | h
      · assumption
      · exact ih h
    · simp at h


private theorem inheritAll_eq {load : Load} {v : Option Str} : ∀ {as : List (Str × Obj)} {d d' : ClassDict}, Keys as →
    (∀ n ∈ as.map (·.1), n ∉ d.map (·.1)) → inheritAll load v as d = .ok d' →
    ∃ f : Str × Obj → Obj, (∀ p ∈ as, inherit load v p.1 p.2 = .ok (f p)) ∧ d' = d ++ as.map (fun p => (p.1, .attr (f p)))
  | [], d, d', _, _, h => ⟨fun p => p.2, by simp, by cases h; simp⟩
  | (n, o) :: as, d, d', hk, hd, h => by
    simp only [Keys, List.map_cons, List.nodup_cons] at hk
    rw [inheritAll] at h
    cases hi : inherit load v n o with
    | error e => simp [hi] at h
    | ok o' =>
      simp only [hi] at h
      have hn : n ∉ d.map (·.1) := hd n (by simp)
      rw [assign_new hn] at h
      obtain ⟨f, hf, rfl⟩ := inheritAll_eq (as := as) hk.2 (by
        intro m hm
        simp only [List.map_append, List.mem_append, List.map_cons, List.map_nil, List.mem_singleton, not_or]
        exact ⟨hd m (by simp [hm]), fun e => hk.1 (e ▸ hm)⟩) h
      refine ⟨fun p => if p.1 = n then o' else f p, ?_, ?_⟩
      · intro p hp
        rcases List.mem_cons.1 hp with rfl | hp
        · simp [hi]
        · have : p.1 ≠ n := fun e => hk.1 (e ▸ List.mem_map_of_mem hp)
          simp only [if_neg this]
          exact hf p hp
      · have : as.map (fun p => (p.1, Item.attr (if p.1 = n then o' else f p))) = as.map (fun p => (p.1, Item.attr (f p))) := by
          apply List.map_congr_left
          intro p hp
          have : p.1 ≠ n := fun e => hk.1 (e ▸ List.mem_map_of_mem hp)
          simp only [if_neg this]
        simp [this]

private theorem keys_attrs {d : ClassDict} (h : Keys d) : Keys (classAttributes d) := by
  unfold Keys classAttributes at *
  induction d with
  | nil => simp
  | cons p d ih =>
    obtain ⟨n, x⟩ := p
    simp only [List.map_cons, List.nodup_cons] at h
    cases x with
    | other => simpa [List.filterMap_cons] using ih h.2
    | attr o =>
      simp only [List.filterMap_cons, List.map_cons, List.nodup_cons]
      refine ⟨?_, ih h.2⟩
      intro hm
      obtain ⟨q, hq, rfl⟩ := List.mem_map.1 hm
      obtain ⟨r, hr, hr'⟩ := List.mem_filterMap.1 hq
      apply h.1
      cases hx : r.2 with
      | other => simp [hx] at hr'
      | attr o' => simp only [hx, Option.some.injEq] at hr'; rw [← hr']; exact List.mem_map_of_mem hr

/-- The value of a redefined name: an attribute object replaces the inherited one, anything else hides it. -/
def redefined (body : ClassDict) (n : Str) (o : Obj) : Option (Str × Obj) :=
  match body.lookup n with
  | none => some (n, o)
  | some (.attr o') => some (n, o')
  | some .other => none

/-- C44.  The attributes of a class that inherits from a class of the library (its first base of that kind): the attributes of the parent
that are not listed in `_removed_attributes`, in the parent's order, each retargeted to the version of the new class (`f`, see
`C44_retarget`) or, if the class body redefines it, as defined there; then the other attributes of the body in their order. -/
theorem C44_fields {load : Load} {module : Str} {bases : List (Option ClassDict)} {base : ClassDict} {removed : List Str} {body d : ClassDict}
    (hb : bases.findSome? id = some base) (kb : Keys base) (kd : Keys body) (h : newClass load module bases removed body = .ok d) :
    ∃ f : Str × Obj → Obj, (∀ p ∈ classAttributes base, inherit load (getPyofVersion module) p.1 p.2 = .ok (f p)) ∧
      let kept := (classAttributes base).filter (fun p => p.1 ∉ removed)
      classAttributes d = kept.filterMap (fun p => redefined body p.1 (f p)) ++
        (classAttributes body).filter (fun p => p.1 ∉ kept.map (·.1)) := by
  unfold newClass at h
  simp only [hb] at h
  cases hi : inheritAll load (getPyofVersion module) (classAttributes base) [] with
  | error e => simp [hi] at h
  | ok d0 =>
    simp only [hi, Except.ok.injEq] at h
    obtain ⟨f, hf, rfl⟩ := inheritAll_eq (keys_attrs kb) (by simp) hi
    refine ⟨f, hf, ?_⟩
    intro kept
    have e1 : (List.map (fun p => (p.1, Item.attr (f p))) (classAttributes base)).filter (fun p => p.1 ∉ removed) =
        kept.map (fun p => (p.1, Item.attr (f p))) := by
      rw [List.filter_map]; rfl
    have kk : Keys (kept.map (fun p => (p.1, Item.attr (f p)))) := by
      have := keys_attrs kb
      unfold Keys at *
      rw [List.map_map]
      exact List.Sublist.nodup (List.Sublist.map _ List.filter_sublist) this
    have en : (kept.map (fun p => (p.1, Item.attr (f p)))).map (·.1) = kept.map (·.1) := by rw [List.map_map]; rfl
    rw [← h, pop_all, List.nil_append, e1, update_eq kk kd, en]
    unfold classAttributes
    rw [List.filterMap_append]
    congr 1
    · rw [List.map_map, List.filterMap_map]
      apply filterMap_congr'
      intro p hp
      simp only [Function.comp, redefined]
      cases body.lookup p.1 with
      | none => rfl
      | some x => cases x <;> rfl
    · rw [List.filterMap_filter, List.filter_filterMap]
      apply filterMap_congr'
      intro p hp
      cases hx : p.2 with
      | other => simp [hx]
      | attr o => by_cases hm : p.1 ∈ kept.map (·.1) <;> simp [hm, Option.filter]

example := C44_fields (load := fun m c => .ok { module := m, cls := c, content := 9 }) (module := "pyof.v0x04.common.z".toList)
  (bases := [none, some [("x".toList, .attr { module := "pyof.foundation.basic_types".toList, cls := "UBInt8".toList, content := 1 }),
    ("gone".toList, .attr { module := "pyof.foundation.basic_types".toList, cls := "Pad".toList, content := 3 })]])
  (removed := ["gone".toList]) (body := [("y".toList, .attr { module := "pyof.foundation.basic_types".toList, cls := "Pad".toList, content := 2 })])
  rfl (by simp [Keys]) (by simp [Keys]) rfl

/-- C44.  Without a parent of the library the class has the attributes of its body. -/
theorem C44_no_parent {load : Load} {module : Str} {bases : List (Option ClassDict)} (removed : List Str) (body : ClassDict)
    (hb : ∀ b ∈ bases, b = none) : newClass load module bases removed body = .ok body := by
  have : bases.findSome? id = none := by
    rw [List.findSome?_eq_none_iff]; exact hb
  simp only [newClass, this]

example := C44_no_parent (load := fun _ _ => .error .key) (module := "pyof.v0x04.common.z".toList) (bases := [none, none]) ["pad".toList]
  [("y".toList, .attr { module := "pyof.foundation.basic_types".toList, cls := "UBInt16".toList, content := 5 })] (by simp)

/-- C44.  The dictionary of the new class again has every key once, so that `C44_fields` applies to chains of classes. -/
theorem C44_keys {load : Load} {module : Str} {bases : List (Option ClassDict)} {removed : List Str} {body d : ClassDict}
    (kb : ∀ base, some base ∈ bases → Keys base) (kd : Keys body) (h : newClass load module bases removed body = .ok d) : Keys d := by
  unfold newClass at h
  cases hb : bases.findSome? id with
  | none => simp only [hb, Except.ok.injEq] at h; exact h ▸ kd
  | some base =>
    simp only [hb] at h
    cases hi : inheritAll load (getPyofVersion module) (classAttributes base) [] with
    | error e => simp [hi] at h
    | ok d0 =>
      simp only [hi, Except.ok.injEq] at h
      have hk : Keys base := by
        obtain ⟨x, hx, hx'⟩ := List.exists_of_findSome?_eq_some hb
        cases x with
        | none => simp at hx'
        | some b => simp only [id, Option.some.injEq] at hx'; exact hx' ▸ kb b hx
      obtain ⟨f, _, rfl⟩ := inheritAll_eq (keys_attrs hk) (by simp) hi
      have aux : ∀ (e d : ClassDict), Keys d → Keys (update d e) := by
        intro e
        induction e with
        | nil => intro d h; exact h
        | cons p e ih => intro d h; exact ih _ (keys_assign h)
      rw [← h]
      apply aux
      rw [pop_all, List.nil_append]
      have := keys_attrs hk
      unfold Keys at *
      refine List.Sublist.nodup (List.Sublist.map _ List.filter_sublist) ?_
      rw [List.map_map]
      exact this

example := C44_keys (load := fun m c => .ok { module := m, cls := c, content := 9 }) (module := "pyof.v0x04.common.z".toList)
  (bases := [none, some [("x".toList, .attr { module := "pyof.foundation.basic_types".toList, cls := "UBInt8".toList, content := 1 })]])
  (removed := []) (body := [("y".toList, .attr { module := "pyof.foundation.basic_types".toList, cls := "Pad".toList, content := 2 })])
  (by rintro b hb; simp at hb; subst hb; simp [Keys]) (by simp [Keys]) rfl

/-! ## C44 versions -/

/-- `v0x` and digits. -/
def IsVersion (v : Str) : Prop := ∃ ds : Str, ds ≠ [] ∧ (∀ c ∈ ds, c.isDigit = true) ∧ v = 'v' :: '0' :: 'x' :: ds

/-- The full name of a module of one version. -/
def versioned (v rest : Str) : Str := "pyof.".toList ++ v ++ '.' :: rest

private theorem pyofDot : "pyof.".toList = ['p', 'y', 'o', 'f', '.'] := by decide

private theorem takeWhile_digits {ds r : Str} (h : ∀ c ∈ ds, c.isDigit = true) :
    (ds ++ '.' :: r).takeWhile Char.isDigit = ds ∧ (ds ++ '.' :: r).dropWhile Char.isDigit = '.' :: r := by
  induction ds with
  | nil => simp [List.takeWhile_cons, List.dropWhile_cons, show Char.isDigit '.' = false from rfl]
  | cons c ds ih =>
    have hc := h c (by simp)
    have := ih (fun c hc => h c (by simp [hc]))
    simp [List.takeWhile_cons, List.dropWhile_cons, hc, this]

/-- C44 (`get_pyof_version`).  The version is found in exactly the names `pyof.<version>.<rest>`. -/
theorem C44_version (name v : Str) : getPyofVersion name = some v ↔ IsVersion v ∧ ∃ rest, name = versioned v rest := by
  constructor
  · intro h
    unfold getPyofVersion at h
    split at h
    · rename_i r
      simp only at h
      split at h
      · cases h
      · rename_i hne
        split at h
        · rename_i r' hr
          cases h
          refine ⟨⟨_, hne, fun c hc => ?_, rfl⟩, r', ?_⟩
          · exact takeWhile_mem hc
          · rw [versioned, pyofDot, ← hr]
            simp [List.takeWhile_append_dropWhile]
        · cases h
    · cases h
  · rintro ⟨⟨ds, hne, hd, rfl⟩, rest, rfl⟩
    obtain ⟨h1, h2⟩ := takeWhile_digits (r := rest) hd
    rw [versioned, pyofDot]
    simp only [List.cons_append, List.nil_append, getPyofVersion, h1, h2, if_neg hne]

example : getPyofVersion "pyof.v0x04.common.header".toList = some "v0x04".toList :=
  (C44_version _ _).2 ⟨⟨"04".toList, by decide, by decide, rfl⟩, "common.header".toList, rfl⟩

private theorem replaceAll_skip {old new : Str} {c : Char} {r : Str} (h : old.isPrefixOf (c :: r) = false) :
    replaceAll old new (c :: r) = c :: replaceAll old new r := by
  rw [replaceAll, if_neg (by simp [h])]

private theorem replaceAll_absent {old new : Str} : ∀ {s : Str}, (∀ a b, s ≠ a ++ old ++ b) → replaceAll old new s = s
  | [], _ => by rw [replaceAll]
  | c :: r, h => by
    have hp : old.isPrefixOf (c :: r) = false := by
      cases e : old.isPrefixOf (c :: r) with
      | false => rfl
      | true =>
        obtain ⟨t, ht⟩ := List.isPrefixOf_iff_prefix.1 e
        exact absurd ht.symm (by simpa using h [] t)
    rw [replaceAll_skip hp, replaceAll_absent (fun a b e => h (c :: a) b (by simp [e]))]

/-- C44 (`replace_pyof_version`).  A name without a version, and a name that has the version already, are refused (`None`).  Otherwise, if the
old version does not occur again in the rest of the name, exactly the version changes. -/
theorem C44_replace (w : Str) :
    (∀ name, (¬ ∃ v rest, IsVersion v ∧ name = versioned v rest) → replacePyofVersion name w = none) ∧
    (∀ rest, IsVersion w → replacePyofVersion (versioned w rest) w = none) ∧
    (∀ v rest, IsVersion v → v ≠ w → (∀ a b, '.' :: rest ≠ a ++ v ++ b) → replacePyofVersion (versioned v rest) w = some (versioned w rest)) := by
  refine ⟨?_, ?_, ?_⟩
  · intro name h
    cases hv : getPyofVersion name with
    | none => simp only [replacePyofVersion, hv]
    | some v =>
      obtain ⟨h1, r, h2⟩ := (C44_version name v).1 hv
      exact absurd ⟨v, r, h1, h2⟩ h
  · intro rest hw
    have := (C44_version (versioned w rest) w).2 ⟨hw, rest, rfl⟩
    simp only [replacePyofVersion, this, if_true]
  · intro v rest hv hne ha
    have := (C44_version (versioned v rest) v).2 ⟨hv, rest, rfl⟩
    simp only [replacePyofVersion, this, if_neg hne]
    congr 1
    have hvne : v ≠ [] := by obtain ⟨ds, _, _, rfl⟩ := hv; simp
    have hmatch : replaceAll v w (v ++ '.' :: rest) = w ++ '.' :: rest := by
      have hp : v.isPrefixOf (v ++ '.' :: rest) = true := by simp
      have hdrop : (v ++ '.' :: rest).drop v.length = '.' :: rest := by simp
      obtain ⟨c, r, hcr⟩ : ∃ c r, v ++ '.' :: rest = c :: r := by cases v <;> simp
      rw [hcr] at hp hdrop ⊢
      rw [replaceAll, if_pos ⟨hvne, hp⟩, hdrop, replaceAll_absent ha]
    obtain ⟨ds, _, _, rfl⟩ := hv
    rw [versioned, versioned, pyofDot]
    simp only [List.cons_append, List.nil_append] at hmatch ⊢
    rw [replaceAll_skip (by simp [List.isPrefixOf]), replaceAll_skip (by simp [List.isPrefixOf]), replaceAll_skip (by simp [List.isPrefixOf]),
      replaceAll_skip (by simp [List.isPrefixOf]), replaceAll_skip (by simp [List.isPrefixOf]), hmatch]

example : replacePyofVersion (versioned "v0x04".toList "common.header".toList) "v0x04".toList = none :=
  (C44_replace "v0x04".toList).2.1 _ ⟨"04".toList, by decide, by decide, rfl⟩

/-- C44 (retargeting).  Attributes other than `header`, in a class of version `w`: an attribute whose class belongs to another version becomes
a new instance of the class of the same name in the same module of version `w`; any other attribute stays the object it was.  In a class
outside the versions all of them stay. -/
theorem C44_retarget (load : Load) (name : Str) (o : Obj) (hn : name ≠ "header".toList) :
    (∀ w v rest, IsVersion v → v ≠ w → o.module = versioned v rest → (∀ a b, '.' :: rest ≠ a ++ v ++ b) →
      inherit load (some w) name o = load (versioned w rest) o.cls) ∧
    (∀ w rest, IsVersion w → o.module = versioned w rest → inherit load (some w) name o = .ok o) ∧
    (∀ w, (¬ ∃ v rest, IsVersion v ∧ o.module = versioned v rest) → inherit load (some w) name o = .ok o) ∧
    inherit load none name o = .ok o := by
  have step : ∀ x, inherit load x name o = newVersion load o x := by
    intro x
    simp only [inherit, if_neg hn]
    cases newVersion load o x <;> rfl
  refine ⟨?_, ?_, ?_, by rw [step]; rfl⟩
  · intro w v rest hv hne hm ha
    simp only [step, newVersion, hm, (C44_replace w).2.2 v rest hv hne ha]
  · intro w rest hw hm
    simp only [step, newVersion, hm, (C44_replace w).2.1 rest hw]
  · intro w h
    simp only [step, newVersion, (C44_replace w).1 _ h]

example (load : Load) (o : Obj) (hm : o.module = versioned "v0x04".toList "common.port".toList) : inherit load (some "v0x04".toList) "desc".toList o = .ok o :=
  (C44_retarget load "desc".toList o (by decide)).2.1 _ _ ⟨"04".toList, by decide, by decide, rfl⟩ hm

/-- C44 (header).  The header of the new version has the message type of the same name, provided its value is not 0; if the new version has
no such type the class cannot be created. -/
theorem C44_header (load : Load) (version : Option Str) (o o' : Obj) (name : Str) (value : Nat) (hm : o.messageType = some (name, value))
    (h0 : value ≠ 0) (hv : newVersion load o version = .ok o') :
    (∀ value', o'.types.lookup name = some value' →
      inherit load version "header".toList o = .ok { o' with messageType := some (name, value') }) ∧
    (o'.types.lookup name = none → inherit load version "header".toList o = .error .key) := by
  constructor
  · intro value' h
    simp only [inherit, hv, if_true, headerUpdate, hm, if_neg h0, h]
  · intro h
    simp only [inherit, hv, if_true, headerUpdate, hm, if_neg h0, h]

/-- A class of version 4 that inherits from one of version 1: `ports` is retargeted, `pad` stays, `gone` is removed, `x` is redefined in its
place, and `y` is new. -/
example :
    let load : Load := fun m c => .ok { module := m, cls := c, content := 9 }
    let obj (m c : String) (k : Nat) : Obj := { module := m.toList, cls := c.toList, content := k }
    let base : ClassDict := [("__module__".toList, .other), ("x".toList, .attr (obj "pyof.foundation.basic_types" "UBInt8" 1)),
      ("gone".toList, .attr (obj "pyof.foundation.basic_types" "UBInt8" 2)), ("pad".toList, .attr (obj "pyof.foundation.basic_types" "Pad" 3)),
      ("ports".toList, .attr (obj "pyof.v0x01.common.phy_port" "ListOfPhyPorts" 4))]
    let body : ClassDict := [("y".toList, .attr (obj "pyof.foundation.basic_types" "UBInt16" 5)),
      ("x".toList, .attr (obj "pyof.foundation.basic_types" "UBInt64" 6))]
    (newClass load "pyof.v0x04.common.z".toList [none, some base] ["gone".toList] body).toOption.map classAttributes =
      some [("x".toList, obj "pyof.foundation.basic_types" "UBInt64" 6), ("pad".toList, obj "pyof.foundation.basic_types" "Pad" 3),
        ("ports".toList, obj "pyof.v0x04.common.phy_port" "ListOfPhyPorts" 9), ("y".toList, obj "pyof.foundation.basic_types" "UBInt16" 5)] := by
  decide +kernel

/-- `pyof.v0x01.common.header` to version 4. -/
example : replacePyofVersion "pyof.v0x01.common.header".toList "v0x04".toList = some "pyof.v0x04.common.header".toList ∧
    replacePyofVersion "pyof.v0x04.common.header".toList "v0x04".toList = none ∧
    replacePyofVersion "pyof.foundation.base".toList "v0x04".toList = none := by
  refine ⟨?_, ?_, ?_⟩ <;> decide +kernel

/-- C44: two limits.  A message type of value 0 (`OFPT_HELLO`) is not carried over to the header of the new version, and a name that
repeats the version is changed in both places. -/
theorem C44_counterexamples :
    (let load : Load := fun m c => .ok { module := m, cls := c, types := [("OFPT_HELLO".toList, 0), ("OFPT_ERROR".toList, 1)] }
     let hdr (n : String) (k : Nat) : Obj := { module := "pyof.v0x01.common.header".toList, cls := "Header".toList, messageType := some (n.toList, k) }
     (inherit load (some "v0x04".toList) "header".toList (hdr "OFPT_ERROR" 1)).toOption.map (·.messageType) = some (some ("OFPT_ERROR".toList, 1)) ∧
     (inherit load (some "v0x04".toList) "header".toList (hdr "OFPT_HELLO" 0)).toOption.map (·.messageType) = some none) ∧
    replacePyofVersion "pyof.v0x01.to_v0x01".toList "v0x04".toList = some "pyof.v0x04.to_v0x04".toList := by
  refine ⟨⟨?_, ?_⟩, ?_⟩ <;> decide +kernel

end Pyof.Props
