import Verif.Spec.Refuse
import Verif.Lemmas.Keeps
import Verif.Lemmas.Auto
import Verif.Lemmas.Layout
/-! Contents that do not fit are refused with `PackException`. -/
namespace Pyof
open Spec

theorem Spec.OnlyPack.ok {α} (a : α) : OnlyPack (.ok a : Res α) := fun _ h => by cases h
theorem Spec.OnlyPack.pack {α} : OnlyPack (.error .pack : Res α) := fun _ h => by cases h; rfl
theorem Spec.Succeeds.ok {α} (a : α) : Succeeds (.ok a : Res α) := ⟨a, rfl⟩
theorem Spec.Succeeds.of_ok {α} {r : Res α} {a} (h : r = .ok a) : Succeeds r := ⟨a, h⟩
theorem Spec.Succeeds.not_error {α} {e} : ¬ Succeeds (.error e : Res α) := fun ⟨_, h⟩ => by cases h
theorem Spec.Succeeds.only {α} {r : Res α} (h : Succeeds r) : OnlyPack r := fun e he => by obtain ⟨a, ha⟩ := h; rw [he] at ha; cases ha
theorem Spec.OnlyPack.of_ok {α} {r : Res α} {a} (h : r = .ok a) : OnlyPack r := h ▸ .ok a

/-! ## Leaves -/

theorem refuse_of {c f} (he : Enc c f) (h : ∀ v d, f.den v = some d → ∃ b, f.enc d = some b) : Refuse c f where
  pack := fun v d hd => by obtain ⟨b, hb⟩ := h v d hd; exact .of_ok ((he.pack v d hd b).mpr hb)
  size := fun v d hd => by obtain ⟨b, hb⟩ := h v d hd; exact .of_ok (he.size v d b hd hb)
  usize := fun v d hv hd => by obtain ⟨b, hb⟩ := h v d hd; exact .of_ok (he.usize v d b hv hd hb)

theorem packNum_only (w v) : OnlyPack (packNum w v) := by
  unfold packNum
  split
  · split
    · exact .ok _
    · exact .pack
  · exact .pack

theorem ubPack_only (w dflt v) : OnlyPack (ubPack w dflt v) := by
  unfold ubPack
  split <;> exact packNum_only _ _

theorem ubint_only {w ref dv} (v) : OnlyPack ((ubint w ref dv).pack v) := ubPack_only w dv v

theorem refuse_uint {w ref dv f} : Refuse (ubint w ref dv) f where
  pack := fun _ _ _ => ubPack_only _ _ _
  size := fun _ _ _ => .ok _
  usize := fun _ _ _ _ => .ok _

theorem refuse_pad {n f} : Refuse (padAttr n) f where
  pack := fun _ _ _ => .ok _
  size := fun _ _ _ => .ok _
  usize := fun _ _ _ _ => .ok _

theorem hwRead_length {v b} (h : hwRead v = some b) : b.length = 6 := by
  cases v <;> simp only [hwRead, reduceCtorEq] at h
  · split at h <;> cases h; rfl
  · exact groups_length h
theorem ipRead_length {v b} (h : ipRead v = some b) : b.length = 4 := by
  cases v <;> simp only [ipRead, reduceCtorEq] at h
  exact groups_length h
theorem dpidRead_length {v b} (h : dpidRead v = some b) : b.length = 8 := by
  cases v <;> simp only [dpidRead, reduceCtorEq] at h
  exact groups_length h

theorem rawEnc_some {k : Nat} {o : Option Bytes} {d} (ho : ∀ b, o = some b → b.length = k) (h : o.map Data.raw = some d) :
    ∃ b, rawEnc k d = some b := by
  cases o with
  | none => cases h
  | some b => cases h; exact ⟨b, by simp [rawEnc, ho b rfl]⟩

theorem refuse_hw {dv dflt} (h : dflt = hwRead dv) : Refuse (hwAttr dv) (hw dflt) := by
  subst h
  refine refuse_of (enc_hw dv) fun v d hd => ?_
  cases v <;> first | (cases hd; done) | exact rawEnc_some (fun _ h => hwRead_length h) hd
theorem refuse_ip {a m dflt} (h : dflt = ipRead (.str a)) : Refuse (ipAttr a m) (ip dflt) := by
  subst h
  refine refuse_of (enc_ip a m) fun v d hd => ?_
  cases v <;> first | (cases hd; done) | exact rawEnc_some (fun _ h => ipRead_length h) hd
theorem refuse_dpid : Refuse dpidAttr dpid := by
  refine refuse_of enc_dpid fun v d hd => ?_
  cases v <;> first | (cases hd; done) | exact rawEnc_some (fun _ h => dpidRead_length h) hd

theorem refuse_rest : Refuse binAttr rest :=
  refuse_of enc_rest fun v d hd => by obtain ⟨b, rfl, _⟩ := rest_den_inv hd; exact ⟨b, rfl⟩

theorem refuse_rest8 : Refuse binAttr rest8 := by
  have key : ∀ v d, rest8.den v = some d → ∃ e, rest.den v = some e := by
    intro v d hd
    simp only [rest8] at hd
    split at hd
    · exact ⟨_, by assumption⟩
    · cases hd
  exact ⟨fun v d hd => by obtain ⟨e, he⟩ := key v d hd; exact refuse_rest.pack v e he,
    fun v d hd => by obtain ⟨e, he⟩ := key v d hd; exact refuse_rest.size v e he,
    fun v d hv hd => by obtain ⟨e, he⟩ := key v d hd; exact refuse_rest.usize v e hv he⟩

theorem charPackRaw_ascii {n s} (h : ∀ c ∈ s, c.toNat < 128) : OnlyPack (charPackRaw n (.str s)) := by
  unfold charPackRaw
  simp only [asciiEncode_eq s h]
  exact .ok _

theorem refuse_text {n} : Refuse (charAttr n) (text n) where
  pack := by
    intro v d hd
    cases v <;> simp only [text, reduceCtorEq] at hd
    · split at hd
      · rename_i h; exact charPackRaw_ascii h
      · cases hd
    · rename_i x m
      cases x <;> simp only [reduceCtorEq] at hd
      split at hd
      · rename_i h; exact charPackRaw_ascii h.2
      · cases hd
  size := fun _ _ _ => .ok _
  usize := fun _ _ _ _ => .ok _

/-! ## Structures -/

theorem only_packAttrs_cons {n c cs v vs} (h1 : OnlyPack (c.pack v)) (h2 : OnlyPack (packAttrs cs vs)) :
    OnlyPack (packAttrs ((n, c) :: cs) (v :: vs)) := by
  unfold packAttrs
  split
  · rename_i e he; rw [he] at h1; exact h1 e rfl ▸ .pack
  · split
    · rename_i e he; rw [he] at h2; exact h2 e rfl ▸ .pack
    · exact .ok _

theorem only_sizeAttrs_cons {n c cs v vs} (h1 : Succeeds (c.size v)) (h2 : Succeeds (sizeAttrs cs vs)) :
    Succeeds (sizeAttrs ((n, c) :: cs) (v :: vs)) := by
  unfold sizeAttrs
  split
  · rename_i e he; rw [he] at h1; exact absurd h1 Succeeds.not_error
  · split
    · rename_i e he; rw [he] at h2; exact absurd h2 Succeeds.not_error
    · exact .ok _

theorem only_packAttrs_nil {vs} : OnlyPack (packAttrs [] vs) := by unfold packAttrs; exact .ok _
theorem only_sizeAttrs_nil {vs} : Succeeds (sizeAttrs [] vs) := by unfold sizeAttrs; exact .ok _

theorem Spec.RefuseAll.pack {cs fs} (h : RefuseAll cs fs) {vs ds} (hd : denAll fs vs = some ds) : OnlyPack (packAttrs cs vs) := by
  induction h generalizing vs ds with
  | nil => exact only_packAttrs_nil
  | cons h1 _ ih =>
    obtain ⟨v, vs, d, ds, rfl, h2, h3, rfl⟩ := denAll_cons_inv hd
    exact only_packAttrs_cons (h1.pack _ _ h2) (ih h3)

theorem Spec.RefuseAll.size {cs fs} (h : RefuseAll cs fs) {vs ds} (hd : denAll fs vs = some ds) : Succeeds (sizeAttrs cs vs) := by
  induction h generalizing vs ds with
  | nil => exact only_sizeAttrs_nil
  | cons h1 _ ih =>
    obtain ⟨v, vs, d, ds, rfl, h2, h3, rfl⟩ := denAll_cons_inv hd
    exact only_sizeAttrs_cons (h1.size _ _ h2) (ih h3)

theorem refuse_struct {cls cs init fs} (h : RefuseAll cs fs) : Refuse (structAttr cls cs init) (struct cls fs) where
  pack := fun v d hd => by
    obtain ⟨vs, ds, rfl, h1, rfl⟩ := struct_den_inv hd
    simp only [structAttr, if_true]
    exact h.pack h1
  size := fun v d hd => by
    obtain ⟨vs, ds, rfl, h1, rfl⟩ := struct_den_inv hd
    simp only [structAttr, if_true]
    exact h.size h1
  usize := fun v d _ hd => by
    obtain ⟨vs, ds, rfl, h1, rfl⟩ := struct_den_inv hd
    simp only [structAttr, if_true]
    exact h.size h1

/-! ## Lists -/

theorem only_packItems {it f} (h : Refuse it f) : ∀ {xs ds}, optMap f.den xs = some ds → OnlyPack (packItems it xs) := by
  intro xs
  induction xs with
  | nil => intro ds _; unfold packItems; exact .ok _
  | cons x xs ih =>
    intro ds hd
    obtain ⟨d, es, h1, h2, rfl⟩ := optMap_cons_inv hd
    have h3 := h.pack x d h1
    have h4 := ih h2
    unfold packItems
    split
    · rename_i e he; rw [he] at h3; exact h3 e rfl ▸ .pack
    · split
      · rename_i e he; rw [he] at h4; exact h4 e rfl ▸ .pack
      · exact .ok _

theorem only_sizeItems {it f} (h : Refuse it f) (hn : ∀ x d, f.den x = some d → x ≠ .none) :
    ∀ {xs ds}, optMap f.den xs = some ds → Succeeds (sizeItems it xs) := by
  intro xs
  induction xs with
  | nil => intro ds _; unfold sizeItems; exact .ok _
  | cons x xs ih =>
    intro ds hd
    obtain ⟨d, es, h1, h2, rfl⟩ := optMap_cons_inv hd
    have h3 := h.usize x d (hn x d h1) h1
    have h4 := ih h2
    unfold sizeItems
    split
    · rename_i e he; rw [he] at h3; exact absurd h3 Succeeds.not_error
    · split
      · rename_i e he; rw [he] at h4; exact absurd h4 Succeeds.not_error
      · exact .ok _

theorem refuse_list {isItem it f} (h : Refuse it f) (hi : ItemOk isItem f) : Refuse (listAttr isItem it) (list f) := by
  have hf : ∀ {xs ds}, optMap f.den xs = some ds → addItems isItem xs = .ok xs := fun {xs ds} h1 =>
    addItems_flat fun x hx => by
      obtain ⟨d, hd⟩ := optMap_mem h1 x hx
      exact ⟨hi.isItem x d hd, (hi.notList x d hd).1⟩
  have hn := fun x d hd => (hi.notList x d hd).2
  constructor
  · intro v d hd
    rcases list_den_inv hd with ⟨rfl, rfl⟩ | ⟨g, xs, ds, rfl, h1, rfl⟩
    · exact .ok _
    · simp only [listAttr, hf h1]
      exact only_packItems h h1
  · intro v d hd
    rcases list_den_inv hd with ⟨rfl, rfl⟩ | ⟨g, xs, ds, rfl, h1, rfl⟩
    · exact .ok _
    · simp only [listAttr, hf h1]
      exact only_sizeItems h hn h1
  · intro v d hv hd
    rcases list_den_inv hd with ⟨rfl, rfl⟩ | ⟨g, xs, ds, rfl, h1, rfl⟩
    · exact absurd rfl hv
    · simp only [listAttr]
      exact only_sizeItems h hn h1

theorem refuse_bareList {isItem it f} (h : Refuse it f) (hi : ItemOk isItem f) : Refuse (bareListAttr isItem it) (bareList f) := by
  have hn := fun x d hd => (hi.notList x d hd).2
  have inv : ∀ v d, (bareList f).den v = some d → v = .none ∨ ∃ xs ds, v = .list true xs ∧ optMap f.den xs = some ds := by
    intro v d hd
    simp only [bareList] at hd
    split at hd
    · exact .inl rfl
    · simp only [list, Option.map_eq_some_iff] at hd
      obtain ⟨ds, h1, _⟩ := hd
      exact .inr ⟨_, ds, rfl, h1⟩
    · cases hd
  constructor
  · intro v d hd
    rcases inv v d hd with rfl | ⟨xs, ds, rfl, h1⟩
    · exact .ok _
    · exact only_packItems h h1
  · intro v d _; exact .ok _
  · intro v d hv hd
    rcases inv v d hd with rfl | ⟨xs, ds, rfl, h1⟩
    · exact absurd rfl hv
    · exact only_sizeItems h hn h1

theorem refuse_noItems {isItem it} : Refuse (bareListAttr isItem it) noItems := by
  have inv : ∀ v d, noItems.den v = some d → v = .none ∨ v = .list true [] := by
    intro v d hd
    simp only [noItems] at hd
    split at hd
    · exact .inl rfl
    · exact .inr rfl
    · cases hd
  constructor
  · intro v d hd
    rcases inv v d hd with rfl | rfl <;> exact .ok _
  · intro v d _; exact .ok _
  · intro v d hv hd
    rcases inv v d hd with rfl | rfl
    · exact absurd rfl hv
    · exact .ok _

theorem Spec.Refuse.cut {c f} (h : Refuse c f) (k : Nat) : Refuse (lengthCut k c) f := ⟨h.pack, h.size, h.usize⟩
theorem Spec.Refuse.delimited {c f} (h : Refuse c f) (k : Nat) : Refuse c (Spec.delimited k f) := ⟨h.pack, h.size, h.usize⟩
theorem Spec.Refuse.atMostOne {c f} (h : Refuse c (Spec.list f)) : Refuse c (Spec.atMostOne f) := ⟨h.pack, h.size, h.usize⟩
theorem Spec.Refuse.pad8 {c f} (h : Refuse c f) : Refuse c (Spec.pad8 f) := ⟨h.pack, h.size, h.usize⟩
theorem Spec.Refuse.exact {c f} (h : Refuse c f) (k : Nat) : Refuse c (Spec.exact k f) := by
  have key : ∀ v d, (Spec.exact k f).den v = some d → ∃ e, f.den v = some e := by
    intro v d hd
    simp only [Spec.exact] at hd
    split at hd
    · exact ⟨_, by assumption⟩
    · cases hd
  exact ⟨fun v d hd => by obtain ⟨e, he⟩ := key v d hd; exact h.pack v e he,
    fun v d hd => by obtain ⟨e, he⟩ := key v d hd; exact h.size v e he,
    fun v d hv hd => by obtain ⟨e, he⟩ := key v d hd; exact h.usize v e hv he⟩

theorem Spec.Refuse.orDefault {c f d} (h : Refuse c f) (hp : OnlyPack (c.pack .none)) (hs : Succeeds (c.size .none)) :
    Refuse c (Spec.orDefault d f) := by
  have key : ∀ v, v ≠ .none → (Spec.orDefault d f).den v = f.den v := by
    intro v hv
    cases v <;> first | rfl | exact absurd rfl hv
  refine ⟨?_, ?_, ?_⟩
  · intro v e hd
    by_cases hv : v = .none
    · subst hv; exact hp
    · exact h.pack v e (key v hv ▸ hd)
  · intro v e hd
    by_cases hv : v = .none
    · subst hv; exact hs
    · exact h.size v e (key v hv ▸ hd)
  · intro v e hv hd
    exact h.usize v e hv (key v hv ▸ hd)

/-! ## Families of classes -/

theorem refuse_variant {proto ref trunc pick subs sel lay}
    (h : ∀ t c, sel t = some c → ∃ s, subOf subs c = some s ∧ ∀ vs d, (lay c).den (.obj c vs) = some d →
      OnlyPack (s.pack vs) ∧ Succeeds (s.size vs)) :
    Refuse (variantAttr proto ref trunc pick subs) (union sel lay) := by
  refine ⟨?_, ?_, ?_⟩
  all_goals
    intro v d
    intros
    rename_i hd
    obtain ⟨c, vs, t, ds, rfl, h1, hc, rfl⟩ := union_den_inv hd
    obtain ⟨s, hs, h2⟩ := h t c hc
    simp only [variantAttr, hs]
    first | exact (h2 vs _ h1).1 | exact (h2 vs _ h1).2

/-! ## Own lengths -/

theorem only_pack_append {cs₁ fs₁ cs₂ vs₁ ds₁ vs₂} (h1 : RefuseAll cs₁ fs₁) (hd : denAll fs₁ vs₁ = some ds₁)
    (h2 : OnlyPack (packAttrs cs₂ vs₂)) : OnlyPack (packAttrs (cs₁ ++ cs₂) (vs₁ ++ vs₂)) := by
  induction h1 generalizing vs₁ ds₁ with
  | nil => obtain ⟨rfl, rfl⟩ := denAll_nil_inv hd; exact h2
  | cons h3 _ ih =>
    obtain ⟨v, vs, d, ds, rfl, h4, h5, rfl⟩ := denAll_cons_inv hd
    exact only_packAttrs_cons (h3.pack _ _ h4) (ih h5)

theorem only_size_append {cs₁ fs₁ cs₂ vs₁ ds₁ vs₂} (h1 : RefuseAll cs₁ fs₁) (hd : denAll fs₁ vs₁ = some ds₁)
    (h2 : Succeeds (sizeAttrs cs₂ vs₂)) : Succeeds (sizeAttrs (cs₁ ++ cs₂) (vs₁ ++ vs₂)) := by
  induction h1 generalizing vs₁ ds₁ with
  | nil => obtain ⟨rfl, rfl⟩ := denAll_nil_inv hd; exact h2
  | cons h3 _ ih =>
    obtain ⟨v, vs, d, ds, rfl, h4, h5, rfl⟩ := denAll_cons_inv hd
    exact only_sizeAttrs_cons (h3.size _ _ h4) (ih h5)

/-- The size and `pack` of a class that sets its own length. -/
theorem only_auto {cls cs₁ cs₂ m ref dv fs₁ fs₂ cs i w} (h1 : RefuseAll cs₁ fs₁) (h2 : RefuseAll cs₂ fs₂)
    (hc : cs = cs₁ ++ (m, ubint w ref dv) :: cs₂) (hi : i = fs₁.length) {vs d} (hd : (ownLen cls fs₁ fs₂).den (.obj cls vs) = some d) :
    Succeeds (sizeAttrs cs vs) ∧ OnlyPack (autoPack cs i vs) ∧ ∀ k : Nat, Succeeds (sizeAttrs cs (vs.set i (.int k))) := by
  subst hc hi
  obtain ⟨vs₁, l, vs₂, ds₁, ds₂, hv, rfl, hd1, hd2⟩ := ownLen_den_inv hd
  cases hv
  have hs : ∀ x, Succeeds (sizeAttrs (cs₁ ++ (m, ubint w ref dv) :: cs₂) (vs₁ ++ x :: vs₂)) := fun x =>
    only_size_append h1 hd1 (only_sizeAttrs_cons (.ok _) (h2.size hd2))
  have hset : ∀ x, (vs₁ ++ l :: vs₂).set fs₁.length x = vs₁ ++ x :: vs₂ := by
    intro x
    rw [← (denAll_length hd1).1, List.set_append_right _ _ (by omega)]
    simp
  refine ⟨hs l, ?_, fun k => by rw [hset]; exact hs _⟩
  unfold autoPack withLength
  have := hs l
  split
  · rename_i e he
    split at he
    · rename_i e' he'
      cases he
      rw [he'] at this
      exact absurd this Succeeds.not_error
    · cases he
  · rename_i ws he
    split at he
    · cases he
    · cases he
      rw [hset]
      exact only_pack_append h1 hd1 (only_packAttrs_cons (ubint_only _) (h2.pack hd2))

theorem refuse_own {cls cs₁ cs₂ m ref dv fs₁ fs₂ cs i init w} (h1 : RefuseAll cs₁ fs₁) (h2 : RefuseAll cs₂ fs₂)
    (hc : cs = cs₁ ++ (m, ubint w ref dv) :: cs₂) (hi : i = fs₁.length) : Refuse (autoStruct cls cs i init) (ownLen cls fs₁ fs₂) := by
  refine ⟨?_, ?_, ?_⟩
  all_goals
    intro v d
    intros
    rename_i hd
    obtain ⟨vs₁, l, vs₂, ds₁, ds₂, rfl, _⟩ := ownLen_den_inv hd
    have := only_auto h1 h2 hc hi hd
    simp only [autoStruct, structAttr, if_true]
    first | exact this.2.1 | exact this.1

/-! ## Messages -/

theorem header_only (ver types a t l x) : OnlyPack (packAttrs (headerFields ver types) [a, t, l, x]) :=
  only_packAttrs_cons (ubint_only _) (only_packAttrs_cons (ubint_only _) (only_packAttrs_cons (ubint_only _)
    (only_packAttrs_cons (ubint_only _) only_packAttrs_nil)))

/-- `GenericMessage.pack` raises `PackException` or what `is_valid` raises. -/
theorem genericPack_only {m : MsgCls} {a t l x vs} (hs : Succeeds (sizeAttrs m.body vs)) (hp : OnlyPack (packAttrs m.body vs))
    {e} (h : genericPack m (.obj (hdrName m.ver) [a, t, l, x]) vs = .error e) : e = .pack ∨ m.valid vs = .error e := by
  have h1 : Succeeds (sizeAttrs m.fields (.obj (hdrName m.ver) [a, t, l, x] :: vs)) := by
    refine only_sizeAttrs_cons ?_ hs
    simp only [headerAttr, structAttr, if_true]
    exact .ok _
  simp only [genericPack, setLength] at h
  split at h
  · rename_i e' he
    cases h
    rw [he] at h1; exact absurd h1 Succeeds.not_error
  · split at h
    · rename_i hv
      cases h
      exact .inr hv
    · refine .inl (only_packAttrs_cons ?_ hp e h)
      simp only [headerAttr, structAttr, if_true]
      exact header_only _ _ _ _ _ _

theorem genericPack_invalid {m : MsgCls} {a t l x vs e} (hs : Succeeds (sizeAttrs m.body vs)) (hv : m.valid vs = .error e) :
    genericPack m (.obj (hdrName m.ver) [a, t, l, x]) vs = .error e := by
  have h1 : Succeeds (sizeAttrs m.fields (.obj (hdrName m.ver) [a, t, l, x] :: vs)) := by
    refine only_sizeAttrs_cons ?_ hs
    simp only [headerAttr, structAttr, if_true]
    exact .ok _
  obtain ⟨n, hn⟩ := h1
  simp only [genericPack, hn, setLength, hv]

/-- What `PackOk` leaves open: with which exception a message of class `m` is refused. -/
def MsgRefuse (m : MsgCls) (s : MsgFmt) : Prop :=
  ∀ a t l x vs d, s.fmt.den (.obj s.name vs) = some d →
    OnlyPack (m.pack (.obj s.name (.obj (hdrName m.ver) [a, t, l, x] :: vs)))

theorem msgRefuse_plain {m : MsgCls} {s : MsgFmt} {fs} (hp : m.prep = fun vs => .ok vs) (hv : m.valid = fun _ => .ok ())
    (hf : s.fmt.den = (struct s.name fs).den) (h : RefuseAll m.body fs) : MsgRefuse m s := by
  intro a t l x vs d hd e he
  rw [hf] at hd
  obtain ⟨ws, ds, hw, h1, rfl⟩ := struct_den_inv hd
  cases hw
  simp only [MsgCls.pack, hp] at he
  rcases genericPack_only (h.size h1) (h.pack h1) he with h2 | h2
  · exact h2
  · rw [hv] at h2; cases h2

/-- Proves `RefuseAll` for a declaration. -/
macro "refuse_fields" : tactic => `(tactic| (
  repeat' first
    | exact RefuseAll.nil
    | refine RefuseAll.cons refuse_uint ?_
    | refine RefuseAll.cons refuse_pad ?_
    | refine RefuseAll.cons refuse_text ?_
    | refine RefuseAll.cons refuse_rest ?_
    | refine RefuseAll.cons refuse_rest8 ?_
    | refine RefuseAll.cons refuse_dpid ?_
    | refine RefuseAll.cons (refuse_hw (by decide +kernel)) ?_
    | refine RefuseAll.cons (refuse_ip (by decide +kernel)) ?_
    | refine RefuseAll.cons (by assumption) ?_
    | refine RefuseAll.cons refuse_noItems ?_
    | refine RefuseAll.cons (refuse_struct ?_) ?_))

end Pyof
