import Verif.Spec.Again
import Verif.Lemmas.Layout
import Verif.Lemmas.Msg
/-! Packing twice gives the same bytes: structures, lists, families, messages. -/
namespace Pyof
open Spec

theorem idem_id {c : Attr} (h : c.post = id) : Idem c := by
  constructor <;> intro v b hb <;> rw [h] <;> first | exact hb | rfl

theorem idem_ubint {w ref dv} : Idem (ubint w ref dv) := idem_id rfl

theorem postAttrs_again {fs : Fields} (h : ∀ p ∈ fs, Idem p.2) {vs b} (hb : packAttrs fs vs = .ok b) :
    packAttrs fs (postAttrs fs vs) = .ok b ∧ sizeAttrs fs (postAttrs fs vs) = sizeAttrs fs vs := by
  induction fs generalizing vs b with
  | nil => cases vs <;> simp_all [postAttrs, packAttrs, sizeAttrs]
  | cons p fs ih =>
    obtain ⟨n, c⟩ := p
    cases vs with
    | nil => exact ⟨hb, rfl⟩
    | cons v vs =>
      obtain ⟨x, y, hx, hy, rfl⟩ := packAttrs_cons.1 hb
      have hc := h _ List.mem_cons_self
      obtain ⟨i1, i2⟩ := ih (fun p hp => h p (List.mem_cons_of_mem _ hp)) hy
      refine ⟨packAttrs_cons.2 ⟨x, y, hc.pack v x hx, i1, rfl⟩, ?_⟩
      have hs := hc.size v x hx
      simp only [] at hs
      simp only [postAttrs, sizeAttrs, hs, i2]

theorem idem_struct {cls fs init} (h : ∀ p ∈ fs, Idem p.2) : Idem (structAttr cls fs init) := by
  constructor
  all_goals
    intro v b hb
    cases v
    case obj c vs =>
      by_cases hc : c = cls
      · subst hc
        simp only [structAttr, if_true] at hb ⊢
        first | exact (postAttrs_again h hb).1 | exact (postAttrs_again h hb).2
      · simp [structAttr, hc] at hb
    all_goals first | exact hb | rfl

/-- Packing only sees what `pack` sees: other ways of decoding do not matter. -/
theorem Spec.Idem.cut {c : Attr} (h : Idem c) (k : Nat) : Idem (lengthCut k c) := ⟨h.pack, h.size, h.usize⟩

/-! ## Lists -/

/-- What packing a list does to its items. -/
structure ItemPost (isItem : Val → Bool) (it : Attr) (post : Val → Val) : Prop where
  pack : ∀ x b, isItem x → it.pack x = .ok b → it.pack (post x) = .ok b
  usize : ∀ x b, isItem x → it.pack x = .ok b → it.usize (post x) = it.usize x
  keep : ∀ x, isItem x → isItem (post x)
  list : ∀ f xs, isItem (.list f xs) = false
  listPost : ∀ f xs, post (.list f xs) = .list f xs

theorem packItems_append {it xs ys} : packItems it (xs ++ ys) =
    match packItems it xs with
    | .error e => .error e
    | .ok a => match packItems it ys with | .error e => .error e | .ok b => .ok (a ++ b) := by
  induction xs with
  | nil => cases h : packItems it ys <;> simp [packItems, h]
  | cons x xs ih =>
    simp only [List.cons_append, packItems, ih]
    cases it.pack x with
    | error e => rfl
    | ok a =>
      cases packItems it xs with
      | error e => rfl
      | ok b => cases packItems it ys <;> simp

theorem packItems_append_ok {it xs ys b} : packItems it (xs ++ ys) = .ok b ↔
    ∃ a c, packItems it xs = .ok a ∧ packItems it ys = .ok c ∧ b = a ++ c := by
  rw [packItems_append]
  cases packItems it xs with
  | error e => simp
  | ok a => cases packItems it ys <;> simp [eq_comm]

theorem sizeItems_append {it xs ys} : sizeItems it (xs ++ ys) =
    match sizeItems it xs with
    | .error e => .error e
    | .ok a => match sizeItems it ys with | .error e => .error e | .ok b => .ok (a + b) := by
  induction xs with
  | nil => cases h : sizeItems it ys <;> simp [sizeItems, h]
  | cons x xs ih =>
    simp only [List.cons_append, sizeItems, ih]
    cases it.usize x with
    | error e => rfl
    | ok a =>
      cases sizeItems it xs with
      | error e => rfl
      | ok b => cases sizeItems it ys <;> simp [Nat.add_assoc]

theorem addItem_item {isItem x} (h : ∀ f xs, x ≠ .list f xs) :
    addItem isItem x = if isItem x then .ok [x] else .error .wrongItem := by
  cases x <;> first | rfl | exact absurd rfl (h _ _)

theorem addItems_again {isItem it post} (h : ItemPost isItem it post) {xs ys b}
    (ha : addItems isItem xs = .ok ys) (hb : packItems it ys = .ok b) :
    ∃ zs, addItems isItem (xs.map post) = .ok zs ∧ packItems it zs = .ok b ∧ sizeItems it zs = sizeItems it ys ∧
      sizeItems it (xs.map post) = sizeItems it xs := by
  induction xs generalizing ys b with
  | nil => simp [addItems] at ha; subst ha; exact ⟨[], rfl, hb, rfl, rfl⟩
  | cons x xs ih =>
    rw [addItems] at ha
    cases hx : addItem isItem x with
    | error e => simp [hx] at ha
    | ok a =>
      cases hr : addItems isItem xs with
      | error e => simp [hx, hr] at ha
      | ok r =>
        simp only [hx, hr, Except.ok.injEq] at ha
        subst ha
        obtain ⟨c, d, hc, hd, rfl⟩ := packItems_append_ok.1 hb
        obtain ⟨zs, i1, i2, i3, i4⟩ := ih hr hd
        by_cases hl : ∃ f ws, x = .list f ws
        · obtain ⟨f, ws, rfl⟩ := hl
          refine ⟨a ++ zs, ?_, packItems_append_ok.2 ⟨c, d, hc, i2, rfl⟩, ?_, ?_⟩
          · simp only [List.map_cons, h.listPost, addItems, hx, i1]
          · simp only [sizeItems_append, i3]
          · simp only [List.map_cons, h.listPost, sizeItems, i4]
        · have hx' := addItem_item (isItem := isItem) (x := x) (fun f ws e => hl ⟨f, ws, e⟩)
          rw [hx'] at hx
          by_cases hi : isItem x
          · simp only [hi, if_true, Except.ok.injEq] at hx
            subst hx
            have hpx : it.pack x = .ok c := by
              simp only [packItems] at hc
              cases hp : it.pack x with
              | error e => simp [hp] at hc
              | ok q => simp only [hp, List.append_nil] at hc; exact hc
            have hk := h.keep x hi
            have hnl : ∀ f ws, post x ≠ .list f ws := by
              intro f ws e
              rw [e, h.list] at hk
              cases hk
            have hu := h.usize x c hi hpx
            refine ⟨post x :: zs, ?_, ?_, ?_, ?_⟩
            · simp only [List.map_cons, addItems, addItem_item hnl, hk, if_true, i1, List.cons_append, List.nil_append]
            · simp only [packItems, h.pack x c hi hpx, i2]
            · simp only [List.cons_append, List.nil_append, sizeItems, hu, i3]
            · simp only [List.map_cons, sizeItems, hu, i4]
          · simp [hi] at hx

theorem packItems_again {it : Attr} (h : Idem it) {xs b} (hb : packItems it xs = .ok b) :
    packItems it (xs.map it.post) = .ok b ∧ sizeItems it (xs.map it.post) = sizeItems it xs := by
  induction xs generalizing b with
  | nil => exact ⟨hb, rfl⟩
  | cons x xs ih =>
    obtain ⟨c, d, hc, hd, rfl⟩ := packItems_append_ok.1 (show packItems it ([x] ++ xs) = .ok b from hb)
    have hpx : it.pack x = .ok c := by
      simp only [packItems] at hc
      cases hp : it.pack x with
      | error e => simp [hp] at hc
      | ok q => simp only [hp, List.append_nil] at hc; exact hc
    obtain ⟨i1, i2⟩ := ih hd
    constructor
    · simp only [List.map_cons, packItems, h.pack x c hpx, i1]
    · simp only [List.map_cons, sizeItems, h.usize x c hpx, i2]

theorem idem_list {isItem it} (h : ItemPost isItem it it.post) : Idem (listAttr isItem it) := by
  have key : ∀ xs b, (match addItems isItem xs with | .error e => .error e | .ok ys => packItems it ys) = Except.ok b →
      ∃ ys zs, addItems isItem xs = .ok ys ∧ addItems isItem (xs.map it.post) = .ok zs ∧ packItems it zs = .ok b ∧
        sizeItems it zs = sizeItems it ys ∧ sizeItems it (xs.map it.post) = sizeItems it xs := by
    intro xs b hb
    cases ha : addItems isItem xs with
    | error e => simp [ha] at hb
    | ok ys =>
      simp only [ha] at hb
      obtain ⟨zs, h1, h2, h3, h4⟩ := addItems_again h ha hb
      exact ⟨ys, zs, rfl, h1, h2, h3, h4⟩
  constructor
  all_goals
    intro v b hb
    cases v
    case list f xs =>
      obtain ⟨ys, zs, h0, h1, h2, h3, h4⟩ := key xs b hb
      simp only [listAttr, h0, h1, h2, h3, h4]
    all_goals first | exact hb | rfl

theorem idem_bareList {isItem it} (h : Idem it) : Idem (bareListAttr isItem it) := by
  constructor
  all_goals
    intro v b hb
    cases v
    case list f xs =>
      cases f with
      | false => exact absurd hb (by simp [bareListAttr])
      | true =>
        obtain ⟨h1, h2⟩ := packItems_again h (show packItems it xs = .ok b from hb)
        first | exact h1 | exact h2 | rfl
    all_goals first | exact hb | rfl

/-! ## Families and objects with a class -/

theorem isSub_iff {subs v} : isSub subs v = true ↔ ∃ c vs s, v = .obj c vs ∧ subOf subs c = some s := by
  cases v <;> simp [isSub, Option.isSome_iff_exists]

theorem idem_variant {proto ref trunc pick subs} (h : ∀ s ∈ subs, SubIdem s) :
    Idem (variantAttr proto ref trunc pick subs) := by
  constructor
  all_goals
    intro v b hb
    cases v
    case obj c vs =>
      cases hs : subOf subs c with
      | none => simp [variantAttr, hs] at hb
      | some s =>
        have hm := h s (List.mem_of_find?_eq_some hs)
        simp only [variantAttr, hs] at hb ⊢
        first | exact hm.pack vs b hb | exact hm.size vs b hb
    all_goals first | exact hb | rfl

theorem itemPost_variant {proto ref trunc pick subs} (h : ∀ s ∈ subs, SubIdem s) :
    ItemPost (isSub subs) (variantAttr proto ref trunc pick subs) (variantAttr proto ref trunc pick subs).post where
  pack := fun x b _ => (idem_variant h).pack x b
  usize := fun x b _ => (idem_variant h).usize x b
  keep := by
    intro x hx
    obtain ⟨c, vs, s, rfl, hs⟩ := isSub_iff.1 hx
    exact isSub_iff.2 ⟨c, s.post vs, s, by simp only [variantAttr, hs], hs⟩
  list := fun _ _ => rfl
  listPost := fun _ _ => rfl

/-- The post function of a class keeps the class. -/
structure KeepsClass (it : Attr) (cls : String) : Prop where
  obj : ∀ vs, ∃ ws, it.post (.obj cls vs) = .obj cls ws
  list : ∀ f xs, it.post (.list f xs) = .list f xs

theorem isObj_iff {c v} : isObj c v = true ↔ ∃ vs, v = .obj c vs := by
  cases v <;> simp [isObj]

theorem itemPost_obj {cls it} (h : Idem it) (hk : KeepsClass it cls) : ItemPost (isObj cls) it it.post where
  pack := fun x b _ => h.pack x b
  usize := fun x b _ => h.usize x b
  keep := by
    intro x hx
    obtain ⟨vs, rfl⟩ := isObj_iff.1 hx
    obtain ⟨ws, hw⟩ := hk.obj vs
    exact isObj_iff.2 ⟨ws, hw⟩
  list := fun _ _ => rfl
  listPost := hk.list

theorem keeps_struct {cls fs init} : KeepsClass (structAttr cls fs init) cls :=
  ⟨fun vs => ⟨postAttrs fs vs, by simp [structAttr]⟩, fun _ _ => rfl⟩
theorem keeps_auto {cls fs i init} : KeepsClass (autoStruct cls fs i init) cls :=
  ⟨fun vs => ⟨autoPost fs i vs, by simp [autoStruct]⟩, fun _ _ => rfl⟩
theorem KeepsClass.cut {c cls} (h : KeepsClass c cls) (k : Nat) : KeepsClass (lengthCut k c) cls := ⟨h.obj, h.list⟩

/-! ## Stored lengths -/

theorem postAttrs_set {fs : Fields} {i vs x} {c : String × Attr} (hc : fs[i]? = some c) :
    (postAttrs fs vs).set i (c.2.post x) = postAttrs fs (vs.set i x) := by
  induction fs generalizing i vs with
  | nil => simp at hc
  | cons p fs ih =>
    obtain ⟨n, d⟩ := p
    cases vs with
    | nil => cases i <;> rfl
    | cons v vs =>
      cases i with
      | zero => simp at hc; subst hc; rfl
      | succ i =>
        simp only [List.getElem?_cons_succ] at hc
        simp only [postAttrs, List.set_cons_succ, ih hc]

/-- Attribute `i` has a fixed size and is not touched by packing. -/
def LenAt (fs : Fields) (i : Nat) : Prop := ∃ c, fs[i]? = some c ∧ c.2.post = id ∧ ∃ k, ∀ v, c.2.size v = .ok k

theorem sizeAttrs_lenAt {fs i vs x} (h : LenAt fs i) : sizeAttrs fs (vs.set i x) = sizeAttrs fs vs := by
  obtain ⟨c, hc, -, k, hk⟩ := h
  refine sizeAttrs_set (k := k) (fun d hd => ?_)
  rw [hc] at hd
  cases hd
  exact hk

theorem withLength_again {fs i vs ws b} (h : ∀ p ∈ fs, Idem p.2) (hl : LenAt fs i)
    (hw : withLength fs i vs = .ok ws) (hb : packAttrs fs ws = .ok b) :
    withLength fs i (postAttrs fs ws) = .ok (postAttrs fs ws) ∧ packAttrs fs (postAttrs fs ws) = .ok b ∧
      sizeAttrs fs (postAttrs fs ws) = sizeAttrs fs vs ∧ sizeAttrs fs ws = sizeAttrs fs vs := by
  obtain ⟨h1, h2⟩ := postAttrs_again h hb
  unfold withLength at hw
  cases hs : sizeAttrs fs vs with
  | error e => simp [hs] at hw
  | ok n =>
    simp only [hs, Except.ok.injEq] at hw
    subst hw
    have h3 : sizeAttrs fs (vs.set i (.int n)) = .ok n := (sizeAttrs_lenAt hl).trans hs
    refine ⟨?_, h1, h2.trans h3, h3⟩
    obtain ⟨c, hc, hp, -⟩ := hl
    simp only [withLength, h2, h3]
    have := postAttrs_set (vs := vs.set i (.int n)) (x := Val.int n) hc
    rw [hp] at this
    simpa using this

theorem autoPost_again {fs i vs b} (h : ∀ p ∈ fs, Idem p.2) (hl : LenAt fs i) (hb : autoPack fs i vs = .ok b) :
    autoPack fs i (autoPost fs i vs) = .ok b ∧ sizeAttrs fs (autoPost fs i vs) = sizeAttrs fs vs := by
  unfold autoPack at hb
  cases hw : withLength fs i vs with
  | error e => simp [hw] at hb
  | ok ws =>
    simp only [hw] at hb
    obtain ⟨h1, h2, h3, -⟩ := withLength_again h hl hw hb
    simp only [autoPost, hw, autoPack, h1, h2, h3, and_self]

theorem idem_auto {cls fs i init} (h : ∀ p ∈ fs, Idem p.2) (hl : LenAt fs i) : Idem (autoStruct cls fs i init) := by
  constructor
  all_goals
    intro v b hb
    cases v
    case obj c vs =>
      by_cases hc : c = cls
      · subst hc
        have hb' : autoPack fs i vs = .ok b := by simpa [autoStruct] using hb
        obtain ⟨h1, h2⟩ := autoPost_again h hl hb'
        simp only [autoStruct, structAttr, if_true]
        first | exact h1 | exact h2
      · simp [autoStruct, hc] at hb
    all_goals first | exact hb | rfl

theorem subIdem_plain {name fs} (h : ∀ p ∈ fs, Idem p.2) : SubIdem (plainSub name fs) :=
  ⟨fun _ _ hb => (postAttrs_again h hb).1, fun _ _ hb => (postAttrs_again h hb).2⟩

theorem subIdem_auto {name fs i} (h : ∀ p ∈ fs, Idem p.2) (hl : LenAt fs i) : SubIdem (autoSub name fs i) :=
  ⟨fun _ _ hb => (autoPost_again h hl hb).1, fun _ _ hb => (autoPost_again h hl hb).2⟩

/-! ## Messages -/

theorem setLength_inv {n hdr h'} (h : setLength n hdr = .ok h') :
    ∃ c a t l x, hdr = .obj c [a, t, l, x] ∧ h' = .obj c [a, t, .int n, x] := by
  unfold setLength at h
  split at h
  · cases h; exact ⟨_, _, _, _, _, rfl, rfl⟩
  · cases h

/-- The body as packed a second time must look the same to `get_size`, `is_valid` and `pack`. -/
theorem msgIdem_of {m : MsgCls}
    (h : ∀ vs ws b, m.prep vs = .ok ws → packAttrs m.body ws = .ok b →
      ∃ ws', m.prep (m.after vs) = .ok ws' ∧ packAttrs m.body ws' = .ok b ∧ sizeAttrs m.body ws' = sizeAttrs m.body ws ∧
        m.valid ws' = m.valid ws) : MsgIdem m := by
  intro v p hp
  unfold MsgCls.pack at hp
  split at hp
  · rename_i c hdr vs
    cases hpr : m.prep vs with
    | error e => simp [hpr] at hp
    | ok ws =>
      simp only [hpr] at hp
      unfold genericPack at hp
      cases hs : sizeAttrs m.fields (hdr :: ws) with
      | error e => simp [hs] at hp
      | ok n =>
        simp only [hs] at hp
        cases hl : setLength n hdr with
        | error e => simp [hl] at hp
        | ok hdr' =>
          simp only [hl] at hp
          cases hv : m.valid ws with
          | error e => simp [hv] at hp
          | ok u =>
            simp only [hv] at hp
            obtain ⟨x, y, hx, hy, rfl⟩ := packAttrs_cons.1 hp
            obtain ⟨ws', h1, h2, h3, h4⟩ := h vs ws y hpr hy
            obtain ⟨hc, a, t, l, xid, rfl, rfl⟩ := setLength_inv hl
            have hs' : sizeAttrs m.fields (.obj hc [a, t, .int n, xid] :: ws') = .ok n := by
              rw [← hs]
              simp only [MsgCls.fields, sizeAttrs, h3]
              rfl
            simp only [MsgCls.post, hpr, hs, hl, MsgCls.pack, h1, genericPack, hs', setLength, h4, hv]
            exact packAttrs_cons.2 ⟨x, y, hx, h2, rfl⟩
  · cases hp

/-- A class that overrides nothing. -/
theorem msgIdem_plain {m : MsgCls} (hp : m.prep = fun vs => .ok vs) (hv : m.valid = fun _ => .ok ())
    (ha : m.after = fun vs => postAttrs m.body vs) (h : ∀ p ∈ m.body, Idem p.2) : MsgIdem m := by
  refine msgIdem_of fun vs ws b h1 h2 => ?_
  rw [hp] at h1
  cases h1
  obtain ⟨h3, h4⟩ := postAttrs_again h h2
  exact ⟨postAttrs m.body vs, by rw [hp, ha], h3, h4, by rw [hv]⟩

end Pyof
