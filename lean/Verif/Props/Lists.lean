import Verif.Lemmas.Window
import Verif.Lemmas.Truth
import Verif.Model.ListOps
/-!
# C15, C16: the typed lists
-/
namespace Pyof.Props
open Pyof.Spec

/-! ## C15 `FixedTypeList` -/

theorem takeWhile_append_all {α} {p : α → Bool} {a b : List α} (h : ∀ x ∈ a, p x = true) :
    (a ++ b).takeWhile p = a ++ b.takeWhile p := by
  induction a with
  | nil => rfl
  | cons x a ih => simp [List.takeWhile_cons, h x (by simp), ih (fun y hy => h y (by simp [hy]))]

theorem takeWhile_append_some {α} {p : α → Bool} {a b : List α} (h : ∃ x ∈ a, p x = false) :
    (a ++ b).takeWhile p = a.takeWhile p := by
  induction a with
  | nil => obtain ⟨x, hx, _⟩ := h; cases hx
  | cons x a ih =>
    simp only [List.cons_append, List.takeWhile_cons]
    split
    · rename_i hx
      rw [ih]
      obtain ⟨y, hy, hpy⟩ := h
      rcases List.mem_cons.mp hy with rfl | hy
      · rw [hx] at hpy; cases hpy
      · exact ⟨y, hy, hpy⟩
    · rfl

/-- What adding a (nested) argument should do: the leading good items are added, the first bad one raises. -/
def addSpec (isItem : Val → Bool) (st items : List Val) : List Val × Option Err :=
  (st ++ items.takeWhile isItem, if items.all isItem then none else some .wrongItem)

theorem addSpec_single (isItem st v) :
    (if isItem v then ((st ++ [v], none) : List Val × Option Err) else (st, some .wrongItem)) = addSpec isItem st [v] := by
  cases h : isItem v <;> simp [addSpec, List.takeWhile_cons, h]

mutual
theorem fixAppend_spec (isItem : Val → Bool) : ∀ (v : Val) (st : List Val),
    fixAppend isItem st v = addSpec isItem st (flat v)
  | .list g xs, st => by simp only [fixAppend, flat]; exact fixExtend_spec isItem xs st
  | .none, st | .int _, st | .enum _, st | .mask _, st | .str _, st | .bytes _, st | .ub _ _, st | .hw _, st
  | .ip _ _, st | .ip6 _ _, st | .dpid _, st | .chr _ _, st | .bin _, st | .pad _, st | .obj _ _, st
  | .foreign _ _, st => by simp only [fixAppend, flat]; exact addSpec_single ..
theorem fixExtend_spec (isItem : Val → Bool) : ∀ (xs : List Val) (st : List Val),
    fixExtend isItem st xs = addSpec isItem st (flat.flats xs)
  | [], st => by simp [fixExtend, flat.flats, addSpec]
  | x :: xs, st => by
    simp only [fixExtend, flat.flats, fixAppend_spec isItem x st]
    by_cases h : (flat x).all isItem
    · have h' : ∀ y ∈ flat x, isItem y = true := by simpa using h
      have e : addSpec isItem st (flat x) = (st ++ flat x, none) := by
        have := takeWhile_append_all (b := []) h'
        simp only [List.append_nil, List.takeWhile_nil] at this
        simp [addSpec, h, this]
      rw [e]
      simp only [fixExtend_spec isItem xs]
      simp only [addSpec, takeWhile_append_all h', List.all_append, h, Bool.true_and, List.append_assoc]
    · have h' : ∃ y ∈ flat x, isItem y = false := by simpa using h
      have e : addSpec isItem st (flat x) = (st ++ (flat x).takeWhile isItem, some .wrongItem) := by simp [addSpec, h]
      rw [e]
      simp only [addSpec, takeWhile_append_some h', List.all_append, Bool.eq_false_iff.mpr h, Bool.false_and]
      simp
end

/-- C15, `append` and `extend` with arguments nested to any depth: the items before the first one of a wrong class
are added (in order), and that one raises `WrongListItemType`. -/
theorem C15_append_extend (isItem : Val → Bool) (st : List Val) (v : Val) (vs : List Val) :
    fixAppend isItem st v = addSpec isItem st (flat v) ∧
    fixExtend isItem st vs = addSpec isItem st (flat (.list false vs)) :=
  ⟨fixAppend_spec isItem v st, by rw [flat]; exact fixExtend_spec isItem vs st⟩

theorem addSpec_inv {isItem : Val → Bool} {st items} (h : ∀ x ∈ st, isItem x = true) :
    ∀ x ∈ (addSpec isItem st items).1, isItem x = true := by
  intro x hx
  simp only [addSpec, List.mem_append] at hx
  rcases hx with hx | hx
  · exact h x hx
  · have : ∀ (l : List Val), ∀ x ∈ l.takeWhile isItem, isItem x = true := by
      intro l
      induction l with
      | nil => simp
      | cons a l ih =>
        intro x hx
        rw [List.takeWhile_cons] at hx
        split at hx
        · rcases List.mem_cons.mp hx with rfl | hx
          · assumption
          · exact ih x hx
        · cases hx
    exact this items x hx

theorem fixUnpack_inv {isItem : Val → Bool} {it : Attr} {buff : Bytes} (begin : Nat) (st : List Val)
    (h : ∀ x ∈ st, isItem x = true) : ∀ x ∈ (fixUnpack isItem it buff begin st).1, isItem x = true := by
  fun_induction fixUnpack isItem it buff begin st with
  | case1 => exact h
  | case2 begin st hlt u hu st' e ha =>
    have := addSpec_inv (items := flat u) h
    rw [← fixAppend_spec, ha] at this; exact this
  | case3 begin st hlt u hu st' ha e he =>
    have := addSpec_inv (items := flat u) h
    rw [← fixAppend_spec, ha] at this; exact this
  | case4 begin st hlt u hu st' ha hn =>
    have := addSpec_inv (items := flat u) h
    rw [← fixAppend_spec, ha] at this; exact this
  | case5 begin st hlt u hu st' ha n hn hz ih =>
    have := addSpec_inv (items := flat u) h
    rw [← fixAppend_spec, ha] at this; exact ih this
  | case6 => exact h

theorem fixStep_inv {isItem : Val → Bool} {it : Attr} {st : List Val} (h : ∀ x ∈ st, isItem x = true) (op : ListOp) :
    ∀ x ∈ (fixStep isItem it st op).1, isItem x = true := by
  cases op with
  | append v => simp only [fixStep, fixAppend_spec]; exact addSpec_inv h
  | extend vs => simp only [fixStep, fixExtend_spec]; exact addSpec_inv h
  | insert i v =>
    simp only [fixStep, fixInsert]
    split
    · rename_i hv
      intro x hx
      simp only [pyInsert, List.mem_append, List.mem_cons] at hx
      rcases hx with hx | rfl | hx
      · exact h x (List.mem_of_mem_take hx)
      · exact hv
      · exact h x (List.mem_of_mem_drop hx)
    · exact h
  | unpack buff off => exact fixUnpack_inv off st h

/-- C15.  Whatever was given to the constructor and whatever `append`, `extend`, `insert` and `unpack` calls follow,
with any arguments and including calls that raise, every element is an instance of the declared class. -/
theorem C15_only_instances (isItem : Val → Bool) (it : Attr) (items : Val) (ops : List ListOp) :
    ∀ x ∈ fixRun isItem it (fixInit isItem items).1 ops, isItem x = true := by
  have h0 : ∀ x ∈ (fixInit isItem items).1, isItem x = true := by
    unfold fixInit
    split
    · rw [fixExtend_spec]; exact addSpec_inv (by simp)
    · split
      · rw [fixAppend_spec]; exact addSpec_inv (by simp)
      · simp
  have : ∀ ops st, (∀ x ∈ st, isItem x = true) → ∀ x ∈ fixRun isItem it st ops, isItem x = true := by
    intro ops
    induction ops with
    | nil => intro st h; exact h
    | cons op ops ih => intro st h; exact ih _ (fixStep_inv h op)
  exact this ops _ h0

/-- C15.  What the constructor makes of its argument: the items of a list, nested lists flattened, up to the first that is no instance,
which raises `WrongListItemType`; a value that counts as false gives an empty list; any other value is the only item or raises. -/
theorem C15_constructor (isItem : Val → Bool) :
    (∀ b xs, fixInit isItem (.list b xs) =
      ((flat (.list b xs)).takeWhile isItem, if (flat (.list b xs)).all isItem then none else some .wrongItem)) ∧
    ∀ v, (∀ b xs, v ≠ .list b xs) →
      (Falsy v → fixInit isItem v = ([], none)) ∧
      (¬ Falsy v → isItem v = true → fixInit isItem v = ([v], none)) ∧
      (¬ Falsy v → isItem v = false → fixInit isItem v = ([], some .wrongItem)) := by
  constructor
  · intro b xs
    have h : fixInit isItem (.list b xs) = fixExtend isItem [] xs := rfl
    rw [h, fixExtend_spec]
    rfl
  · intro v hv
    have h : fixInit isItem v = if pyTrue v then (if isItem v then ([v], none) else ([], some .wrongItem)) else ([], none) := by
      cases v <;> first | rfl | exact absurd rfl (hv _ _)
    rw [h]
    refine ⟨fun hf => ?_, fun hf hi => ?_, fun hf hi => ?_⟩
    · rw [(falsy_iff v).mpr hf]; rfl
    · rw [(true_iff v).mpr hf, hi]; rfl
    · rw [(true_iff v).mpr hf, hi]; rfl

example : fixInit (fun v => v == .int 1) (.list false [.int 1, .list false [.int 1, .int 2], .int 1]) = ([.int 1, .int 1], some .wrongItem) ∧
    fixInit (fun v => v == .int 1) (.int 0) = ([], none) ∧ fixInit (fun v => v == .int 1) (.int 2) = ([], some .wrongItem) := by decide +kernel

/-- C15.  An operation whose argument contains a non-instance raises `WrongListItemType`. -/
theorem C15_offender_raises (isItem : Val → Bool) (st : List Val) :
    (∀ v, (∃ y ∈ flat v, isItem y = false) → (fixAppend isItem st v).2 = some .wrongItem) ∧
    (∀ vs v, v ∈ vs → (∃ y ∈ flat v, isItem y = false) → (fixExtend isItem st vs).2 = some .wrongItem) ∧
    (∀ i v, isItem v = false → fixInsert isItem st i v = (st, some .wrongItem)) := by
  refine ⟨?_, ?_, ?_⟩
  · rintro v ⟨y, hy, hp⟩
    rw [fixAppend_spec]
    have : ¬ (flat v).all isItem = true := by simp only [List.all_eq_true, Classical.not_forall]; exact ⟨y, hy, by simp [hp]⟩
    simp [addSpec, Bool.eq_false_iff.mpr this]
  · rintro vs v hv ⟨y, hy, hp⟩
    rw [fixExtend_spec]
    have hm : ∀ vs : List Val, v ∈ vs → y ∈ flat.flats vs := by
      intro vs
      induction vs with
      | nil => intro h; cases h
      | cons w vs ih =>
        intro h
        simp only [flat.flats, List.mem_append]
        rcases List.mem_cons.mp h with rfl | h
        · exact .inl hy
        · exact .inr (ih h)
    have : ¬ (flat.flats vs).all isItem = true := by
      simp only [List.all_eq_true, Classical.not_forall]; exact ⟨y, hm vs hv, by simp [hp]⟩
    simp [addSpec, Bool.eq_false_iff.mpr this]
  · intro i v h
    simp [fixInsert, h]

def exIsItem : Val → Bool | .obj "Item" _ => true | _ => false

example : (fixAppend exIsItem [.obj "Item" [.int 1]] (.list false [.obj "Item" [.int 2], .list true [.int 3]])).2 = some .wrongItem :=
  (C15_offender_raises exIsItem [.obj "Item" [.int 1]]).1 _ ⟨.int 3, by decide +kernel, rfl⟩

/-- The positional model of the list attribute (`addItems`, used by every list-valued field) agrees with the
operation model. -/
theorem C15_container_agrees (isItem : Val → Bool) (xs : List Val) :
    addItems isItem xs =
      match fixExtend isItem [] xs with
      | (ys, none) => .ok ys
      | (_, some e) => .error e := by
  have both : (∀ v : Val, addItem isItem v = if (flat v).all isItem then .ok (flat v) else .error .wrongItem) ∧
      (∀ xs : List Val, addItems isItem xs =
        if (flat.flats xs).all isItem then .ok (flat.flats xs) else .error .wrongItem) := by
    refine ⟨fun v => ?_, fun xs => ?_⟩
    · exact Val.rec (motive_1 := fun v => addItem isItem v = if (flat v).all isItem then .ok (flat v) else .error .wrongItem)
        (motive_2 := fun xs => addItems isItem xs =
          if (flat.flats xs).all isItem then .ok (flat.flats xs) else .error .wrongItem)
        (by simp [addItem, flat]) (by simp [addItem, flat]) (by simp [addItem, flat]) (by simp [addItem, flat])
        (by simp [addItem, flat]) (by simp [addItem, flat]) (by simp [addItem, flat]) (by simp [addItem, flat])
        (by simp [addItem, flat]) (by simp [addItem, flat]) (by simp [addItem, flat]) (by simp [addItem, flat])
        (by simp [addItem, flat]) (by simp [addItem, flat]) (by simp [addItem, flat])
        (by intro g xs h; simpa [addItem, flat] using h) (by simp [addItem, flat])
        (by simp [addItems, flat.flats])
        (by
          intro x xs h1 h2
          simp only [addItems, flat.flats, h1, h2, List.all_append]
          cases (flat x).all isItem <;> cases (flat.flats xs).all isItem <;> simp)
        v
    · exact Val.rec_1 (motive_1 := fun v => addItem isItem v = if (flat v).all isItem then .ok (flat v) else .error .wrongItem)
        (motive_2 := fun xs => addItems isItem xs =
          if (flat.flats xs).all isItem then .ok (flat.flats xs) else .error .wrongItem)
        (by simp [addItem, flat]) (by simp [addItem, flat]) (by simp [addItem, flat]) (by simp [addItem, flat])
        (by simp [addItem, flat]) (by simp [addItem, flat]) (by simp [addItem, flat]) (by simp [addItem, flat])
        (by simp [addItem, flat]) (by simp [addItem, flat]) (by simp [addItem, flat]) (by simp [addItem, flat])
        (by simp [addItem, flat]) (by simp [addItem, flat]) (by simp [addItem, flat])
        (by intro g xs h; simpa [addItem, flat] using h) (by simp [addItem, flat])
        (by simp [addItems, flat.flats])
        (by
          intro x xs h1 h2
          simp only [addItems, flat.flats, h1, h2, List.all_append]
          cases (flat x).all isItem <;> cases (flat.flats xs).all isItem <;> simp)
        xs
  rw [both.2 xs, fixExtend_spec, addSpec]
  cases h : (flat.flats xs).all isItem
  · simp
  · have h' : ∀ y ∈ flat.flats xs, isItem y = true := by simpa using h
    have := takeWhile_append_all (b := []) h'
    simp only [List.append_nil, List.takeWhile_nil] at this
    simp [this]

example : fixRun exIsItem (structAttr "Item" [("n", ubint 1)] []) (fixInit exIsItem (.list false [.obj "Item" [.int 1]])).1
    [.append (.int 5), .extend [.list false [.obj "Item" [.int 2], .int 3], .obj "Item" [.int 4]], .unpack [7, 8] 1,
      .insert (-1) (.obj "Item" [.int 6])] =
    [.obj "Item" [.int 1], .obj "Item" [.int 2], .obj "Item" [.int 6], .obj "Item" [.ub 1 (.int 8)]] := by
  decide +kernel

/-- C15, what is not checked: `l[i] = v` (inherited from `list`) can store anything. -/
theorem C15_setitem_counterexample :
    (∀ x ∈ ([.obj "Item" [.int 1]] : List Val), exIsItem x = true) ∧
    ∃ x ∈ listSetItem [.obj "Item" [.int 1]] 0 (.str ['x']), exIsItem x = false :=
  ⟨by simp [exIsItem], .str ['x'], by simp [listSetItem], rfl⟩

/-- Where Python's `list.insert(index, x)` puts `x` in a list of length `n`: negative indices count from the end, and
what is out of range is moved to the nearest end. -/
def insertAt (index : Int) (n : Nat) : Nat := (min (max 0 (if index < 0 then index + n else index)) n).toNat

theorem pyInsert_split (st : List Val) (i : Int) (v : Val) :
    ∃ pre post, st = pre ++ post ∧ pre.length = insertAt i st.length ∧ pyInsert st i v = pre ++ v :: post := by
  refine ⟨st.take (if i < 0 then (i + st.length).toNat else i.toNat), st.drop (if i < 0 then (i + st.length).toNat else i.toNat),
    by simp, ?_, rfl⟩
  rw [List.length_take]
  unfold insertAt
  split <;> omega

/-- C15, `insert`: an item of the class is put at the index, and the other items stay as they are. -/
theorem C15_insert (isItem : Val → Bool) (st : List Val) (i : Int) (v : Val) (hv : isItem v = true) :
    ∃ pre post, st = pre ++ post ∧ pre.length = insertAt i st.length ∧ fixInsert isItem st i v = (pre ++ v :: post, none) := by
  obtain ⟨pre, post, h1, h2, h3⟩ := pyInsert_split st i v
  exact ⟨pre, post, h1, h2, by simp [fixInsert, hv, h3]⟩

example : fixInsert exIsItem [.obj "Item" [.int 1], .obj "Item" [.int 2]] (-1) (.obj "Item" [.int 3]) =
    ([.obj "Item" [.int 1], .obj "Item" [.int 3], .obj "Item" [.int 2]], none) := by
  decide +kernel

theorem fixStep_keeps (isItem : Val → Bool) (it : Attr) (st : List Val) (op : ListOp) : List.Sublist st ((fixStep isItem it st op).1) := by
  cases op with
  | append v => simp only [fixStep, fixAppend_spec, addSpec]; exact List.sublist_append_left ..
  | extend vs => simp only [fixStep, fixExtend_spec, addSpec]; exact List.sublist_append_left ..
  | insert i v =>
    simp only [fixStep, fixInsert]
    split
    · obtain ⟨pre, post, h1, _, h3⟩ := pyInsert_split st i v
      rw [h3]
      conv => lhs; rw [h1]
      exact (List.sublist_cons_self v post).append_left pre
    · exact List.Sublist.refl _
  | unpack buff off =>
    simp only [fixStep]
    fun_induction fixUnpack isItem it buff off st with
    | case1 => exact List.Sublist.refl _
    | case2 begin st hlt u hu st' e ha | case3 begin st hlt u hu st' ha e he | case4 begin st hlt u hu st' ha hn =>
      have := List.sublist_append_left st ((flat u).takeWhile isItem)
      rwa [show st ++ (flat u).takeWhile isItem = st' from congrArg Prod.fst ((fixAppend_spec isItem u st).symm.trans ha)] at this
    | case5 begin st hlt u hu st' ha n hn hz ih =>
      have := List.sublist_append_left st ((flat u).takeWhile isItem)
      rw [show st ++ (flat u).takeWhile isItem = st' from congrArg Prod.fst ((fixAppend_spec isItem u st).symm.trans ha)] at this
      exact this.trans ih
    | case6 => exact List.Sublist.refl _

/-- C15.  No history of operations, failing ones included, removes an item, overwrites it or changes the order of the items
that are there. -/
theorem C15_keeps_items (isItem : Val → Bool) (it : Attr) (ops : List ListOp) (st : List Val) :
    List.Sublist st (fixRun isItem it st ops) := by
  induction ops generalizing st with
  | nil => exact List.Sublist.refl _
  | cons op ops ih => exact (fixStep_keeps isItem it st op).trans (ih _)

example := C15_keeps_items exIsItem (structAttr "Item" [("n", ubint 1)] []) [.append (.int 3), .insert 0 (.obj "Item" [.int 9])] [.obj "Item" [.int 1]]

/-! ## C16 `ConstantTypeList` -/

/-- Every element has the class of the first. -/
def Homogeneous {κ : Type} (cls : Val → κ) : List Val → Prop
  | [] => True
  | h :: t => ∀ x ∈ t, cls x = cls h

variable {κ : Type} [DecidableEq κ] {cls : Val → κ}

theorem homogeneous_iff {st : List Val} : Homogeneous cls st ↔ ∀ x ∈ st, ∀ y ∈ st, cls x = cls y := by
  cases st with
  | nil => simp [Homogeneous]
  | cons h t =>
    constructor
    · intro H
      have : ∀ x ∈ h :: t, cls x = cls h := by
        intro x hx
        rcases List.mem_cons.mp hx with rfl | hx
        · rfl
        · exact H x hx
      intro x hx y hy
      rw [this x hx, this y hy]
    · intro H x hx
      exact H x (by simp [hx]) h (by simp)

theorem homogeneous_add {st l : List Val} {v : Val} (h : Homogeneous cls st) (hv : ∀ x ∈ st, cls v = cls x)
    (hl : ∀ x ∈ l, x ∈ st ∨ x = v) : Homogeneous cls l := by
  rw [homogeneous_iff] at *
  intro x hx y hy
  rcases hl x hx with hx | rfl <;> rcases hl y hy with hy | rfl
  · exact h x hx y hy
  · exact (hv x hx).symm
  · exact hv y hy
  · rfl

/-- The result of a step: the items it kept are still there in order at the front (`append`/`extend`), and the list
is homogeneous. -/
def AppendOk (cls : Val → κ) (st : List Val) (r : List Val × Option Err) : Prop :=
  Homogeneous cls r.1 ∧ st <+: r.1 ∧ (r.2 = none ∨ r.2 = some .wrongItem)

theorem constAppend_leaf {st : List Val} {v : Val} (h : Homogeneous cls st)
    (r : List Val × Option Err)
    (hr : r = match st with
      | [] => ([v], none)
      | h :: _ => if cls v = cls h then (st ++ [v], none) else (st, some .wrongItem)) : AppendOk cls st r := by
  subst hr
  cases st with
  | nil => exact ⟨by simp [Homogeneous], by simp, .inl rfl⟩
  | cons a t =>
    simp only
    split
    · rename_i hv
      refine ⟨homogeneous_add h (v := v) ?_ ?_, by simp, .inl rfl⟩
      · intro x hx
        rw [hv]
        exact homogeneous_iff.mp h a (by simp) x hx
      · intro x hx; simpa [or_assoc] using hx
    · exact ⟨h, List.prefix_refl _, .inr rfl⟩

mutual
theorem constAppend_ok : ∀ (v : Val) (st : List Val), Homogeneous cls st → AppendOk cls st (constAppend cls st v)
  | .list g xs, st, h => by simp only [constAppend]; exact constExtend_ok xs st h
  | .none, st, h | .int _, st, h | .enum _, st, h | .mask _, st, h | .str _, st, h | .bytes _, st, h
  | .ub _ _, st, h | .hw _, st, h | .ip _ _, st, h | .ip6 _ _, st, h | .dpid _, st, h | .chr _ _, st, h
  | .bin _, st, h | .pad _, st, h | .obj _ _, st, h | .foreign _ _, st, h =>
    constAppend_leaf h _ (by simp only [constAppend]; cases st <;> rfl)
theorem constExtend_ok : ∀ (xs : List Val) (st : List Val), Homogeneous cls st → AppendOk cls st (constExtend cls st xs)
  | [], st, h => ⟨h, List.prefix_refl _, .inl rfl⟩
  | x :: xs, st, h => by
    have h1 := constAppend_ok x st h
    simp only [constExtend]
    split
    · rename_i st' he
      rw [he] at h1
      have h2 := constExtend_ok xs st' h1.1
      exact ⟨h2.1, h1.2.1.trans h2.2.1, h2.2.2⟩
    · rename_i st' e he
      rw [he] at h1
      exact h1
end

theorem constInsert_ok (st : List Val) (i : Int) (v : Val) (h : Homogeneous cls st) :
    Homogeneous cls (constInsert cls st i v).1 ∧
      ((constInsert cls st i v).2 = none ∨ constInsert cls st i v = (st, some .wrongItem)) := by
  cases st with
  | nil => simp [constInsert, Homogeneous]
  | cons a t =>
    simp only [constInsert]
    split
    · rename_i hv
      refine ⟨homogeneous_add h (v := v) ?_ ?_, .inl rfl⟩
      · intro x hx
        rw [hv]
        exact homogeneous_iff.mp h a (by simp) x hx
      · intro x hx
        simp only [pyInsert, List.mem_append, List.mem_cons] at hx
        rcases hx with hx | rfl | hx
        · exact .inl (List.mem_of_mem_take hx)
        · exact .inr rfl
        · exact .inl (List.mem_of_mem_drop hx)
    · exact ⟨h, .inr rfl⟩

/-- C16.  After any sequence of `append`, `extend` and `insert` (including failing ones), starting from the empty
list, all elements have the class of the first. -/
theorem C16_homogeneous (ops : List ConstOp) : Homogeneous cls (constRun cls [] ops) := by
  have : ∀ ops st, Homogeneous cls st → Homogeneous cls (constRun cls st ops) := by
    intro ops
    induction ops with
    | nil => intro st h; exact h
    | cons op ops ih =>
      intro st h
      refine ih _ ?_
      cases op with
      | append v => exact (constAppend_ok v st h).1
      | extend vs => exact (constExtend_ok vs st h).1
      | insert i v => exact (constInsert_ok st i v h).1
  exact this ops [] (by simp [Homogeneous])

/-- C16.  Elements are never lost: `append` and `extend` keep the list as a prefix, also when they raise, and the
only exception is `WrongListItemType`; a failing `insert` leaves the list as it was. -/
theorem C16_keeps_elements (ops : List ConstOp) (v : Val) (vs : List Val) (i : Int) :
    let st := constRun cls [] ops
    (st <+: (constAppend cls st v).1 ∧ ((constAppend cls st v).2 = none ∨ (constAppend cls st v).2 = some .wrongItem)) ∧
    (st <+: (constExtend cls st vs).1 ∧ ((constExtend cls st vs).2 = none ∨ (constExtend cls st vs).2 = some .wrongItem)) ∧
    ((constInsert cls st i v).2 = none ∨ constInsert cls st i v = (st, some .wrongItem)) :=
  have h := C16_homogeneous (cls := cls) ops
  ⟨(constAppend_ok v _ h).2, (constExtend_ok vs _ h).2, (constInsert_ok _ i v h).2⟩

/-- C16.  An item of another class than the first raises. -/
theorem C16_offender_raises (h : Val) (t : List Val) (v : Val) (i : Int) (hv : cls v ≠ cls h) (hl : ∀ g xs, v ≠ .list g xs) :
    constAppend cls (h :: t) v = (h :: t, some .wrongItem) ∧ constInsert cls (h :: t) i v = (h :: t, some .wrongItem) := by
  refine ⟨?_, by simp [constInsert, hv]⟩
  cases v <;> simp_all [constAppend]

/-- `x.__class__` for the examples. -/
def exCls : Val → String | .obj c _ => c | .int _ => "int" | .list _ _ => "list" | _ => "?"

example := C16_offender_raises (cls := exCls) (.obj "A" []) [.obj "A" [.int 1]] (.obj "B" []) 1 (by decide) nofun

/-- What adding a (nested) argument to a `ConstantTypeList` should do: the class is that of the first item, the old items
included; the leading items of that class are added and the first other one raises. -/
def constSpec (cls : Val → κ) (st items : List Val) : List Val × Option Err :=
  match st ++ items with
  | [] => ([], none)
  | h :: _ => addSpec (fun x => decide (cls x = cls h)) st items

theorem constSpec_single (st v) : constSpec cls st [v] =
    match st with
    | [] => ([v], none)
    | h :: _ => if cls v = cls h then (st ++ [v], none) else (st, some .wrongItem) := by
  cases st with
  | nil => simp [constSpec, addSpec]
  | cons h t => simp only [constSpec, List.cons_append, addSpec]; split <;> simp_all

theorem constSpec_append (st a b) : constSpec cls st (a ++ b) =
    match constSpec cls st a with
    | (st', none) => constSpec cls st' b
    | (st', some e) => (st', some e) := by
  unfold constSpec
  cases hst : st ++ a with
  | nil =>
    simp only [List.append_eq_nil_iff] at hst
    obtain ⟨rfl, rfl⟩ := hst
    rfl
  | cons h t =>
    have e : st ++ (a ++ b) = h :: (t ++ b) := by rw [← List.append_assoc, hst]; rfl
    rw [e]
    simp only [addSpec]
    by_cases ha : a.all (fun x => decide (cls x = cls h)) = true
    · have h' : ∀ y ∈ a, (fun x => decide (cls x = cls h)) y = true := by simpa using ha
      have ht : a.takeWhile (fun x => decide (cls x = cls h)) = a := by
        have := takeWhile_append_all (b := []) h'
        simpa using this
      simp only [ha, if_true, ht, hst, takeWhile_append_all h', List.all_append, Bool.true_and, List.cons_append]
      rw [← List.cons_append, ← hst, List.append_assoc]
    · have h' : ∃ y ∈ a, (fun x => decide (cls x = cls h)) y = false := by simpa using ha
      simp only [takeWhile_append_some h', List.all_append, Bool.eq_false_iff.mpr ha, Bool.false_and]
      simp

mutual
theorem constAppend_spec : ∀ (v : Val) (st : List Val), constAppend cls st v = constSpec cls st (flat v)
  | .list g xs, st => by simp only [constAppend, flat]; exact constExtend_spec xs st
  | .none, st | .int _, st | .enum _, st | .mask _, st | .str _, st | .bytes _, st | .ub _ _, st | .hw _, st
  | .ip _ _, st | .ip6 _ _, st | .dpid _, st | .chr _ _, st | .bin _, st | .pad _, st | .obj _ _, st
  | .foreign _ _, st => by simp only [constAppend, flat, constSpec_single]; cases st <;> rfl
theorem constExtend_spec : ∀ (xs : List Val) (st : List Val), constExtend cls st xs = constSpec cls st (flat.flats xs)
  | [], st => by simp only [constExtend, flat.flats, constSpec, List.append_nil]; cases st <;> simp [addSpec]
  | x :: xs, st => by
    simp only [constExtend, flat.flats, constSpec_append, constAppend_spec x st]
    cases h : constSpec cls st (flat x) with
    | mk st' e =>
      cases e with
      | none => exact constExtend_spec xs st'
      | some e => rfl
end

/-- C16, `append` and `extend` with arguments nested to any depth: the leading items of the class of the first item are
added in order, and the first other one raises `WrongListItemType`. -/
theorem C16_append_extend (st : List Val) (v : Val) (vs : List Val) :
    constAppend cls st v = constSpec cls st (flat v) ∧ constExtend cls st vs = constSpec cls st (flat (.list false vs)) :=
  ⟨constAppend_spec v st, by rw [flat]; exact constExtend_spec vs st⟩

/-- C16, `insert`: an item of the class of the first one is put at the index, and the other items stay as they are. -/
theorem C16_insert (st : List Val) (i : Int) (v : Val) (hv : ∀ h t, st = h :: t → cls v = cls h) :
    ∃ pre post, st = pre ++ post ∧ pre.length = insertAt i st.length ∧ constInsert cls st i v = (pre ++ v :: post, none) := by
  cases st with
  | nil => exact ⟨[], [], rfl, by simp only [insertAt, List.length_nil]; omega, rfl⟩
  | cons h t =>
    obtain ⟨pre, post, h1, h2, h3⟩ := pyInsert_split (h :: t) i v
    exact ⟨pre, post, h1, h2, by simp [constInsert, hv h t rfl, h3]⟩

example := C16_insert (cls := exCls) [.obj "A" [], .obj "A" [.int 1]] (-1) (.obj "A" [.int 4]) (by rintro _ _ ⟨⟩; rfl)

/-- C16.  No history of operations removes an item, overwrites it or changes the order of the items that are there. -/
theorem C16_keeps_items (ops : List ConstOp) (st : List Val) : List.Sublist st (constRun cls st ops) := by
  induction ops generalizing st with
  | nil => exact List.Sublist.refl _
  | cons op ops ih =>
    refine List.Sublist.trans ?_ (ih _)
    have add : ∀ items, List.Sublist st (constSpec cls st items).1 := by
      intro items
      unfold constSpec
      split
      · next h => simp only [List.append_eq_nil_iff] at h; simp [h.1]
      · exact List.sublist_append_left ..
    cases op with
    | append v => simp only [constStep, constAppend_spec]; exact add _
    | extend vs => simp only [constStep, constExtend_spec]; exact add _
    | insert i v =>
      simp only [constStep]
      by_cases hv : ∀ h t, st = h :: t → cls v = cls h
      · obtain ⟨pre, post, h1, _, h3⟩ := C16_insert st i v hv
        rw [h3]
        conv => lhs; rw [h1]
        exact (List.sublist_cons_self v post).append_left pre
      · cases st with
        | nil => exact List.nil_sublist _
        | cons h t =>
          have : cls v ≠ cls h := fun e => hv fun h' t' he => by cases he; exact e
          simp [constInsert, this]

example : constRun exCls [] [.insert 3 (.obj "A" []), .append (.list false [.obj "A" [.int 1], .int 2, .obj "A" [.int 3]]),
    .insert 0 (.obj "A" [.int 4]), .append (.obj "B" [])] = [.obj "A" [.int 4], .obj "A" [], .obj "A" [.int 1]] := by
  simp [constRun, constStep, constAppend, constExtend, constInsert, exCls, pyInsert]

end Pyof.Props
