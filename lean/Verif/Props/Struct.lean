import Verif.Lemmas.Window
import Verif.Model.Dict
/-!
# C08–C12, C14, C45, C47: structs and lists in general

A struct class is an arbitrary list of attributes, so each theorem ranges over every class that can be declared.
-/
namespace Pyof.Props
open Pyof.Spec

/-! ## C08 sizes -/

/-- C08, basic types.  Whenever `pack` succeeds, `get_size` is the number of bytes.  `Char` needs a positive length
and must not be given a `Char` of another length; objects put in a `BinaryData` must know their own size. -/
theorem C08_basic_types (v : Val) :
    (∀ w ref dflt, SizeOK (ubint w ref dflt) v) ∧ (∀ n, SizeOK (padAttr n) v) ∧ SizeOK dpidAttr v ∧
    (∀ dflt, SizeOK (hwAttr dflt) v) ∧ (∀ a m, SizeOK (ipAttr a m) v) ∧ SizeOK ip6Attr v ∧
    (∀ n, 0 < n → (∀ x m, v = .chr x m → m = n) → SizeOK (charAttr n) v) ∧
    (HonestBin v → SizeOK binAttr v) :=
  ⟨fun w r d => (sizeOK_uint w r d v).1, fun n => (sizeOK_pad n v).1, (sizeOK_dpid v).1,
    fun d => (sizeOK_hw d v).1, fun a m => (sizeOK_ip a m v).1, (sizeOK_ip6 v).1,
    fun _ hn h => (sizeOK_char hn h).1, fun h => (sizeOK_bin h).1⟩

/-- C08, structs.  If `get_size` is right for each attribute value, it is right for the struct, whether it is
asked as an attribute of an enclosing struct or directly. -/
theorem C08_struct (cls : String) (fields : Fields) (init vs : List Val)
    (h : ∀ p ∈ fields.zip vs, SizeOK p.1.2 p.2) :
    SizeOK (structAttr cls fields init) (.obj cls vs) ∧ OwnSizeOK (structAttr cls fields init) (.obj cls vs) := by
  constructor <;> intro b hb <;> simp only [structAttr, if_true] at hb ⊢ <;> exact sizeAttrs_ok h hb

/-- A struct with a number in a wrapper and a MAC address. -/
example := C08_struct "S" [("a", ubint 2), ("m", hwAttr)] [] [.ub 2 (.int 5), .str "0a:00:00:00:00:01".toList] (by
  intro p hp
  simp only [List.zip_cons_cons, List.zip_nil_right, List.mem_cons, List.not_mem_nil, or_false] at hp
  rcases hp with rfl | rfl
  · exact (C08_basic_types _).1 2 _ _
  · exact (C08_basic_types _).2.2.2.1 _)

/-- C08, lists of any (nested) shape assigned to a list attribute. -/
theorem C08_list (isItem : Val → Bool) (it : Attr) (g : Bool) (xs : List Val)
    (h : ∀ y ∈ flat (.list g xs), OwnSizeOK it y) : SizeOK (listAttr isItem it) (.list g xs) := by
  intro b hb
  simp only [listAttr] at hb ⊢
  split at hb
  · cases hb
  · rename_i ys hy
    obtain ⟨h1, _⟩ := addItems_flats xs ys hy
    rw [flat, ← h1] at h
    exact sizeItems_of_pack h hb

/-- The struct `(UBInt8, [items (UBInt16, Pad 1)])` used as a running example. -/
def exItem : Attr := structAttr "Item" [("n", ubint 2), ("pad", padAttr 1)] [.none, .pad 1]
def exFields : Fields := [("kind", ubint 1), ("items", listAttr (fun v => match v with | .obj "Item" _ => true | _ => false) exItem)]

example : (structAttr "S" exFields []).pack (.obj "S" [.int 7, .list false [.obj "Item" [.int 258, .pad 1],
      .list false [.obj "Item" [.ub 2 (.int 3), .pad 1]]]]) = .ok [7, 1, 2, 0, 0, 3, 0] ∧
    (structAttr "S" exFields []).size (.obj "S" [.int 7, .list false [.obj "Item" [.int 258, .pad 1],
      .list false [.obj "Item" [.ub 2 (.int 3), .pad 1]]]]) = .ok 7 := by decide +kernel

/-- C08, where the code violates it: `Char(length=0)` packs one byte, a `Char` of another length keeps its own
length when packed, and an attribute declared as a bare `FixedTypeList` always claims size 0. -/
theorem C08_counterexamples :
    ¬ SizeOK (charAttr 0) (.str []) ∧ ¬ SizeOK (charAttr 4) (.chr (.str ['a']) 2) ∧
    ¬ SizeOK (bareListAttr (fun _ => true) exItem) (.list true [.obj "Item" [.int 1, .pad 1]]) := by
  refine ⟨fun h => ?_, fun h => ?_, fun h => ?_⟩
  · have := h [0] (by decide +kernel); revert this; decide +kernel
  · have := h [97, 0] (by decide +kernel); revert this; decide +kernel
  · have := h [0, 1, 0] (by decide +kernel); revert this; decide +kernel

/-! ## C09 concatenation in declaration order -/

/-- C09.  A struct packs iff every attribute does, to the concatenation of their bytes. -/
theorem C09_concat (cls : String) (fields : Fields) (init vs : List Val) (b : Bytes) :
    (structAttr cls fields init).pack (.obj cls vs) = .ok b ↔
      ∃ parts, Each (fun p part => p.1.2.pack p.2 = .ok part) (fields.zip vs) parts ∧ b = parts.flatten := by
  simp only [structAttr, if_true]
  induction fields generalizing vs b with
  | nil =>
    simp only [packAttrs, Except.ok.injEq, List.zip_nil_left]
    constructor
    · intro h; exact ⟨[], .nil, h.symm⟩
    · rintro ⟨parts, hp, rfl⟩; cases hp; rfl
  | cons p fields ih =>
    obtain ⟨n, c⟩ := p
    cases vs with
    | nil =>
      simp only [packAttrs, Except.ok.injEq, List.zip_nil_right]
      constructor
      · intro h; exact ⟨[], .nil, h.symm⟩
      · rintro ⟨parts, hp, rfl⟩; cases hp; rfl
    | cons v vs =>
      simp only [packAttrs, List.zip_cons_cons]
      constructor
      · intro h
        split at h
        · cases h
        · rename_i x hx
          split at h
          · cases h
          · rename_i y hy
            cases h
            obtain ⟨parts, hp, rfl⟩ := (ih vs y).mp hy
            exact ⟨x :: parts, .cons hx hp, rfl⟩
      · rintro ⟨parts, hp, rfl⟩
        cases hp with
        | cons hx hr =>
          simp only at hx
          rw [hx, (ih vs _).mpr ⟨_, hr, rfl⟩]
          simp

example : ∃ parts, Each (fun (p : (String × Attr) × Val) part => p.1.2.pack p.2 = .ok part)
    ([("a", ubint 2), ("b", ubint 1)].zip [Val.int 5, Val.int 7]) parts ∧ [0, 5, 7] = parts.flatten :=
  (C09_concat "S" [("a", ubint 2), ("b", ubint 1)] [] [.int 5, .int 7] [0, 5, 7]).1 (by decide +kernel)

/-- C09.  A struct fails with the error of the first attribute that fails. -/
theorem C09_first_error (cls : String) (fields : Fields) (init vs : List Val) (e : Err) :
    (structAttr cls fields init).pack (.obj cls vs) = .error e ↔
      ∃ i : Nat, (∃ p, (fields.zip vs)[i]? = some p ∧ p.1.2.pack p.2 = .error e) ∧
        ∀ j, j < i → ∃ p b, (fields.zip vs)[j]? = some p ∧ p.1.2.pack p.2 = .ok b := by
  simp only [structAttr, if_true]
  induction fields generalizing vs with
  | nil => simp [packAttrs]
  | cons p fields ih =>
    obtain ⟨n, c⟩ := p
    cases vs with
    | nil => simp [packAttrs]
    | cons v vs =>
      simp only [packAttrs, List.zip_cons_cons]
      cases hx : c.pack v with
      | error er =>
        simp only [Except.error.injEq]
        constructor
        · rintro rfl
          exact ⟨0, ⟨_, rfl, hx⟩, by intro j hj; omega⟩
        · rintro ⟨i, ⟨p, hp, hpe⟩, hj⟩
          cases i with
          | zero => simp at hp; subst hp; simp [hx] at hpe; exact hpe
          | succ i =>
            obtain ⟨q, b, hq, hqb⟩ := hj 0 (by omega)
            simp at hq; subst hq; simp [hx] at hqb
      | ok x =>
        refine Iff.trans (b := packAttrs fields vs = .error e) (by cases packAttrs fields vs <;> simp) ?_
        rw [ih vs]
        constructor
        · rintro ⟨i, ⟨p, hp, hpe⟩, hj⟩
          refine ⟨i + 1, ⟨p, by simpa using hp, hpe⟩, ?_⟩
          intro j hj'
          cases j with
          | zero => exact ⟨_, x, rfl, hx⟩
          | succ j => obtain ⟨q, b, hq, hqb⟩ := hj j (by omega); exact ⟨q, b, by simpa using hq, hqb⟩
        · rintro ⟨i, ⟨p, hp, hpe⟩, hj⟩
          cases i with
          | zero => simp at hp; subst hp; simp [hx] at hpe
          | succ i =>
            refine ⟨i, ⟨p, by simpa using hp, hpe⟩, ?_⟩
            intro j hj'
            obtain ⟨q, b, hq, hqb⟩ := hj (j + 1) (by omega)
            exact ⟨q, b, by simpa using hq, hqb⟩

example := (C09_first_error "S" [("a", ubint 2), ("b", ubint 1)] [] [.int 5, .int 256] .pack).1 (by decide +kernel)

/-- C09.  Replacing the value of one attribute replaces that attribute's bytes and no others. -/
theorem C09_slot (cls : String) (fields : Fields) (init vs : List Val) (i : Nat) (n : String) (c : Attr) (v v' : Val)
    (b b' : Bytes) (hc : fields[i]? = some (n, c)) (hv : vs[i]? = some v)
    (hb : (structAttr cls fields init).pack (.obj cls vs) = .ok b)
    (hb' : (structAttr cls fields init).pack (.obj cls (vs.set i v')) = .ok b') :
    ∃ pre x x' post, c.pack v = .ok x ∧ c.pack v' = .ok x' ∧ b = pre ++ x ++ post ∧ b' = pre ++ x' ++ post := by
  simp only [structAttr, if_true] at hb hb'
  induction fields generalizing vs i b b' with
  | nil => simp at hc
  | cons p fields ih =>
    obtain ⟨m, c'⟩ := p
    cases vs with
    | nil => simp at hv
    | cons w vs =>
      cases i with
      | zero =>
        simp only [List.getElem?_cons_zero, Option.some.injEq, Prod.mk.injEq] at hc hv
        obtain ⟨rfl, rfl⟩ := hc
        subst hv
        simp only [List.set_cons_zero, packAttrs] at hb hb'
        split at hb
        · cases hb
        · rename_i x hx
          split at hb
          · cases hb
          · rename_i y hy
            cases hb
            split at hb'
            · cases hb'
            · rename_i x' hx'
              simp only [hy] at hb'
              cases hb'
              exact ⟨[], x, x', y, hx, hx', rfl, rfl⟩
      | succ i =>
        simp only [List.getElem?_cons_succ] at hc hv
        simp only [List.set_cons_succ, packAttrs] at hb hb'
        split at hb
        · cases hb
        · rename_i x hx
          split at hb
          · cases hb
          · rename_i y hy
            cases hb
            cases hy' : packAttrs fields (vs.set i v') with
            | error e => simp [hx, hy'] at hb'
            | ok y' =>
              simp only [hx, hy', Except.ok.injEq] at hb'
              subst hb'
              obtain ⟨pre, z, z', post, h1, h2, h3, h4⟩ := ih vs i y y' hc hv hy hy'
              exact ⟨x ++ pre, z, z', post, h1, h2, by simp [h3], by simp [h4]⟩

example : (structAttr "S" exFields []).pack (.obj "S" [.int 300, .str ['x']]) = .error .pack ∧
    (structAttr "S" exFields []).pack (.obj "S" [.int 30, .str ['x']]) = .error .wrongItem := by decide +kernel

/-! ## C10 assignment order -/

/-- The value the user assigned last to `name`, or what the constructor put there. -/
def lastAssigned (name : String) (initial : Val) : List (String × Val) → Val
  | [] => initial
  | (k, v) :: r => lastAssigned name (if k = name then v else initial) r

theorem dict_set_keys (d : Dict) (k v) :
    (d.set k v).map (·.1) = if k ∈ d.map (·.1) then d.map (·.1) else d.map (·.1) ++ [k] := by
  induction d with
  | nil => simp [Dict.set]
  | cons p d ih =>
    obtain ⟨k', w⟩ := p
    simp only [Dict.set]
    split
    · rename_i h; simp [h]
    · rename_i h
      have h' : ¬ k = k' := fun e => h e.symm
      simp only [List.map_cons, ih, List.mem_cons, h', false_or]
      split <;> simp

/-- The entries of a dictionary that are class attributes: exactly the fields, in class order, with values `f`. -/
def Holds (fields : Fields) (d : Dict) (f : String → Val) : Prop :=
  instanceAttrs fields d = fields.map fun p => (p.1, f p.1)

theorem filter_set_mem (S : List String) (k : String) (v : Val) : ∀ d : Dict,
    k ∈ d.map (·.1) → k ∈ S → (d.map (·.1)).Nodup →
    (d.set k v).filter (fun p => p.1 ∈ S) =
      (d.filter (fun p => p.1 ∈ S)).map fun p => if p.1 = k then (p.1, v) else p := by
  intro d
  induction d with
  | nil => simp
  | cons p d ih =>
    obtain ⟨k', w⟩ := p
    intro hk hS hn
    simp only [List.map_cons, List.nodup_cons] at hn
    simp only [Dict.set]
    split
    · rename_i h
      subst h
      simp only [List.filter_cons, hS, decide_true, if_true, List.map_cons]
      congr 1
      symm
      have hid : ∀ p ∈ d.filter (fun p => p.1 ∈ S), (if p.1 = k' then (p.1, v) else p) = p := by
        intro q hq
        rw [if_neg]
        intro e
        exact hn.1 (List.mem_map.mpr ⟨q, (List.mem_filter.mp hq).1, e⟩)
      calc (d.filter (fun p => p.1 ∈ S)).map (fun p => if p.1 = k' then (p.1, v) else p)
          = (d.filter (fun p => p.1 ∈ S)).map id := List.map_congr_left (by simpa using hid)
        _ = _ := by simp
    · rename_i h
      have h' : ¬ k = k' := fun e => h e.symm
      simp only [List.map_cons, List.mem_cons, h', false_or] at hk
      simp only [List.filter_cons, ih hk hS hn.2]
      split <;> simp [h]

theorem filter_set_not_mem (S : List String) (k : String) (v : Val) (hS : k ∉ S) : ∀ d : Dict,
    (d.set k v).filter (fun p => p.1 ∈ S) = d.filter (fun p => p.1 ∈ S) := by
  intro d
  induction d with
  | nil => simp [Dict.set, hS]
  | cons p d ih =>
    obtain ⟨k', w⟩ := p
    simp only [Dict.set]
    split
    · rename_i h; subst h; simp [hS]
    · simp only [List.filter_cons, ih]

theorem set_nodup (d : Dict) (k v) (h : (d.map (·.1)).Nodup) : ((d.set k v).map (·.1)).Nodup := by
  rw [dict_set_keys]
  split
  · exact h
  · rename_i hk
    rw [List.nodup_append]
    exact ⟨h, by simp, by intro a ha b hb; simp at hb; subst hb; intro e; exact hk (e ▸ ha)⟩

theorem holds_set {fields : Fields} {d : Dict} {f} (hn : (d.map (·.1)).Nodup) (h : Holds fields d f) (k v) :
    Holds fields (d.set k v) (fun n => if k = n then v else f n) := by
  unfold Holds instanceAttrs at *
  by_cases hk : k ∈ fields.map (·.1)
  · have hd : k ∈ d.map (·.1) := by
      obtain ⟨p, hp, rfl⟩ := List.mem_map.mp hk
      have : (p.1, f p.1) ∈ d.filter (fun q => q.1 ∈ fields.map (·.1)) := by
        rw [h]; exact List.mem_map.mpr ⟨p, hp, rfl⟩
      exact List.mem_map.mpr ⟨_, (List.mem_filter.mp this).1, rfl⟩
    rw [filter_set_mem _ k v d hd hk hn, h, List.map_map]
    apply List.map_congr_left
    intro p _
    simp only [Function.comp]
    by_cases e : p.1 = k
    · simp [e]
    · have e' : ¬ k = p.1 := fun x => e x.symm
      simp [e, e']
  · rw [filter_set_not_mem _ k v hk, h]
    apply List.map_congr_left
    intro p hp
    have : k ≠ p.1 := fun e => hk (e ▸ List.mem_map.mpr ⟨p, hp, rfl⟩)
    simp [this]

theorem set_append_new (d : Dict) (k v) (h : k ∉ d.map (·.1)) : d.set k v = d ++ [(k, v)] := by
  induction d with
  | nil => rfl
  | cons p d ih =>
    obtain ⟨k', w⟩ := p
    simp only [List.map_cons, List.mem_cons, not_or] at h
    simp only [Dict.set]
    rw [if_neg (fun e => h.1 e.symm), ih h.2]; rfl

theorem newInstance_eq (fields : Fields) (h : (fields.map (·.1)).Nodup) :
    newInstance fields = fields.map fun p => (p.1, p.2.proto) := by
  have key : ∀ (fs : Fields) (d : Dict), (∀ p ∈ fs, p.1 ∉ d.map (·.1)) → (fs.map (·.1)).Nodup →
      fs.foldl (fun d p => d.set p.1 p.2.proto) d = d ++ fs.map fun p => (p.1, p.2.proto) := by
    intro fs
    induction fs with
    | nil => simp
    | cons p fs ih =>
      intro d hd hn
      simp only [List.map_cons, List.nodup_cons] at hn
      simp only [List.foldl_cons]
      rw [set_append_new d _ _ (hd p (by simp)), ih]
      · simp
      · intro q hq
        simp only [List.map_append, List.mem_append, not_or]
        refine ⟨hd q (by simp [hq]), ?_⟩
        simp only [List.map_cons, List.map_nil, List.mem_singleton]
        intro e
        exact hn.1 (e ▸ List.mem_map.mpr ⟨q, hq, rfl⟩)
      · exact hn.2
  rw [newInstance, key fields [] (by simp) h, List.nil_append]

/-- The initial value of a field: the copy of the class attribute of that name. -/
def initialOf (fields : Fields) (name : String) : Val :=
  match fields.find? (·.1 = name) with
  | some p => p.2.proto
  | none => .none

theorem find_of_mem {fields : Fields} (h : (fields.map (·.1)).Nodup) {p} (hp : p ∈ fields) :
    initialOf fields p.1 = p.2.proto := by
  unfold initialOf
  induction fields with
  | nil => cases hp
  | cons q fs ih =>
    simp only [List.map_cons, List.nodup_cons] at h
    rcases List.mem_cons.mp hp with rfl | hp
    · simp
    · have : q.1 ≠ p.1 := fun e => h.1 (e ▸ List.mem_map.mpr ⟨p, hp, rfl⟩)
      simp only [List.find?_cons, this, decide_false]
      exact ih h.2 hp

/-- The values `pack` finds in the dictionary after any assignments to a new instance. -/
theorem runSets_attrs (fields : Fields) (ops : List (String × Val)) (h : (fields.map (·.1)).Nodup) :
    (instanceAttrs fields (runSets (newInstance fields) ops)).map (·.2) = fields.map fun p => lastAssigned p.1 p.2.proto ops := by
  have key : ∀ (ops : List (String × Val)) (d : Dict) (f : String → Val), (d.map (·.1)).Nodup → Holds fields d f →
      Holds fields (runSets d ops) (fun n => lastAssigned n (f n) ops) := by
    intro ops
    induction ops with
    | nil => intro d f _ hd; exact hd
    | cons p ops ih =>
      intro d f hn hd
      obtain ⟨k, v⟩ := p
      have := ih (d.set k v) _ (set_nodup d k v hn) (holds_set hn hd k v)
      have e : ∀ n, lastAssigned n (f n) ((k, v) :: ops) = lastAssigned n (if k = n then v else f n) ops := fun n => rfl
      simp only [e]
      exact this
  have h0 : Holds fields (newInstance fields) (initialOf fields) := by
    unfold Holds instanceAttrs
    rw [newInstance_eq fields h]
    rw [List.filter_eq_self.mpr]
    · apply List.map_congr_left
      intro p hp
      rw [find_of_mem h hp]
    · intro q hq
      obtain ⟨p, hp, rfl⟩ := List.mem_map.mp hq
      simpa using ⟨_, hp⟩
  have hn0 : ((newInstance fields).map (·.1)).Nodup := by
    rw [newInstance_eq fields h]; rw [List.map_map]; exact h
  have hk := key ops _ _ hn0 h0
  unfold Holds at hk
  rw [hk, List.map_map]
  apply List.map_congr_left
  intro p hp
  simp only [Function.comp, find_of_mem h hp]

/-- C10.  After any history of assignments to a new instance, in any order and including names that are not
declared fields, `pack` and `get_size` use for each declared field the last value assigned to it (the copy of the
class attribute if there was none), in declaration order. -/
theorem C10_assignment_order (fields : Fields) (ops : List (String × Val)) (h : (fields.map (·.1)).Nodup) :
    packInstance fields (runSets (newInstance fields) ops) =
      packAttrs fields (fields.map fun p => lastAssigned p.1 p.2.proto ops) ∧
    sizeInstance fields (runSets (newInstance fields) ops) =
      sizeAttrs fields (fields.map fun p => lastAssigned p.1 p.2.proto ops) := by
  have e := runSets_attrs fields ops h
  exact ⟨by rw [packInstance, e], by rw [sizeInstance, e]⟩

example : packInstance [("a", ubint 1), ("b", ubint 2)]
    (runSets (newInstance [("a", ubint 1), ("b", ubint 2)])
      [("b", .int 1), ("note", .str ['x']), ("a", .int 9), ("b", .int 258)]) = .ok [9, 1, 2] := by decide +kernel

/-! ## C11 round trip -/

/-- C11.  If every attribute meets its contract (`Impl`: `pack` gives the bytes of the content, decoding gives the
content back, only the last attribute may run to the end of the buffer), then decoding the encoding of a struct,
anywhere in any buffer, gives a struct with the same content. -/
theorem C11_round_trip {t : Bool} {fields : Fields} {fmts : FieldFmts} (h : Impl t fields fmts) (cls : String)
    (init : List Val) (x : Val) (d : Data) (b pre post : Bytes)
    (hx : (Spec.struct cls fmts).den x = some d) (hok : (Spec.struct cls fmts).ok d)
    (hb : (structAttr cls fields init).pack x = .ok b) (ht : t = true → post = []) :
    ∃ y, (structAttr cls fields init).unpack (pre ++ b ++ post) pre.length = .ok y ∧
      (Spec.struct cls fmts).den y = some d := by
  have hE := h.enc_struct cls init
  have he := (hE.pack x d hx b).mp hb
  obtain ⟨ds, rfl, he⟩ := struct_enc_inv he
  by_cases hne : pre ++ b ++ post = []
  · simp only [List.append_eq_nil_iff] at hne
    obtain ⟨⟨rfl, rfl⟩, rfl⟩ := hne
    obtain ⟨vs, hvs, hden⟩ := h.decs_empty ds 0 he
    refine ⟨.obj cls vs, ?_, by simp [Spec.struct, hden]⟩
    simp only [List.append_nil, List.length_nil, structAttr, hvs]
  · obtain ⟨vs, hvs, hden⟩ := h.decs ds b pre post he hok ht hne
    refine ⟨.obj cls vs, ?_, by simp [Spec.struct, hden]⟩
    simp only [structAttr, hvs]

/-- C11.  The contract holds again for the struct as an attribute of another struct, so nesting to any depth is
covered. -/
theorem C11_nesting {t : Bool} {fields : Fields} {fmts : FieldFmts} (h : Impl t fields fmts) (cls : String)
    (init : List Val) (hne : NonEmpty (Spec.struct cls fmts)) :
    Enc (structAttr cls fields init) (Spec.struct cls fmts) ∧ Dec (structAttr cls fields init) (Spec.struct cls fmts) t :=
  ⟨h.enc_struct cls init, h.dec_struct cls init hne⟩

def exItemFmt : Fmt := Spec.struct "Item" [("n", Spec.uint 2), ("pad", Spec.pad 1)]
theorem exItem_impl : Impl false [("n", ubint 2), ("pad", padAttr 1)] [("n", Spec.uint 2), ("pad", Spec.pad 1)] :=
  .cons (enc_uint 2 .none none _) (dec_uint 2 .none _ none) (.cons (enc_pad 1) (dec_pad 1) .nil)
theorem exItem_nonEmpty : NonEmpty exItemFmt := NonEmpty.struct (n := "n") (nonEmpty_uint 2 none none) (by simp)
theorem exItem_ok : ItemOk (fun v => match v with | .obj "Item" _ => true | _ => false) exItemFmt where
  isItem := by
    intro x d h
    obtain ⟨vs, ds, rfl, _, _⟩ := struct_den_inv h
    rfl
  notList := by
    intro x d h
    obtain ⟨vs, ds, rfl, _, _⟩ := struct_den_inv h
    simp

/-- The contract is met by the running example (a struct holding a list of structs). -/
theorem exStruct_impl : Impl true exFields [("kind", Spec.uint 1), ("items", Spec.list exItemFmt)] :=
  .cons (enc_uint 1 .none none _) (dec_uint 1 .none _ none)
    (.last (enc_list (exItem_impl.enc_struct _ _) exItem_ok)
      (dec_list (exItem_impl.enc_struct _ _) (exItem_impl.dec_struct _ _ exItem_nonEmpty) exItem_nonEmpty))

example : (structAttr "S" exFields []).unpack [99, 7, 1, 2, 0, 0, 3, 0] 1 =
    .ok (.obj "S" [.ub 1 (.int 7), .list true [.obj "Item" [.ub 2 (.int 258), .pad 1], .obj "Item" [.ub 2 (.int 3), .pad 1]]]) := by
  decide +kernel

/-! ## C12 truncation -/

/-- C12.  `ws` gives for each attribute its size and how many of its bytes must be present (0 for padding, all of
them for the other types, and `needed` for nested structs).  A non-empty buffer ending before the last needed byte
is refused with `UnpackException`. -/
theorem C12_truncated {fields : Fields} {ws : List (Nat × Nat)} (h : Each (fun c w => Needs c.2 w.1 w.2) fields ws)
    (cls : String) (init : List Val) (buff : Bytes) (off : Nat) (hne : buff ≠ []) (hpos : 0 < needed ws)
    (hshort : buff.length < off + needed ws) : (structAttr cls fields init).unpack buff off = .error .unpack := by
  simp only [structAttr, (unpackAttrs_needs h buff off hne).2 hpos hshort]

/-- C12.  The attribute types the property speaks of. -/
theorem C12_basic_types :
    (∀ w ref dflt, 0 < w → Needs (ubint w ref dflt) w w) ∧ (∀ dflt, Needs (hwAttr dflt) 6 6) ∧
    (∀ a m, Needs (ipAttr a m) 4 4) ∧ Needs ip6Attr 16 16 ∧ ∀ n, Needs (padAttr n) n 0 :=
  ⟨fun w r d hw => needs_uint w r d hw, needs_hw, needs_ip, needs_ip6, needs_pad⟩

example := C12_truncated (fields := [("a", ubint 1), ("m", hwAttr)]) (ws := [(1, 1), (6, 6)])
  (.cons (C12_basic_types.1 1 .none .none (by decide)) (.cons (C12_basic_types.2.1 (.str hwZero)) .nil)) "T" [] [9, 1, 2, 3, 4] 1
  (by decide) (by decide) (by decide)

/-- C12.  Nested structs. -/
theorem C12_nested {fields : Fields} {ws : List (Nat × Nat)} (h : Each (fun c w => Needs c.2 w.1 w.2) fields ws)
    (cls : String) (init : List Val) :
    Needs (structAttr cls fields init) (ws.map (·.1)).sum (needed ws) where
  usize := by
    intro buff off u hne hu
    simp only [structAttr] at hu
    split at hu
    · cases hu
    · rename_i vs e hvs
      cases hu
      simp [structAttr, sizeAttrs_needs h hne hvs]
  size := by
    intro buff off u hne hu
    simp only [structAttr] at hu
    split at hu
    · cases hu
    · rename_i vs e hvs
      cases hu
      simp [structAttr, sizeAttrs_needs h hne hvs]
  err := by
    intro buff off e hne hu
    simp only [structAttr] at hu
    split at hu
    · cases hu; rename_i hvs; exact (unpackAttrs_needs h buff off hne).1 _ hvs
    · cases hu
  short := by
    intro buff off hne hpos hlt
    simp only [structAttr, (unpackAttrs_needs h buff off hne).2 hpos hlt]

/-- C12, the exception the code makes: the empty buffer leaves every attribute at its class default. -/
theorem C12_empty_buffer (fields : Fields) (cls : String) (init : List Val) (off : Nat) :
    (structAttr cls fields init).unpack [] off = .ok (.obj cls (fields.map (·.2.proto))) := by
  have : ∀ off, unpackAttrs fields [] off = .ok (fields.map (·.2.proto), off) := by
    induction fields with
    | nil => intro off; rfl
    | cons p fs ih => intro off; simp [unpackAttrs, unpackAttr, ih]
  simp [structAttr, this]

example : (structAttr "T" [("a", ubint 1), ("p", padAttr 2), ("m", hwAttr), ("q", padAttr 3)] []).unpack
      [9, 1, 0, 0, 1, 2, 3, 4, 5] 1 = .error .unpack ∧
    needed [(1, 1), (2, 0), (6, 6), (3, 0)] = 9 := by decide +kernel

/-! ## C14 lists -/

/-- C14.  Decoding the encoding of a list whose items meet their contract and are never empty gives the same
contents in the same order, wherever the list starts; `pre` is arbitrary. -/
theorem C14_round_trip {it : Attr} {f : Fmt} {isItem : Val → Bool} (he : Enc it f) (hd : Dec it f false)
    (hne : NonEmpty f) (hi : ItemOk isItem f) (xs : List Val) (g : Bool) (ds : List Data) (b pre : Bytes)
    (hx : xs.map f.den = ds.map some) (hok : ∀ d ∈ ds, f.ok d)
    (hb : (listAttr isItem it).pack (.list g xs) = .ok b) :
    ∃ ys, (listAttr isItem it).unpack (pre ++ b) pre.length = .ok (.list true ys) ∧ ys.map f.den = ds.map some := by
  have conv : ∀ (xs : List Val) (ds : List Data), xs.map f.den = ds.map some ↔ optMap f.den xs = some ds := by
    intro xs
    induction xs with
    | nil => intro ds; cases ds <;> simp [optMap]
    | cons x xs ih =>
      intro ds
      cases ds with
      | nil =>
        simp only [List.map_cons, List.map_nil, optMap]
        cases f.den x <;> cases optMap f.den xs <;> simp
      | cons d ds =>
        simp only [List.map_cons, List.cons.injEq, ih ds, optMap]
        cases f.den x <;> cases optMap f.den xs <;> simp
  have h1 := (conv xs ds).mp hx
  have hE := enc_list he hi
  have hden : (Spec.list f).den (.list g xs) = some (.arr ds) := by simp [Spec.list, h1]
  have henc := (hE.pack _ _ hden b).mp hb
  obtain ⟨ys, hys, hyd⟩ := unpackItems_dec he hd hne ds b pre (by simpa [Spec.list] using henc) hok
  exact ⟨ys, by simp only [listAttr, hys], (conv ys ds).mpr hyd⟩

example : (listAttr (fun v => match v with | .obj "Item" _ => true | _ => false) exItem).unpack [5, 5, 1, 2, 0, 0, 3, 0] 2 =
    .ok (.list true [.obj "Item" [.ub 2 (.int 258), .pad 1], .obj "Item" [.ub 2 (.int 3), .pad 1]]) := by
  decide +kernel

/-! ## C45 equality compares contents -/

/-- C45.  When an attribute packs to the bytes of its content and the format is unambiguous, two values pack to the
same bytes iff they have the same content (`GenericStruct.__eq__`, base.py:505, compares encodings). -/
theorem C45_eq_iff_same_content {c : Attr} {f : Fmt} {t : Bool} (he : Enc c f) (hu : Uniq f t) (x y : Val) (d d' : Data)
    (b b' : Bytes) (hx : f.den x = some d) (hy : f.den y = some d') (hb : c.pack x = .ok b) (hb' : c.pack y = .ok b') :
    b = b' ↔ d = d' := by
  have h1 := (he.pack x d hx b).mp hb
  have h2 := (he.pack y d' hy b').mp hb'
  constructor
  · rintro rfl
    exact hu d d' b b [] [] h1 h2 (fun _ => ⟨rfl, rfl⟩) rfl
  · rintro rfl
    rw [h1] at h2; cases h2; rfl

/-- C45.  Unambiguity of structs (any declaration; the last field may run to the end) and lists. -/
theorem C45_unambiguous {cls : String} {t : Bool} {fs : FieldFmts} {n : String} {g : Fmt} :
    ((∀ p ∈ fs, Uniq p.2 false) → Uniq g t → Uniq (Spec.struct cls (fs ++ [(n, g)])) t) ∧
    (Uniq g false → NonEmpty g → Uniq (Spec.list g) true) :=
  ⟨uniq_struct, uniq_list⟩

/-- Two different Python descriptions of one content: equal encodings, as C45 says. -/
example : (structAttr "S" exFields []).pack (.obj "S" [.int 7, .list false [.obj "Item" [.int 258, .pad 1]]]) =
    (structAttr "S" exFields []).pack (.obj "S" [.ub 1 (.enum 7), .list true [.obj "Item" [.ub 2 (.int 258), .none]]]) := by
  decide +kernel

/-! ## C47 locality -/

/-- C47.  The basic types of fixed size decode from their own bytes only. -/
theorem C47_basic_types :
    (∀ w ref dflt, 0 < w → Window (ubint w ref dflt) w) ∧ (∀ n, Window (padAttr n) n) ∧ (∀ dflt, Window (hwAttr dflt) 6) ∧
    (∀ a m, Window (ipAttr a m) 4) ∧ Window ip6Attr 16 ∧ (∀ n, Window (charAttr n) n) ∧ Window dpidAttr 8 :=
  ⟨fun w r d hw => window_uint w r d hw, window_pad, window_hw, window_ip, window_ip6, window_char, window_dpid⟩

/-- C47.  So does every struct of them, nested to any depth: two buffers with the same bytes in the window give the
same result, success or failure. -/
theorem C47_struct {fields : Fields} {ws : List Nat} (h : Each (fun c w => Window c.2 w) fields ws) (cls : String)
    (init : List Val) : Window (structAttr cls fields init) ws.sum where
  usize := by
    intro buff off u hne hu
    simp only [structAttr] at hu
    split at hu
    · cases hu
    · rename_i vs e hvs
      cases hu
      simp [structAttr, sizeAttrs_window h hne hvs]
  size := by
    intro buff off u hne hu
    simp only [structAttr] at hu
    split at hu
    · cases hu
    · rename_i vs e hvs
      cases hu
      simp [structAttr, sizeAttrs_window h hne hvs]
  same := by
    intro buff buff' off off' hne hne' hs
    have := (unpackAttrs_window h).2 buff buff' off off' hne hne' hs
    simp only [structAttr]
    cases h1 : unpackAttrs fields buff off <;> cases h2 : unpackAttrs fields buff' off' <;> simp_all [Except.map]

example : exItem.unpack [1, 2, 3, 4] 1 = exItem.unpack [9, 9, 2, 3, 4, 7] 2 := by decide +kernel

end Pyof.Props
