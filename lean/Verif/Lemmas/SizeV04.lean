import Verif.Lemmas.Size
/-! `get_size` of the OpenFlow 1.3 structures. -/
namespace Pyof.V04
open Spec

theorem packAttrs_oxm_sizes {c x y v f m x' y' : Val} :
    sizeAttrs oxmFields [c, x, y, v, f, m] = sizeAttrs oxmFields [c, x', y', v, f, m] := rfl

theorem oxmPack_sized {vs b} (hv : honestAll vs = true) (hb : oxmPack vs = .ok b) : sizeAttrs oxmFields vs = .ok b.length := by
  have hf : FieldsSized [] oxmFields := by unfold oxmFields; sz
  simp only [oxmPack] at hb
  unfold oxmPrep at hb
  split at hb
  · cases hb
  · rename_i heq
    split at heq
    · split at heq
      · cases heq
      · split at heq
        · cases heq
        · split at heq
          · cases heq
          · cases heq
            rename_i c0 _ _ v f m _ i _ _ k _ _ payload _
            have : honestAll [c0, .int (i * 2 + k % 2), .int payload.length, v, f, m] = true := by
              simp only [honestAll, honest, Bool.and_eq_true] at hv ⊢
              simp [hv]
            have := sizeAttrs_ok (hf.zip this (by simp [charsFit])) hb
            exact this
    · cases heq

theorem oxmInit_honest : honestAll oxmInit = true := by decide +kernel

theorem sized_oxm : Sized oxm := by
  intro v hv b hb
  simp only [oxm] at hb ⊢
  split at hb
  · exact oxmPack_sized oxmInit_honest hb
  · split at hb
    · rename_i hc; subst hc; simp only [if_true]; exact oxmPack_sized (honest_obj hv).1 hb
    · cases hb
  all_goals cases hb

theorem sizedItem_oxm : SizedItem (isObj "04.OxmTLV") oxm := by
  intro v hv hi b hb
  cases v <;> simp [isObj] at hi
  subst hi
  simp only [oxm, if_true] at hb ⊢
  exact oxmPack_sized (honest_obj hv).1 hb

theorem sized_oxms : Sized oxms := sized_list sizedItem_oxm

macro_rules
  | `(tactic| sz1) => `(tactic| first | exact sized_oxm | exact sized_oxms)

theorem le_ceil8 (n : Nat) : n ≤ ceil8 n := by unfold ceil8; omega

theorem fill_length {n : Nat} {p : Bytes} (h : p.length ≤ n) : (fill n p).length = n := by
  simp [fill]; omega

theorem sized_matchFields : FieldsSized [] matchFields := by unfold matchFields; sz

theorem matchPack_sized {vs b} (hv : honestAll vs = true) (hb : matchPack vs = .ok b) : matchSize vs = .ok b.length := by
  simp only [matchPack, withLength] at hb
  cases hs : sizeAttrs matchFields vs with
  | error e => simp [hs] at hb
  | ok k =>
    simp only [hs] at hb
    split at hb
    · cases hb
    · rename_i p hp
      have h := sizeAttrs_ok (sized_matchFields.zip (honestAll_set hv (by rfl)) (by simp [charsFit])) hp
      simp only [h] at hb
      cases hb
      rw [sizeAttrs_set_ub (i := 1) (n := "length") (w := 2) (ref := .none) (dv := .none) rfl, hs] at h
      cases h
      simp only [matchSize, hs, fill_length (le_ceil8 _)]

theorem sized_match : Sized «match» := by
  intro v hv b hb
  simp only [«match»] at hb ⊢
  split at hb
  · exact matchPack_sized (by decide +kernel) hb
  · split at hb
    · rename_i hc; subst hc; simp only [if_true]; exact matchPack_sized (honest_obj hv).1 hb
    · cases hb
  · cases hb

/-! ## actions -/

theorem fits_arity {cls vs n} (h : fits cls vs = true) (hn : actionArity.lookup cls = some n) : vs.length = n := by
  simp only [fits, Bool.and_eq_true, hn] at h
  simpa using h.1.1.1.1.1.2

/-- Sizes of attributes that do not depend on their values. -/
inductive Fixed : Fields → Nat → Prop
  | nil : Fixed [] 0
  | cons {n c k fs m} : (∀ v, c.size v = .ok k) → Fixed fs m → Fixed ((n, c) :: fs) (k + m)

theorem Fixed.size {fs n} (h : Fixed fs n) : ∀ {vs : List Val}, vs.length = fs.length → sizeAttrs fs vs = .ok n := by
  induction h with
  | nil => intro vs _; simp [sizeAttrs]
  | cons hc _ ih =>
    intro vs hl
    cases vs with
    | nil => simp at hl
    | cons v vs => simp [sizeAttrs, hc, ih (vs := vs) (by simpa using hl)]

theorem subSized_action {name tail n} (hf : FieldsSized (charLengths name) (actionHead ++ tail)) (hx : Fixed (actionHead ++ tail) n)
    (ha : actionArity.lookup name = some (actionHead ++ tail).length) (h8 : ceil8 n = n) : SubSized (actionSub name tail) := by
  intro vs b hv hb
  have h1 := hf.attrs hv hb
  have h2 := hx.size (fits_arity (honest_obj hv).2 ha)
  rw [h1] at h2
  cases h2
  simp only [actionSub, actionSize, h1, h8]

theorem binSize_len {v b} (h : binPackRaw v = .ok b) : b.length = binLen v := by
  induction v using binPackRaw.induct <;> simp_all [binPackRaw, binLen]

theorem experimenter_sized : SubSized actionExperimenter := by
  have hf : FieldsSized [] (actionHead ++ [("experimenter", ubint 4), ("body", binAttr)]) := by
    simp only [actionHead, List.cons_append, List.nil_append]; sz
  intro vs b hv hb
  have h1 := hf.attrs (cls := "04.ActionExperimenter") hv hb
  have h2 := fits_arity (n := 4) (honest_obj hv).2 rfl
  have h3 := (honest_obj hv).2
  simp only [fits, Bool.and_eq_true] at h3
  match vs, h2 with
  | [t, l, e, body], _ =>
    have h4 : binLen body % 8 = 0 := by simpa [actionExperimenter, actionSub] using h3.1.1.1.2
    have h5 : b.length = 8 + binLen body := by
      simp only [actionExperimenter, actionSub, actionHead, List.cons_append, List.nil_append] at hb
      obtain ⟨b1, r1, g1, hb1, rfl⟩ := packAttrs_cons.mp hb
      obtain ⟨b2, r2, g2, hb2, rfl⟩ := packAttrs_cons.mp hb1
      obtain ⟨b3, r3, g3, hb3, rfl⟩ := packAttrs_cons.mp hb2
      obtain ⟨b4, r4, g4, hb4, rfl⟩ := packAttrs_cons.mp hb3
      simp only [packAttrs] at hb4
      cases hb4
      have g4 : b4.length = binLen body := by
        cases body <;> exact binSize_len g4
      have g1 := ubPack_length g1
      have g2 := ubPack_length g2
      have g3 := ubPack_length g3
      simp [g1, g2, g3, g4]
      omega
    have h6 : ceil8 b.length = b.length := by unfold ceil8; omega
    simp only [actionExperimenter, actionSub, actionSize] at h1 ⊢
    rw [h1]
    simp only [h6]

theorem setField_pack_length {x y z q} (hq : packAttrs setFieldFields [x, y, z] = .ok q) :
    ∃ p, oxm.pack z = .ok p ∧ q.length = 4 + p.length := by
  simp only [setFieldFields, actionHead, List.cons_append, List.nil_append] at hq
  obtain ⟨b1, r1, g1, hq1, rfl⟩ := packAttrs_cons.mp hq
  obtain ⟨b2, r2, g2, hq2, rfl⟩ := packAttrs_cons.mp hq1
  obtain ⟨b3, r3, g3, hq3, rfl⟩ := packAttrs_cons.mp hq2
  simp only [packAttrs] at hq3
  cases hq3
  refine ⟨b3, g3, ?_⟩
  have g1 := ubPack_length g1
  have g2 := ubPack_length g2
  simp [g1, g2]
  omega

theorem setField_sized : SubSized actionSetField := by
  have hf : FieldsSized [] setFieldFields := by unfold setFieldFields actionHead; simp only [List.cons_append, List.nil_append]; sz
  intro vs b hv hb
  have hv := (honest_obj hv).1
  simp only [actionSetField, setFieldPack] at hb
  unfold setFieldPrep at hb
  split at hb
  · cases hb
  · rename_i heq
    split at heq
    · split at heq
      · cases heq
      · cases heq
        rename_i t l0 c ws _ _ p hp
        cases hq : packAttrs setFieldFields [t, .int (ceil8 (4 + p.length) : Nat), .obj c ws] with
        | error e => simp [hq] at hb
        | ok q =>
          simp only [hq] at hb
          cases hb
          have hh : honestAll [t, .int (ceil8 (4 + p.length) : Nat), .obj c ws] = true := by
            simp only [honestAll, honest, Bool.and_eq_true] at hv ⊢
            simp [hv]
          have h1 := sizeAttrs_ok (hf.zip hh (by simp [charsFit])) hq
          have h2 : sizeAttrs setFieldFields [t, l0, .obj c ws] = .ok q.length := h1
          have h3 : q.length = 4 + p.length := by
            obtain ⟨p', g3, h3⟩ := setField_pack_length hq
            rw [hp] at g3
            cases g3
            exact h3
          simp only [actionSetField, actionSize, h2]
          rw [Int.toNat_natCast, fill_length (by rw [h3]; exact le_ceil8 _), h3]
    · cases heq

theorem actionHeader_dishonest {vs} : honest (.obj "04.ActionHeader" vs) = false := by
  simp [honest, fits]

theorem sizedItem_action : SizedItem (isSub actionSubs) action := by
  apply sizedItem_variant
  intro s hs
  simp only [actionSubs, actionClasses, List.map_cons, List.map_nil, List.mem_cons, List.not_mem_nil, or_false] at hs
  rcases hs with rfl | rfl | rfl | rfl | rfl | rfl | rfl | rfl | rfl | rfl | rfl | rfl | rfl | rfl | rfl | rfl
  · intro vs b hv _
    have : honest (.obj "04.ActionHeader" vs) = true := hv
    simp [actionHeader_dishonest] at this
  · exact experimenter_sized
  all_goals first
    | exact setField_sized
    | (refine subSized_action (n := 8) ?_ ?_ rfl rfl
       · show FieldsSized [] _; simp only [actionHead, List.cons_append, List.nil_append]; sz
       · simp only [actionHead, List.cons_append, List.nil_append]
         first
         | exact .cons (k := 2) (fun _ => rfl) (.cons (k := 2) (fun _ => rfl) (.cons (k := 4) (fun _ => rfl) .nil))
         | exact .cons (k := 2) (fun _ => rfl) (.cons (k := 2) (fun _ => rfl) (.cons (k := 1) (fun _ => rfl) (.cons (k := 3) (fun _ => rfl) .nil)))
         | exact .cons (k := 2) (fun _ => rfl) (.cons (k := 2) (fun _ => rfl) (.cons (k := 2) (fun _ => rfl) (.cons (k := 2) (fun _ => rfl) .nil))))
    | (refine subSized_action (n := 16) ?_ ?_ rfl rfl
       · show FieldsSized [] _; simp only [actionHead, List.cons_append, List.nil_append]; sz
       · simp only [actionHead, List.cons_append, List.nil_append]
         exact .cons (k := 2) (fun _ => rfl) (.cons (k := 2) (fun _ => rfl) (.cons (k := 4) (fun _ => rfl) (.cons (k := 2) (fun _ => rfl) (.cons (k := 6) (fun _ => rfl) .nil)))))

theorem sized_actions : Sized actions := sized_list sizedItem_action

macro_rules
  | `(tactic| sz1) => `(tactic| first | exact sized_match | exact sized_actions)

/-! ## instructions, properties, bands -/

theorem instruction_sized : ∀ s ∈ instructionSubs, SubSized s := by
  intro s hs
  simp only [instructionSubs, List.mem_cons, List.not_mem_nil, or_false] at hs
  rcases hs with rfl | rfl | rfl | rfl | rfl | rfl | rfl <;>
    (refine subSized_auto (n := "length") (w := 2) (ref := .none) (dv := .none) ?_ rfl
     show FieldsSized [] _
     simp only [instructionHead, List.cons_append, List.nil_append]
     exact (by sz))

theorem sizedItem_instruction : SizedItem (isSub instructionSubs) instruction := sizedItem_variant instruction_sized

theorem sized_instructions : Sized instructions := sized_list sizedItem_instruction

theorem sizedItem_band : SizedItem (isSub bandSubs) band := by
  apply sizedItem_variant
  intro s hs
  simp only [bandSubs, List.mem_cons, List.not_mem_nil, or_false] at hs
  rcases hs with rfl | rfl | rfl | rfl <;>
    (refine subSized_plain ?_
     show FieldsSized [] _
     simp only [bandHead, List.cons_append, List.nil_append]
     exact (by sz))

theorem sized_bands : Sized bands := sized_list sizedItem_band

macro_rules
  | `(tactic| sz1) => `(tactic| first | exact sized_instructions | exact sized_bands)

theorem property_sized : ∀ s ∈ propertySubs, SubSized s := by
  intro s hs
  simp only [propertySubs, List.mem_cons, List.not_mem_nil, or_false] at hs
  rcases hs with rfl | rfl | rfl | rfl | rfl <;>
    (refine subSized_auto (n := "length") (w := 2) (ref := .none) (dv := .int 4) ?_ rfl
     show FieldsSized [] _
     simp only [propertyHead, List.cons_append, List.nil_append]
     exact (by sz))

theorem sizedItem_property : SizedItem (isSub propertySubs) property := sizedItem_variant property_sized

theorem sized_properties : Sized properties := sized_list sizedItem_property

/-! ## ports, queues, buckets -/

theorem port_fields : FieldsSized (charLengths "04.Port") portFields := by
  show FieldsSized [none, none, none, none, some 16] _
  unfold portFields
  sz

theorem sized_port : Sized port := sized_struct port_fields (by decide +kernel)

theorem sized_queues : Sized queues := by
  apply sized_list
  apply sizedItem_struct
  show FieldsSized [] _
  unfold packetQueueFields queueProps queuePropHeader queuePropHeaderFields
  sz

theorem sized_bucketCounters : Sized bucketCounters := by
  apply sized_list
  apply sizedItem_struct
  show FieldsSized [] _
  sz

theorem sized_bandStatsList : Sized bandStatsList := by
  apply sized_list
  apply sizedItem_struct
  show FieldsSized [] _
  sz

macro_rules
  | `(tactic| sz1) => `(tactic| first | exact sized_properties | exact sized_port | exact sized_queues | exact sized_bucketCounters | exact sized_bandStatsList)

/-- A list that is not counted packs to nothing if it is empty. -/
theorem bare_nothing {isItem it v} (h : nothing v = true) : SizeOK (bareListAttr isItem it) v := by
  intro b hb
  simp only [bareListAttr] at hb ⊢
  split at hb
  · cases hb; rfl
  · rename_i xs
    cases xs with
    | nil => simp only [packItems] at hb; cases hb; rfl
    | cons x xs => simp [nothing] at h
  · cases hb

theorem bucket_pack_length {l w p g pad acts b} (hb : packAttrs bucketFields [l, w, p, g, pad, acts] = .ok b) :
    ∃ ab, (bareListAttr (isSub actionSubs) action).pack acts = .ok ab ∧ b.length = 16 + ab.length := by
  simp only [bucketFields] at hb
  obtain ⟨b1, r1, g1, hb1, rfl⟩ := packAttrs_cons.mp hb
  obtain ⟨b2, r2, g2, hb2, rfl⟩ := packAttrs_cons.mp hb1
  obtain ⟨b3, r3, g3, hb3, rfl⟩ := packAttrs_cons.mp hb2
  obtain ⟨b4, r4, g4, hb4, rfl⟩ := packAttrs_cons.mp hb3
  obtain ⟨b5, r5, g5, hb5, rfl⟩ := packAttrs_cons.mp hb4
  obtain ⟨b6, r6, g6, hb6, rfl⟩ := packAttrs_cons.mp hb5
  simp only [packAttrs] at hb6
  cases hb6
  refine ⟨b6, g6, ?_⟩
  have g1 := ubPack_length g1
  have g2 := ubPack_length g2
  have g3 := ubPack_length g3
  have g4 := ubPack_length g4
  have g5 : b5.length = 4 := by
    have := (sizeOK_pad 4 pad).1 _ g5
    simpa [padAttr] using this.symm
  simp [g1, g2, g3, g4, g5]
  omega

theorem bucket_sized : SizedItem (isObj "04.Bucket") bucket := by
  intro v hv hi b hb
  cases v <;> simp [isObj] at hi
  rename_i c vs
  subst hi
  have h3 := (honest_obj hv).2
  simp only [fits, Bool.and_eq_true] at h3
  replace h3 := h3.1.1.2
  simp only [bne_self_eq_false, Bool.false_or] at h3
  replace hb : packAttrs bucketFields vs = .ok b := by simpa [bucket, lengthCut, structAttr] using hb
  simp only [bucket, lengthCut, if_true]
  split at h3
  · rename_i w p g pad acts
    have hz : ∀ q ∈ bucketFields.zip [Val.none, w, p, g, pad, acts], SizeOK q.1.2 q.2 := by
      intro q hq
      simp only [bucketFields, List.zip_cons_cons, List.zip_nil_left, List.mem_cons, List.not_mem_nil, or_false] at hq
      rcases hq with rfl | rfl | rfl | rfl | rfl | rfl
      · exact (sizeOK_uint ..).1
      · exact (sizeOK_uint ..).1
      · exact (sizeOK_uint ..).1
      · exact (sizeOK_uint ..).1
      · exact (sizeOK_pad ..).1
      · exact bare_nothing h3
    simp only [bucketSize]
    exact sizeAttrs_ok hz hb
  · rename_i l w p g pad acts hl
    obtain ⟨ab, ha, hlen⟩ := bucket_pack_length hb
    simp only [bareListAttr] at ha
    have hn : ∃ n : Int, cmpNum l = some n ∧ n = 16 + ab.length := by
      cases hc : cmpNum l with
      | none => simp [hc] at h3
      | some n =>
        refine ⟨n, rfl, ?_⟩
        simp only [hc] at h3
        split at ha
        · cases ha; simpa using h3
        · simp only [ha] at h3; simpa using h3
        · cases ha
    obtain ⟨n, hc, hn⟩ := hn
    have : bucketSize [l, w, p, g, pad, acts] = .ok b.length := by
      unfold bucketSize
      cases l <;> simp only [hc] <;> first
        | (exfalso; exact hl _ _ _ _ _ rfl)
        | (rw [if_pos (by omega)]; congr 1; omega)
        | (simp [cmpNum] at hc)
    exact this
  · cases h3

theorem sized_buckets : Sized buckets := sized_list bucket_sized

macro_rules
  | `(tactic| sz1) => `(tactic| first | exact sized_buckets)

theorem groupDescStats_sized : SizedItem (isObj "04.GroupDescStats") groupDescStats := by
  intro v hv hi b hb
  cases v <;> simp [isObj] at hi
  rename_i c vs
  subst hi
  have h3 := (honest_obj hv).2
  simp only [fits, Bool.and_eq_true] at h3
  replace h3 := h3.1.2
  simp only [bne_self_eq_false, Bool.false_and, Bool.false_or] at h3
  simp only [groupDescStats, structAttr, if_true] at hb ⊢
  refine sizeAttrs_ok ?_ hb
  split at h3
  · rename_i l t p g bs
    intro q hq
    simp only [List.zip_cons_cons, List.zip_nil_left, List.mem_cons, List.not_mem_nil, or_false] at hq
    rcases hq with rfl | rfl | rfl | rfl | rfl
    · exact (sizeOK_uint ..).1
    · exact (sizeOK_uint ..).1
    · exact (sizeOK_pad ..).1
    · exact (sizeOK_uint ..).1
    · exact bare_nothing h3
  · cases h3

/-- Every class whose instances may be put in the body of a multipart message. -/
theorem bodies_sized : ClassesSized bodyClasses := by
  unfold bodyClasses
  repeat' apply classesSized_cons
  · apply sizedItem_struct; show FieldsSized [] _; unfold flowStatsRequestFields; sz
  · apply sizedItem_struct; show FieldsSized [] _; unfold flowStatsRequestFields; sz
  · apply sizedItem_struct; show FieldsSized [] _; sz
  · apply sizedItem_struct; show FieldsSized [] _; sz
  · apply sizedItem_struct; show FieldsSized [] _; sz
  · apply sizedItem_struct; show FieldsSized [] _; sz
  · apply sizedItem_struct; show FieldsSized [] _; sz
  · apply sizedItem_cut
    refine sizedItem_auto (n := "length") (w := 2) (ref := .none) (dv := .none) ?_ rfl
    show FieldsSized [none, none, none, some 32] _; unfold tableFeaturesFields; sz
  · apply sizedItem_struct; show FieldsSized [] _; sz
  · apply sizedItem_struct; show FieldsSized [some 256, some 256, some 256, some 32, some 256] _; sz
  · apply sizedItem_cut; apply sizedItem_struct; show FieldsSized [] _; unfold flowStatsFields; sz
  · apply sizedItem_struct; show FieldsSized [] _; sz
  · apply sizedItem_struct; show FieldsSized [] _; sz
  · exact groupDescStats_sized
  · apply sizedItem_struct; show FieldsSized [] _; sz
  · apply sizedItem_struct; show FieldsSized [] _; sz
  · apply sizedItem_struct; show FieldsSized [] _; sz
  · apply sizedItem_struct; show FieldsSized [] _; sz
  · apply sizedItem_cut
    refine sizedItem_auto (n := "length") (w := 2) (ref := .none) (dv := .none) ?_ rfl
    show FieldsSized [] _; unfold meterStatsFields; sz
  · apply sizedItem_struct; show FieldsSized [] _; sz
  · exact sizedItem_struct port_fields
  · exact classesSized_nil

end Pyof.V04
