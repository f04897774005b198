import Verif.Lemmas.AgainV01
import Verif.Model.Libs
/-! Packing twice: OpenFlow 1.3. -/
namespace Pyof
open Spec

theorem lenAt_ubint {fs : Fields} {i n w ref dv} (h : fs[i]? = some (n, ubint w ref dv)) : LenAt fs i :=
  ⟨_, h, rfl, w, fun _ => rfl⟩

namespace V04

/-! ## Match -/

theorem oxmPrep_again {vs ws} (h : oxmPrep vs = .ok ws) : oxmPrep ws = .ok ws ∧ sizeAttrs oxmFields ws = sizeAttrs oxmFields vs := by
  unfold oxmPrep at h
  split at h
  · rename_i c x y v f m
    cases hf : oxmFieldInt c f with
    | error e => simp [hf] at h
    | ok i =>
      cases hm : cmpNum m with
      | none => simp [hf, hm] at h
      | some k =>
        cases hp : binAttr.pack v with
        | error e => simp [hf, hm, hp] at h
        | ok payload =>
          simp only [hf, hm, hp, Except.ok.injEq] at h
          subst h
          exact ⟨by simp only [oxmPrep, hf, hm, hp], rfl⟩
  · cases h

theorem oxm_again {vs b} (hb : oxmPack vs = .ok b) : ∃ ws, oxmPrep vs = .ok ws ∧ oxmPack ws = .ok b ∧
    sizeAttrs oxmFields ws = sizeAttrs oxmFields vs := by
  unfold oxmPack at hb
  cases hw : oxmPrep vs with
  | error e => simp [hw] at hb
  | ok ws =>
    simp only [hw] at hb
    obtain ⟨h1, h2⟩ := oxmPrep_again hw
    exact ⟨ws, rfl, by simp only [oxmPack, h1, hb], h2⟩

theorem oxm_idem : Idem oxm := by
  constructor
  all_goals
    intro v b hb
    cases v
    case obj c vs =>
      by_cases hc : c = "04.OxmTLV"
      · subst hc
        have hb' : oxmPack vs = .ok b := by simpa [oxm] using hb
        obtain ⟨ws, h1, h2, h3⟩ := oxm_again hb'
        simp only [oxm, h1, if_true]
        first | exact h2 | exact h3
      · simp [oxm, hc] at hb
    all_goals first | exact hb | rfl

theorem oxm_keeps : KeepsClass oxm "04.OxmTLV" := by
  refine ⟨fun vs => ?_, fun _ _ => rfl⟩
  simp only [oxm, if_true]
  cases oxmPrep vs <;> exact ⟨_, rfl⟩

theorem oxms_idem : Idem oxms := idem_list (itemPost_obj oxm_idem oxm_keeps)

theorem matchFields_idem : ∀ p ∈ matchFields, Idem p.2 := by
  have h := oxms_idem
  idem_fields

theorem match_again {vs b} (hb : matchPack vs = .ok b) :
    matchPack (autoPost matchFields 1 vs) = .ok b ∧ matchSize (autoPost matchFields 1 vs) = matchSize vs := by
  unfold matchPack at hb
  cases hw : withLength matchFields 1 vs with
  | error e => simp [hw] at hb
  | ok ws =>
    cases hp : packAttrs matchFields ws with
    | error e => simp [hw, hp] at hb
    | ok p =>
      obtain ⟨h1, h2, h3, h4⟩ := withLength_again matchFields_idem (lenAt_ubint (fs := matchFields) (i := 1) rfl) hw hp
      simp only [hw, hp, h4] at hb
      simp only [autoPost, hw, matchPack, h1, h2, h3, hb, matchSize, and_self]

theorem match_idem : Idem «match» := by
  constructor
  all_goals
    intro v b hb
    cases v
    case obj c vs =>
      by_cases hc : c = "04.Match"
      · subst hc
        have hb' : matchPack vs = .ok b := by simpa [«match»] using hb
        obtain ⟨h1, h2⟩ := match_again hb'
        simp only [«match», if_true]
        first | exact h1 | exact h2
      · simp [«match», hc] at hb
    all_goals first | exact hb | rfl

/-! ## Actions, instructions, properties, bands, buckets -/

theorem subIdem_action {name tail} (h : ∀ p ∈ actionHead ++ tail, Idem p.2) : SubIdem (actionSub name tail) := by
  refine ⟨fun vs b hb => (postAttrs_again h hb).1, fun vs b hb => ?_⟩
  have := (postAttrs_again h hb).2
  simp only [actionSub, actionSize, this]

theorem setField_again {vs b} (hb : setFieldPack vs = .ok b) :
    setFieldPack (actionSetField.post vs) = .ok b ∧
      sizeAttrs setFieldFields (actionSetField.post vs) = sizeAttrs setFieldFields vs := by
  unfold setFieldPack at hb
  cases hw : setFieldPrep vs with
  | error e => simp [hw] at hb
  | ok ws =>
    have hw0 := hw
    unfold setFieldPrep at hw
    split at hw
    · rename_i t l c xs
      cases hx : oxm.pack (.obj c xs) with
      | error e => simp [hx] at hw
      | ok q =>
        simp only [hx, Except.ok.injEq] at hw
        subst hw
        simp only [hw0] at hb
        cases hp : packAttrs setFieldFields [t, .int (ceil8 (4 + q.length)), .obj c xs] with
        | error e => simp [hp] at hb
        | ok p =>
          simp only [hp] at hb
          have hall : ∀ p ∈ setFieldFields, Idem p.2 := by
            have h := oxm_idem
            idem_fields
          obtain ⟨h1, h2⟩ := postAttrs_again hall hp
          have hc : c = "04.OxmTLV" := by
            apply Classical.byContradiction
            intro hc
            simp [oxm, hc] at hx
          subst hc
          obtain ⟨ys, hy⟩ := oxm_keeps.obj xs
          have hy2 := oxm_idem.pack _ _ hx
          rw [hy] at hy2
          have hpost : actionSetField.post [t, l, .obj "04.OxmTLV" xs] =
              [t, .int (ceil8 (4 + q.length)), .obj "04.OxmTLV" ys] := by
            simp only [actionSetField, hw0]
            show [t, Val.int _, oxm.post (.obj "04.OxmTLV" xs)] = _
            rw [hy]
          have hpost2 : postAttrs setFieldFields [t, .int (ceil8 (4 + q.length)), .obj "04.OxmTLV" xs] =
              [t, .int (ceil8 (4 + q.length)), .obj "04.OxmTLV" ys] := by
            show [t, Val.int _, oxm.post (.obj "04.OxmTLV" xs)] = _
            rw [hy]
          rw [hpost2] at h1 h2
          rw [hpost]
          refine ⟨?_, h2⟩
          simp only [setFieldPack, setFieldPrep, hy2, h1]
          exact hb
    · cases hw

theorem actionSub_idem : ∀ s ∈ actionSubs, SubIdem s := by
  intro s hs
  have hset : SubIdem actionSetField := by
    refine ⟨fun vs b hb => (setField_again hb).1, fun vs b hb => ?_⟩
    have := (setField_again hb).2
    show actionSize _ _ = actionSize _ _
    simp only [actionSize, this]
  simp only [actionSubs, actionClasses, List.map_cons, List.map_nil] at hs
  repeat (rcases List.mem_cons.1 hs with rfl | hs; · first | exact hset | exact subIdem_action (by idem_fields))
  cases hs

theorem action_idem : Idem action := idem_variant actionSub_idem
theorem actions_idem : Idem actions := idem_list (itemPost_variant actionSub_idem)

theorem instructionSub_idem : ∀ s ∈ instructionSubs, SubIdem s := by
  intro s hs
  have h := actions_idem
  simp only [instructionSubs] at hs
  repeat (rcases List.mem_cons.1 hs with rfl | hs; · exact subIdem_auto (by idem_fields) (lenAt_ubint rfl))
  cases hs
theorem instructions_idem : Idem instructions := idem_list (itemPost_variant instructionSub_idem)

theorem bandSub_idem : ∀ s ∈ bandSubs, SubIdem s := by
  intro s hs
  simp only [bandSubs] at hs
  repeat (rcases List.mem_cons.1 hs with rfl | hs; · exact subIdem_plain (by idem_fields))
  cases hs
theorem band_idem : Idem band := idem_variant bandSub_idem
theorem bands_idem : Idem bands := idem_list (itemPost_variant bandSub_idem)

theorem propertySub_idem : ∀ s ∈ propertySubs, SubIdem s := by
  intro s hs
  have h := actions_idem
  have h2 := instructions_idem
  have h3 := oxms_idem
  simp only [propertySubs] at hs
  repeat (rcases List.mem_cons.1 hs with rfl | hs; · exact subIdem_auto (by idem_fields) (lenAt_ubint rfl))
  cases hs
theorem properties_idem : Idem properties := idem_list (itemPost_variant propertySub_idem)

theorem bucketFields_idem : ∀ p ∈ bucketFields, Idem p.2 := by
  have h : Idem (bareListAttr (isSub actionSubs) action) := idem_bareList action_idem
  idem_fields

theorem bucketSize_again {vs b} (hb : packAttrs bucketFields vs = .ok b) :
    bucketSize (postAttrs bucketFields vs) = bucketSize vs := by
  cases vs with
  | nil => rfl
  | cons l vs =>
    have h := (postAttrs_again bucketFields_idem hb).2
    have hp : postAttrs bucketFields (l :: vs) = l :: postAttrs (bucketFields.drop 1) vs := rfl
    rw [hp] at h ⊢
    cases l <;> first | rfl | exact h

theorem bucket_idem : Idem bucket := by
  have h : Idem (structAttr "04.Bucket" bucketFields [.none, .none, .none, .none, .pad 4, .none]) :=
    idem_struct bucketFields_idem
  have key : ∀ v b, bucket.pack v = .ok b → bucket.usize (bucket.post v) = bucket.usize v := by
    intro v b hb
    cases v
    case obj c vs =>
      by_cases hc : c = "04.Bucket"
      · subst hc
        have hb' : packAttrs bucketFields vs = .ok b := by simpa [bucket, lengthCut, structAttr] using hb
        have := bucketSize_again hb'
        simp only [bucket, lengthCut, structAttr, if_true, this]
      · simp [bucket, lengthCut, structAttr, hc] at hb
    all_goals rfl
  exact ⟨h.pack, key, key⟩

theorem bucket_keeps : KeepsClass bucket "04.Bucket" :=
  ⟨fun vs => ⟨postAttrs bucketFields vs, by simp [bucket, lengthCut, structAttr]⟩, fun _ _ => rfl⟩
theorem buckets_idem : Idem buckets := idem_list (itemPost_obj bucket_idem bucket_keeps)

theorem queueProps_idem : Idem queueProps :=
  idem_list (itemPost_obj (idem_struct (by idem_fields)) keeps_struct)
theorem queues_idem : Idem queues :=
  have h := queueProps_idem
  idem_list (itemPost_obj (idem_struct (by idem_fields)) keeps_struct)
theorem bucketCounters_idem : Idem bucketCounters :=
  idem_list (itemPost_obj (idem_struct (by idem_fields)) keeps_struct)
theorem bandStatsList_idem : Idem bandStatsList :=
  idem_list (itemPost_obj (idem_struct (by idem_fields)) keeps_struct)
theorem helloElem_idem : Idem helloElem :=
  (idem_auto (by idem_fields) (lenAt_ubint rfl)).cut 2
theorem helloElems_idem : Idem helloElems :=
  idem_list (itemPost_obj helloElem_idem (keeps_auto.cut 2))

theorem packetOut_idem : MsgIdem packetOut := by
  refine msgIdem_of fun vs ws b h1 h2 => ?_
  rw [show packetOut.prep = packetOutPrep from rfl] at h1 ⊢
  unfold packetOutPrep at h1
  split at h1
  · rename_i bf p l pad acts d
    cases hn : actions.size acts with
    | error e => simp [hn] at h1
    | ok n =>
      simp only [hn, Except.ok.injEq] at h1
      subst h1
      have hall : ∀ p ∈ packetOutFields, Idem p.2 := by
        have h := actions_idem
        idem_fields
      obtain ⟨h3, h4⟩ := postAttrs_again hall h2
      have hp : packetOut.after [bf, p, l, pad, acts, d] = [bf, p, .int n, pad, actions.post acts, d] := by
        simp only [packetOut, packetOutPrep, hn]
        rfl
      have hacts : actions.size (actions.post acts) = .ok n := by
        obtain ⟨_, _, _, h2, _⟩ := packAttrs_cons.1 h2
        obtain ⟨_, _, _, h2, _⟩ := packAttrs_cons.1 h2
        obtain ⟨_, _, _, h2, _⟩ := packAttrs_cons.1 h2
        obtain ⟨_, _, _, h2, _⟩ := packAttrs_cons.1 h2
        obtain ⟨x, _, hx, _, _⟩ := packAttrs_cons.1 h2
        rw [actions_idem.size acts x hx, hn]
      refine ⟨[bf, p, .int n, pad, actions.post acts, d], ?_, h3, h4, rfl⟩
      rw [hp]
      simp only [packetOutPrep, hacts]
  · cases h1

/-! ## Multipart bodies -/

theorem bodyClass_idem : ∀ p ∈ bodyClasses, Idem p.2 ∧ KeepsClass p.2 p.1 := by
  have h1 := actions_idem
  have h2 := match_idem
  have h3 := instructions_idem
  have h4 := properties_idem
  have h5 := bands_idem
  have h6 := bucketCounters_idem
  have h7 := bandStatsList_idem
  have h8 : Idem (bareListAttr (isObj "04.Bucket") bucket) := idem_bareList bucket_idem
  intro p hp
  rw [show bodyClasses = [("04.AggregateStatsRequest", aggregateStatsRequest), ("04.FlowStatsRequest", flowStatsRequest),
   ("04.PortStatsRequest", portStatsRequest), ("04.QueueStatsRequest", queueStatsRequest),
   ("04.GroupStatsRequest", groupStatsRequest), ("04.MeterMultipartRequest", meterMultipartRequest),
   ("04.ExperimenterMultipartHeader", experimenterMultipart), ("04.TableFeatures", tableFeatures),
   ("04.AggregateStatsReply", aggregateStatsReply), ("04.Desc", desc), ("04.FlowStats", flowStats),
   ("04.PortStats", portStats), ("04.QueueStats", queueStats), ("04.GroupDescStats", groupDescStats),
   ("04.GroupFeatures", groupFeatures), ("04.GroupStats", groupStats), ("04.MeterConfig", meterConfig),
   ("04.MeterFeatures", meterFeatures), ("04.MeterStats", meterStats), ("04.TableStats", tableStats), ("04.Port", port)]
   from rfl] at hp
  repeat (rcases List.mem_cons.1 hp with rfl | hp; · first
    | exact ⟨idem_struct (by idem_fields), keeps_struct⟩
    | exact ⟨(idem_struct (by idem_fields)).cut 0, keeps_struct.cut 0⟩
    | exact ⟨(idem_auto (by idem_fields) (lenAt_ubint rfl)).cut 0, keeps_auto.cut 0⟩
    | exact ⟨(idem_auto (by idem_fields) (lenAt_ubint rfl)).cut 4, keeps_auto.cut 4⟩)
  cases hp

theorem lookup_mem {α β} [BEq α] [LawfulBEq α] {l : List (α × β)} {a b} (h : l.lookup a = some b) : (a, b) ∈ l := by
  induction l with
  | nil => cases h
  | cons p l ih =>
    obtain ⟨x, y⟩ := p
    rw [List.lookup_cons] at h
    split at h
    · rename_i e
      cases h
      rw [eq_of_beq e]
      exact List.mem_cons_self
    · exact List.mem_cons_of_mem _ (ih h)

theorem bodyPost_item {c a} (h : bodyClasses.lookup c = some a) : ItemPost (isObj c) a bodyPost := by
  obtain ⟨hi, hk⟩ := bodyClass_idem _ (lookup_mem h)
  have e : ∀ vs, bodyPost (.obj c vs) = a.post (.obj c vs) := fun vs => by simp only [bodyPost, h]
  refine ⟨?_, ?_, ?_, fun _ _ => rfl, fun _ _ => rfl⟩
  · intro x b hx hb
    obtain ⟨vs, rfl⟩ := isObj_iff.1 hx
    rw [e]
    exact hi.pack _ _ hb
  · intro x b hx hb
    obtain ⟨vs, rfl⟩ := isObj_iff.1 hx
    rw [e]
    exact hi.usize _ _ hb
  · intro x hx
    obtain ⟨vs, rfl⟩ := isObj_iff.1 hx
    rw [e]
    obtain ⟨ws, hw⟩ := hk.obj vs
    rw [hw]
    exact isObj_iff.2 ⟨ws, rfl⟩

theorem selfPack_again {body b} (hl : ∀ f xs, body ≠ .list f xs) (h : selfPack bodyClasses body = some (.ok b)) :
    selfPack bodyClasses (bodyPost body) = some (.ok b) ∧ pyTrue (bodyPost body) = pyTrue body ∧
      ∀ f xs, bodyPost body ≠ .list f xs := by
  cases body
  case obj c vs =>
    cases hc : bodyClasses.lookup c with
    | none => simp [selfPack, hc] at h
    | some a =>
      simp only [selfPack, hc, Option.some.injEq] at h
      obtain ⟨hi, hk⟩ := bodyClass_idem _ (lookup_mem hc)
      obtain ⟨ws, hw⟩ := hk.obj vs
      replace hw : a.post (.obj c vs) = .obj c ws := hw
      have h2 : a.pack (a.post (.obj c vs)) = .ok b := hi.pack _ _ h
      simp only [bodyPost, hc]
      rw [hw] at h2 ⊢
      exact ⟨by simp only [selfPack, hc, h2], rfl, fun _ _ e => by cases e⟩
  case list f xs => exact absurd rfl (hl f xs)
  all_goals exact ⟨h, rfl, hl⟩

theorem multipartAfter_list {t f p g xs} (hb : pyTrue (.list g xs) = true) :
    ∃ T, multipartAfter [t, f, p, .list g xs] = [T, f, p, .list g (xs.map bodyPost)] ∧ bodyKey T = bodyKey t ∧
      ∀ ref, (ubint 2 ref).pack T = (ubint 2 ref).pack t := by
  simp only [multipartAfter, if_pos hb]
  refine ⟨_, rfl, ?_, fun ref => ?_⟩ <;> split <;> rfl

theorem multipart_idem {m : MsgCls} {simple array rt rest} (hm : m.body = ("multipart_type", ubint 2 rt) :: rest)
    (hp : m.prep = multipartPrep simple array) (ha : m.after = multipartAfter) (hv : m.valid = fun _ => .ok ())
    (hk : ∀ k c a, array k = some (c, a) → bodyClasses.lookup c = some a) : MsgIdem m := by
  refine msgIdem_of fun vs ws b h1 h2 => ?_
  rw [hp] at h1 ⊢
  rw [ha, hv]
  have h0 := h1
  unfold multipartPrep at h1
  split at h1
  · rename_i t f p body
    by_cases hb : pyTrue body
    · rw [if_pos hb] at h1
      by_cases hl : ∃ g xs, body = .list g xs
      · obtain ⟨g, xs, rfl⟩ := hl
        simp only [] at h1
        cases hkey : bodyKey t with
        | error e => simp [hkey] at h1
        | ok k =>
          simp only [hkey] at h1
          cases harr : (if 0 ≤ k ∧ (simple k.toNat).isNone then array k.toNat else none) with
          | none => simp only [harr] at h1; cases h1
          | some q =>
            obtain ⟨c, a⟩ := q
            simp only [harr] at h1
            cases hadd : addItems (isObj c) xs with
            | error e => simp [hadd] at h1
            | ok ys =>
              simp only [hadd] at h1
              cases hpk : packItems a ys with
              | error e => simp [hpk] at h1
              | ok bb =>
                simp only [hpk, Except.ok.injEq] at h1
                subst h1
                have hlook : bodyClasses.lookup c = some a := by
                  split at harr
                  · exact hk _ _ _ harr
                  · cases harr
                obtain ⟨zs, z1, z2, -, -⟩ := addItems_again (bodyPost_item hlook) hadd hpk
                have hne : pyTrue (.list g (xs.map bodyPost)) = true := by
                  cases xs with
                  | nil => simp [pyTrue] at hb
                  | cons x xs => rfl
                obtain ⟨T, t1, t2, t3⟩ := multipartAfter_list (t := t) (f := f) (p := p) hb
                refine ⟨[T, f, p, .bytes bb], ?_, ?_, ?_, rfl⟩
                · rw [t1]
                  simp only [multipartPrep, if_pos hne, t2, hkey, harr, z1, z2]
                · have h3 : packAttrs (("multipart_type", ubint 2 rt) :: rest) [t, f, p, .bytes bb] = .ok b := hm ▸ h2
                  obtain ⟨x, y, hx, hy, e⟩ := packAttrs_cons.1 h3
                  have h4 : packAttrs (("multipart_type", ubint 2 rt) :: rest) [T, f, p, .bytes bb] = .ok b := packAttrs_cons.2 ⟨x, y, (t3 rt).trans hx, hy, e⟩
                  exact hm ▸ h4
                · simp only [hm, sizeAttrs]
                  rfl
      · have hl' : ∀ f xs, body ≠ .list f xs := fun f xs e => hl ⟨f, xs, e⟩
        have e1 : multipartPrep simple array [t, f, p, body] =
            match selfPack bodyClasses body with
            | none => .error .unboundLocal
            | some (.error e) => .error e
            | some (.ok b) => .ok [t, f, p, .bytes b] := by
          simp only [multipartPrep, if_pos hb]
          rfl
        have e2 : multipartAfter [t, f, p, body] = [t, f, p, bodyPost body] := by
          simp only [multipartAfter, if_pos hb]
        have h1' := h0
        rw [e1] at h1'
        cases hs : selfPack bodyClasses body with
        | none => simp [hs] at h1'
        | some r =>
          cases r with
          | error e => simp [hs] at h1'
          | ok bb =>
            simp only [hs, Except.ok.injEq] at h1'
            subst h1'
            obtain ⟨s1, s2, s3⟩ := selfPack_again hl' hs
            refine ⟨_, ?_, h2, rfl, rfl⟩
            rw [e2]
            have hb2 : pyTrue (bodyPost body) = true := s2.trans hb
            simp only [multipartPrep, if_pos hb2]
            revert s1 s3
            generalize bodyPost body = body'
            intro s1 s3
            cases body' <;> first | exact absurd rfl (s3 _ _) | simp only [s1]
    · rw [if_neg hb] at h1
      cases h1
      refine ⟨_, ?_, h2, rfl, rfl⟩
      simp only [multipartAfter, if_neg hb, multipartPrep]
  · cases h1

theorem multipartRequest_idem : MsgIdem multipartRequest := by
  refine multipart_idem (rest := multipartRequestFields.drop 1) (rt := .enum multipartTypes) rfl rfl rfl rfl ?_
  intro k c a h
  unfold requestArray at h
  split at h
  · cases h; rfl
  · cases h

theorem multipartReply_idem : MsgIdem multipartReply := by
  refine multipart_idem (rest := multipartReplyFields.drop 1) (rt := .enum multipartTypes) rfl rfl rfl rfl ?_
  intro k c a h
  unfold replyArray at h
  split at h <;> first | (cases h; rfl) | cases h

theorem messages_idem : ∀ p ∈ lib.classes, MsgIdem p.2 := by
  have h1 := actions_idem
  have h2 := match_idem
  have h3 := instructions_idem
  have h4 := queues_idem
  have h5 := buckets_idem
  have h6 := helloElems_idem
  have h7 : Idem (bareListAttr (isSub bandSubs) band) := idem_bareList band_idem
  intro p hp
  rw [show lib.classes = [(0, hello), (1, errorMsg), (2, echoRequest), (3, echoReply), (4, experimenter), (5, featuresRequest),
     (6, featuresReply), (7, getConfigRequest), (8, getConfigReply), (9, setConfig), (10, packetIn), (11, flowRemoved),
     (12, portStatus), (13, packetOut), (14, flowMod), (15, groupMod), (16, portMod), (17, tableMod), (18, multipartRequest),
     (19, multipartReply), (20, barrierRequest), (21, barrierReply), (22, queueGetConfigRequest), (23, queueGetConfigReply),
     (24, roleRequest), (25, roleReply), (26, getAsyncRequest), (27, getAsyncReply), (28, setAsync), (29, meterMod)] from rfl] at hp
  repeat (rcases List.mem_cons.1 hp with rfl | hp; · first
    | exact packetOut_idem | exact multipartRequest_idem | exact multipartReply_idem
    | exact msgIdem_plain rfl rfl rfl (by idem_fields))
  cases hp

end V04

/-! ## Any message -/

theorem named_mem {l : Lib} {c m} (h : l.named c = some m) : ∃ k, (k, m) ∈ l.classes ∧ m.name = c := by
  unfold Lib.named at h
  cases hf : l.classes.find? (fun p => p.2.name == c) with
  | none => simp [hf] at h
  | some p =>
    simp only [hf, Option.map_some, Option.some.injEq] at h
    subst h
    exact ⟨p.1, List.mem_of_find?_eq_some hf, by simpa using List.find?_some hf⟩

theorem findSome_named {ls : List Lib} {c m} (h : ls.findSome? (fun l => l.named c) = some m) :
    ∃ l ∈ ls, l.named c = some m := by
  obtain ⟨l, hl, h⟩ := List.exists_of_findSome?_eq_some h
  exact ⟨l, hl, h⟩

theorem MsgCls.post_name {m : MsgCls} {c vs} : ∃ ws, m.post (.obj c vs) = .obj c ws := by
  cases vs with
  | nil => exact ⟨[], rfl⟩
  | cons hdr vs =>
    simp only [MsgCls.post]
    repeat' split
    all_goals exact ⟨_, rfl⟩

theorem pyPack_again {v p} (h : pyPack libs v = .ok p) : pyPack libs (pyPost libs v) = .ok p := by
  cases v
  case obj c vs =>
    simp only [pyPack, pyPost] at h ⊢
    cases hm : libs.findSome? (fun l => l.named c) with
    | none => simp [hm] at h
    | some m =>
      simp only [hm] at h
      obtain ⟨ws, hw⟩ := m.post_name (c := c) (vs := vs)
      obtain ⟨l, hl, hn⟩ := findSome_named hm
      obtain ⟨k, hk, -⟩ := named_mem hn
      have hi : MsgIdem m := by
        simp only [libs, List.mem_cons, List.not_mem_nil, or_false] at hl
        rcases hl with rfl | rfl
        · exact V01.messages_idem _ hk
        · exact V04.messages_idem _ hk
      have h2 := hi _ _ h
      rw [hw] at h2
      simp only [hm, hw]
      exact h2
  all_goals cases h

end Pyof
