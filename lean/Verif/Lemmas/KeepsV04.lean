import Verif.Lemmas.KeepsV01
import Verif.Lemmas.Libs
/-! Packing does not change contents: OpenFlow 1.3. -/
namespace Pyof
open Spec
namespace V04

theorem oxmTlv_keeps : Keeps oxm Spec.V04.oxm := by
  intro v d hd
  obtain ⟨c, k, l, v, f, m, cn, fn, mn, dv, rfl, h1, h2, h3, h4, rfl⟩ := oxm_den_inv hd
  simp only [oxm, if_true, oxmPrep]
  cases oxmFieldInt c f with
  | error e => exact hd
  | ok i =>
    cases cmpNum m with
    | none => exact hd
    | some k =>
      cases (binAttr).pack v with
      | error e => exact hd
      | ok p => simp only [Spec.V04.oxm, if_true, h1, h2, h3, h4]

theorem oxms_keeps : Keeps oxms Spec.V04.oxms := keeps_list oxmTlv_keeps

theorem match_keeps : Keeps «match» Spec.V04.match := by
  have h0 := oxms_keeps
  have h : Keeps «match» (ownLen "04.Match" [("match_type", uint 2 (some [0, 1]))] [("oxm_match_fields", Spec.V04.oxms)]) := by
    intro v d hd
    obtain ⟨vs₁, l, vs₂, ds₁, ds₂, rfl, _⟩ := ownLen_den_inv hd
    simp only [«match», if_true]
    exact autoPost_keeps (cs₁ := [("match_type", ubint 2 (.enum [0, 1]))]) (by keeps_fields) (cs₂ := [("oxm_match_fields", oxms)]) (by keeps_fields)
      (m := "length") (c := ubint 2) rfl rfl hd
  refine h.pad8.orDefault rfl ?_
  intro v hv
  cases v <;> first | rfl | skip
  all_goals (simp only [«match»] at hv; first | cases hv | (split at hv <;> cases hv))

theorem setField_keeps {vs d} (hd : Spec.V04.setField.den (.obj "04.ActionSetField" vs) = some d) :
    Spec.V04.setField.den (.obj "04.ActionSetField" (actionSetField.post vs)) = some d := by
  obtain ⟨t, l, x, tn, dx, hv, h1, h2, rfl⟩ := setField_den_inv hd
  cases hv
  simp only [actionSetField, setFieldPrep]
  cases x
  case obj c ws =>
    cases hx : oxm.pack (.obj c ws) with
    | error e => simp only [hx]; exact hd
    | ok p =>
      have hp : ∀ k, postAttrs setFieldFields [t, .int k, .obj c ws] = [t, .int k, oxm.post (.obj c ws)] := fun _ => rfl
      simp only [hx, hp, Spec.V04.setField, if_true, h1, oxmTlv_keeps _ _ h2]
  all_goals exact hd

theorem actionSub_same : ∀ s ∈ actionSubs, s = actionSetField ∨ ∀ vs, s.post vs = vs := by
  intro s hs
  simp only [actionSubs, actionClasses, List.map_cons, List.map_nil] at hs
  repeat (rcases List.mem_cons.1 hs with rfl | hs; · first | exact .inl rfl | exact .inr fun vs => postAttrs_id (by same_fields) vs)
  cases hs

theorem action_keeps : Keeps action Spec.V04.action :=
  (keeps_variant fun t c s _ hs vs d hd => by
    obtain ⟨h1, h2⟩ := subOf_mem hs
    rcases actionSub_same s h1 with rfl | h
    · replace h2 : "04.ActionSetField" = c := h2
      subst h2
      exact setField_keeps hd
    · rw [h]; exact hd).delimited 2
theorem actions_keeps : Keeps actions Spec.V04.actions := keeps_list action_keeps

theorem instruction_keeps : Keeps instruction Spec.V04.instruction := by
  have h0 := actions_keeps
  refine keeps_variant fun t c s hsel hs vs d hd => ?_
  have key : ∀ {name tail ftail}, KeepsAll tail ftail →
      (ownLen name [("instruction_type", uint 2 (some Spec.V04.instructionMembers))] ftail).den (.obj name vs) = some d →
      (ownLen name [("instruction_type", uint 2 (some Spec.V04.instructionMembers))] ftail).den
        (.obj name ((instructionSub name tail).post vs)) = some d := fun h hd =>
    autoPost_keeps (cs₁ := [("instruction_type", ubint 2 (.enum instructionTypes))]) (by keeps_fields) h (m := "length") (c := ubint 2) rfl rfl hd
  unfold Spec.V04.instructionSel at hsel
  rcases ite_some hsel with ⟨h2, rfl⟩ | hsel
  · cases (hs : some instructionGotoTable = some s); exact key (by keeps_fields) hd
  rcases ite_some hsel with ⟨h2, rfl⟩ | hsel
  · cases (hs : some instructionWriteMetadata = some s); exact key (by keeps_fields) hd
  rcases ite_some hsel with ⟨h2, rfl⟩ | hsel
  · cases (hs : some instructionWriteAction = some s); exact key (by keeps_fields) hd
  rcases ite_some hsel with ⟨h2, rfl⟩ | hsel
  · cases (hs : some instructionApplyAction = some s); exact key (by keeps_fields) hd
  rcases ite_some hsel with ⟨h2, rfl⟩ | hsel
  · cases (hs : some instructionClearAction = some s); exact key (by keeps_fields) hd
  rcases ite_some hsel with ⟨h2, rfl⟩ | hsel
  · cases (hs : some instructionMeter = some s); exact key (by keeps_fields) hd
  · cases hsel
theorem instructions_keeps : Keeps instructions Spec.V04.instructions := keeps_list instruction_keeps

theorem property_keeps : Keeps property Spec.V04.property := by
  have h0 := actions_keeps
  have h1 := instructions_keeps
  have h3 := oxms_keeps
  refine keeps_variant fun t c s hsel hs vs d hd => ?_
  have key : ∀ {name tail ftail}, KeepsAll tail ftail →
      (ownLen name [("property_type", uint 2 (some Spec.V04.propertyMembers))] ftail).den (.obj name vs) = some d →
      (ownLen name [("property_type", uint 2 (some Spec.V04.propertyMembers))] ftail).den
        (.obj name ((propertySub name tail).post vs)) = some d := fun h hd =>
    autoPost_keeps (cs₁ := [("property_type", ubint 2 (.enum propertyTypes))]) (by keeps_fields) h (m := "length")
      (c := ubint 2 .none (.int 4)) rfl rfl hd
  unfold Spec.V04.propertySel at hsel
  rcases ite_some hsel with ⟨h2, rfl⟩ | hsel
  · cases (hs : some instructionsProperty = some s); exact key (by keeps_fields) hd
  rcases ite_some hsel with ⟨h2, rfl⟩ | hsel
  · cases (hs : some nextTablesProperty = some s); exact key (by keeps_fields) hd
  rcases ite_some hsel with ⟨h2, rfl⟩ | hsel
  · cases (hs : some actionsProperty = some s); exact key (by keeps_fields) hd
  rcases ite_some hsel with ⟨h2, rfl⟩ | hsel
  · cases (hs : some oxmProperty = some s); exact key (by keeps_fields) hd
  · cases hsel
theorem properties_keeps : Keeps properties (list Spec.V04.property) := keeps_list property_keeps

theorem bandSub_same : ∀ s ∈ bandSubs, ∀ vs, s.post vs = vs := by
  intro s hs vs
  simp only [bandSubs] at hs
  repeat (rcases List.mem_cons.1 hs with rfl | hs; · exact postAttrs_id (by same_fields) vs)
  cases hs
theorem bands_keeps : Keeps bands (list Spec.V04.band) :=
  keeps_list ((keeps_variant fun t c s _ hs vs d hd => by rw [bandSub_same s (subOf_mem hs).1]; exact hd).delimited 2)

theorem bucketRaw_keeps : Keeps bucket (Spec.V04.bucketRaw (bareList Spec.V04.action)) :=
  have h : Keeps (bareListAttr (isSub actionSubs) action) (bareList Spec.V04.action) := keeps_bareList action_keeps
  have h2 : Keeps (structAttr "04.Bucket" bucketFields [.none, .none, .none, .none, .pad 4, .none])
    (Spec.V04.bucketRaw (bareList Spec.V04.action)) := content_struct (by keeps_fields)
  h2
theorem buckets_keeps : Keeps buckets (list Spec.V04.bucket) := keeps_list (bucketRaw_keeps.exact 0)

theorem helloElems_keeps : Keeps helloElems (list Spec.V04.helloElem) :=
  keeps_list ((keeps_own (cs₁ := [("element_type", ubint 2)]) (by keeps_fields) (cs₂ := [("content", binAttr)]) (by keeps_fields)
    (m := "length") (c := ubint 2) rfl rfl).cut 2)

theorem packetOut_keeps : MsgKeeps packetOut ⟨"04.PacketOut", 4, 13, "04.Header", Spec.V04.packetOut⟩ := by
  intro vs d hd
  obtain ⟨b, p, l, pd, acts, data, bn, pn, as, dd, hv, h1, h2, h3, h4, rfl⟩ := packetOut_den_inv hd
  cases hv
  simp only [packetOut, packetOutPrep]
  cases actions.size acts with
  | error e => exact hd
  | ok n =>
    have hp : postAttrs packetOutFields [b, p, .int n, pd, acts, data] = [b, p, .int n, pd, actions.post acts, data] := rfl
    simp only [hp, Spec.V04.packetOut, if_true, h1, h2, h4, actions_keeps _ _ h3]

/-! ## Multipart bodies -/

/-- The objects in a body keep their contents. -/
def BodyKeeps (k : Spec.V04.Body) : Prop :=
  match k with
  | .one g | .many g _ => ∀ v d, g.den v = some d → (∃ c vs, bodyPost v = .obj c vs) ∧ g.den (bodyPost v) = some d
  | .opaque => True

theorem one_keeps {a g name} (si : StatsItem bodyClasses a g name) (h : Keeps a g) : ∀ v d, g.den v = some d →
    (∃ c vs, bodyPost v = .obj c vs) ∧ g.den (bodyPost v) = some d := by
  intro v d hd
  obtain ⟨vs, rfl⟩ := si.inv v d hd
  have e : bodyPost (.obj name vs) = a.post (.obj name vs) := by simp only [bodyPost, si.lookup]
  have h2 := h _ _ hd
  obtain ⟨ws, hw⟩ := si.inv _ _ h2
  rw [e]
  exact ⟨⟨_, _, hw⟩, h2⟩

theorem flowStats_keeps : Keeps flowStats Spec.V04.flowStats :=
  have h2 := match_keeps
  have h3 := instructions_keeps
  ((content_struct (by keeps_fields)).cut 0).delimited 0

theorem tableFeatures_keeps : Keeps tableFeatures Spec.V04.tableFeatures :=
  have h := properties_keeps
  (keeps_own (cs₁ := []) (by keeps_fields) (cs₂ := tableFeaturesFields.drop 1) (by unfold tableFeaturesFields; keeps_fields) (m := "length") (c := ubint 2) rfl rfl).cut 0

theorem meterStats_keeps : Keeps meterStats Spec.V04.meterStats :=
  have h : Keeps bandStatsList (list Spec.V04.bandStats) := keeps_list (content_struct (by keeps_fields))
  (keeps_own (cs₁ := [("meter_id", ubint 4)]) (by keeps_fields) (cs₂ := meterStatsFields.drop 2) (by unfold meterStatsFields; keeps_fields) (m := "length") (c := ubint 2) rfl rfl).cut 4

theorem request_keeps (t : Nat) : BodyKeeps (Spec.V04.requestBody t) := by
  have h2 := match_keeps
  unfold Spec.V04.requestBody
  split
  · exact one_keeps item_flowStatsRequest (content_struct (by keeps_fields))
  · exact one_keeps item_aggregateStatsRequest (content_struct (by keeps_fields))
  · exact one_keeps item_portStatsRequest (content_struct (by keeps_fields))
  · exact one_keeps item_queueStatsRequest (content_struct (by keeps_fields))
  · exact one_keeps item_groupStatsRequest (content_struct (by keeps_fields))
  · exact one_keeps item_meterMultipartRequest (content_struct (by keeps_fields))
  · exact one_keeps item_tableFeatures tableFeatures_keeps
  · exact one_keeps item_experimenterMultipart (content_struct (by keeps_fields))
  · trivial

theorem reply_keeps (t : Nat) : BodyKeeps (Spec.V04.replyBody t) := by
  have h5 := bands_keeps
  have h6 : Keeps bucketCounters (list Spec.V04.bucketCounter) := keeps_list (content_struct (by keeps_fields))
  unfold Spec.V04.replyBody
  split
  · exact one_keeps item_desc (content_struct (by keeps_fields))
  · exact one_keeps item_flowStats flowStats_keeps
  · exact one_keeps item_aggregateStatsReply (content_struct (by keeps_fields))
  · exact one_keeps item_tableStats (content_struct (by keeps_fields))
  · exact one_keeps item_portStats (content_struct (by keeps_fields))
  · exact one_keeps item_queueStats (content_struct (by keeps_fields))
  · exact one_keeps item_groupStats (content_struct (by keeps_fields))
  · exact one_keeps item_groupDescStats (content_struct (by keeps_fields))
  · exact one_keeps item_groupFeatures (content_struct (by keeps_fields))
  · exact one_keeps item_meterStats meterStats_keeps
  · exact one_keeps item_meterConfig (content_struct (by keeps_fields))
  · exact one_keeps item_meterFeatures (content_struct (by keeps_fields))
  · exact one_keeps item_tableFeatures tableFeatures_keeps
  · exact one_keeps item_port (content_struct (by keeps_fields))
  · exact one_keeps item_experimenterMultipart (content_struct (by keeps_fields))
  · trivial

/-- The body after `pack()`. -/
def bodyAfter (body : Val) : Val :=
  if pyTrue body then (match body with | .list g xs => .list g (xs.map bodyPost) | b => bodyPost b) else body

theorem arrayItems_truthy {v xs} (h : Spec.V04.arrayItems v = some xs) (hb : pyTrue v = true) :
    (∃ c vs, v = .obj c vs ∧ xs = [v]) ∨ (∃ g y ys, v = .list g (y :: ys) ∧ xs = y :: ys) := by
  cases v with
  | obj c vs => cases h; exact .inl ⟨_, _, rfl, rfl⟩
  | list g l =>
    cases l with
    | nil => simp [pyTrue] at hb
    | cons y ys => cases g <;> (cases h; exact .inr ⟨_, _, _, rfl, rfl⟩)
  | bytes b =>
    cases b with
    | nil => simp [pyTrue] at hb
    | cons y ys => cases h
  | none => simp [pyTrue] at hb
  | _ => cases h

theorem arrayItems_cons (g y ys) : Spec.V04.arrayItems (.list g (y :: ys)) = some (y :: ys) := by cases g <;> rfl

theorem bodyAfter_keeps {k : Spec.V04.Body} (h : BodyKeeps k) {v d} (hd : k.den v = some d) : k.den (bodyAfter v) = some d := by
  unfold bodyAfter
  by_cases hb : pyTrue v
  · rw [if_pos hb]
    cases k with
    | one g =>
      simp only [Spec.V04.Body.den] at hd
      split at hd
      · rename_i c vs
        obtain ⟨⟨e, ws, hw⟩, h2⟩ := h _ _ hd
        simp only [hw] at h2 ⊢
        exact h2
      · cases hd
    | many g s =>
      simp only [Spec.V04.Body.den] at hd
      split at hd
      · rename_i xs hxs
        rcases arrayItems_truthy hxs hb with ⟨c, vs, rfl, rfl⟩ | ⟨f, y, ys, rfl, rfl⟩
        · cases hm : optMap g.den [.obj c vs] with
          | none => simp [hm] at hd
          | some ds =>
            have hx : ∃ d0, g.den (.obj c vs) = some d0 := by
              obtain ⟨d0, _, h3, _⟩ := optMap_cons_inv hm
              exact ⟨d0, h3⟩
            obtain ⟨d0, hd0⟩ := hx
            obtain ⟨⟨e, ws, hw⟩, _⟩ := h _ _ hd0
            have h3 := optMap_map (post := bodyPost) (fun x d hx => (h x d hx).2) hm
            simp only [List.map_cons, List.map_nil, hw] at h3
            simp only [hw, Spec.V04.Body.den, Spec.V04.arrayItems, bodyItems, h3]
            rw [hm] at hd
            exact hd
        · cases hm : optMap g.den (y :: ys) with
          | none => simp [hm] at hd
          | some ds =>
            have h3 := optMap_map (post := bodyPost) (fun x d hx => (h x d hx).2) hm
            simp only [List.map_cons] at h3
            simp only [Spec.V04.Body.den, List.map_cons, arrayItems_cons, h3]
            rw [hm] at hd
            exact hd
      · cases hd
    | «opaque» =>
      cases v
      case list => cases hd
      case obj => cases hd
      all_goals exact hd
  · rw [if_neg hb]; exact hd

theorem multipart_keeps {m : MsgCls} {s : MsgFmt} {kind flags} (ha : m.after = multipartAfter)
    (hs : s.fmt = Spec.V04.multipart s.name kind flags) (hk : ∀ t, BodyKeeps (kind t)) : MsgKeeps m s := by
  intro vs d hd
  rw [hs] at hd ⊢
  obtain ⟨t, f, p, body, tn, fn, x, hv, h1, h2, h3, rfl⟩ := multipart_den_inv hd
  cases hv
  have e : multipartAfter [t, f, p, body] = [t, f, p, bodyAfter body] := by
    simp only [multipartAfter, bodyAfter]
    split
    · cases body <;> first | rfl | (rcases fieldNum_inv h1 with rfl | rfl <;> rfl)
    · rfl
  rw [ha, e]
  simp only [Spec.V04.multipart, if_true, h1, h2, bodyAfter_keeps (hk tn) h3, Option.map_some]

theorem plain_keeps : ∀ p ∈ Spec.V04.plainMsgs, ∃ m, lib.find p.2.1 = some m ∧ MsgKeeps m (Spec.V04.plain p.1 p.2.1 p.2.2) := by
  have h1 := instructions_keeps
  have h2 := match_keeps
  have h3 := helloElems_keeps
  have h4 := buckets_keeps
  have h5 : Keeps port Spec.V04.port := content_struct (by keeps_fields)
  simp only [Spec.V04.plainMsgs, List.forall_mem_cons, Spec.V04.switchConfig, Spec.V04.role, Spec.V04.async]
  refine ⟨⟨hello, rfl, ?_⟩, ⟨echoRequest, rfl, ?_⟩, ⟨echoReply, rfl, ?_⟩, ⟨experimenter, rfl, ?_⟩, ⟨featuresRequest, rfl, ?_⟩,
    ⟨featuresReply, rfl, ?_⟩, ⟨getConfigRequest, rfl, ?_⟩, ⟨getConfigReply, rfl, ?_⟩, ⟨setConfig, rfl, ?_⟩, ⟨packetIn, rfl, ?_⟩,
    ⟨flowRemoved, rfl, ?_⟩, ⟨portStatus, rfl, ?_⟩, ⟨flowMod, rfl, ?_⟩, ⟨groupMod, rfl, ?_⟩, ⟨portMod, rfl, ?_⟩, ⟨tableMod, rfl, ?_⟩,
    ⟨barrierRequest, rfl, ?_⟩, ⟨barrierReply, rfl, ?_⟩, ⟨roleRequest, rfl, ?_⟩, ⟨roleReply, rfl, ?_⟩, ⟨getAsyncRequest, rfl, ?_⟩,
    ⟨getAsyncReply, rfl, ?_⟩, ⟨setAsync, rfl, ?_⟩, ⟨meterMod, rfl, ?_⟩, by simp⟩ <;>
    exact msgKeeps_plain rfl rfl (by keeps_fields)

theorem messages_keeps : ∀ s ∈ Spec.V04.messages, ∃ m, lib.find s.code = some m ∧ MsgKeeps m s := by
  intro s hs
  simp only [Spec.V04.messages, List.mem_append, List.mem_map] at hs
  rcases hs with ⟨p, hp, rfl⟩ | hs
  · exact plain_keeps p hp
  · simp only [List.mem_cons, List.not_mem_nil, or_false] at hs
    rcases hs with rfl | rfl | rfl | rfl
    · exact ⟨errorMsg, rfl, msgKeeps_plain rfl rfl (by keeps_fields)⟩
    · exact ⟨packetOut, rfl, packetOut_keeps⟩
    · exact ⟨multipartRequest, rfl, multipart_keeps rfl rfl request_keeps⟩
    · exact ⟨multipartReply, rfl, multipart_keeps rfl rfl reply_keeps⟩

end V04

theorem msgDen_post {s} (hs : s ∈ messages) {v x d} (h : msgDen s v = some (x, d)) :
    msgDen s (pyPost libs v) = some (x, d) := by
  have key : ∃ l m, Known s l m ∧ MsgKeeps m s := by
    rcases List.mem_append.mp hs with h | h
    · obtain ⟨m, k⟩ := known_v01 h
      obtain ⟨m', h1, h2⟩ := V01.messages_keeps s h
      cases Option.some.inj (k.find.symm.trans h1)
      exact ⟨_, _, k, h2⟩
    · obtain ⟨m, k⟩ := known_v04 h
      obtain ⟨m', h1, h2⟩ := V04.messages_keeps s h
      cases Option.some.inj (k.find.symm.trans h1)
      exact ⟨_, _, k, h2⟩
  obtain ⟨l, m, k, h2⟩ := key
  obtain ⟨hdr, vs, rfl, _⟩ := msgDen_inv h
  rw [k.pyPost_eq]
  exact msgKeeps_post h2 h

end Pyof
