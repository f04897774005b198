import Verif.Lemmas.RefuseV01
import Verif.Lemmas.KeepsV04
/-! Refusals: OpenFlow 1.3. -/
namespace Pyof
open Spec
namespace V04

theorem oxm_refuse : Refuse oxm Spec.V04.oxm := by
  have hsz : ∀ v d, Spec.V04.oxm.den v = some d → Succeeds (oxm.size v) ∧ Succeeds (oxm.usize v) := by
    intro v d hd
    obtain ⟨c, k, l, v, f, m, cn, fn, mn, dv, rfl, h1, h2, h3, h4, rfl⟩ := oxm_den_inv hd
    have : Succeeds (sizeAttrs oxmFields [c, k, l, v, f, m]) :=
      only_sizeAttrs_cons (.ok _) (only_sizeAttrs_cons (.ok _) (only_sizeAttrs_cons (.ok _)
        (only_sizeAttrs_cons (refuse_rest.size _ _ h4) (.ok _))))
    simp only [oxm, if_true]
    exact ⟨this, this⟩
  refine ⟨?_, fun v d hd => (hsz v d hd).1, fun v d _ hd => (hsz v d hd).2⟩
  intro v d hd
  obtain ⟨c, k, l, v, f, m, cn, fn, mn, dv, rfl, h1, h2, h3, h4, rfl⟩ := oxm_den_inv hd
  obtain ⟨rfl, _⟩ := maskNum_inv h3
  have hp := (enc_rest.pack _ _ h4 dv).mpr rfl
  simp only [oxm, if_true, oxmPack, oxmPrep, cmpNum, hp]
  have hf : OnlyPack (oxmFieldInt c f) := by
    unfold oxmFieldInt
    split
    · split
      · split <;> first | exact .ok _ | exact .pack
      · exact .pack
    · split
      · split <;> first | exact .ok _ | exact .pack
      · split <;> first | exact .ok _ | exact .pack
      · exact .pack
  cases hi : oxmFieldInt c f with
  | error e => rw [hi] at hf; cases hf e rfl; exact .pack
  | ok i =>
    exact only_packAttrs_cons (ubint_only _) (only_packAttrs_cons (ubint_only _) (only_packAttrs_cons (ubint_only _)
      (only_packAttrs_cons (.of_ok hp) (.ok _))))

theorem oxms_refuse : Refuse oxms Spec.V04.oxms := refuse_list oxm_refuse itemOk_oxm

theorem match_refuse : Refuse «match» Spec.V04.match := by
  have h0 := oxms_refuse
  have key : ∀ {vs d}, (ownLen "04.Match" [("match_type", uint 2 (some [0, 1]))] [("oxm_match_fields", Spec.V04.oxms)]).den
      (.obj "04.Match" vs) = some d → OnlyPack (matchPack vs) ∧ Succeeds (matchSize vs) := by
    intro vs d hd
    have := only_auto (cs := matchFields) (i := 1) (cs₁ := [("match_type", ubint 2 (.enum [0, 1]))]) (by refuse_fields)
      (cs₂ := [("oxm_match_fields", oxms)]) (by refuse_fields) (m := "length") (w := 2) rfl rfl hd
    obtain ⟨h1, h2, h3⟩ := this
    constructor
    · unfold autoPack at h2
      unfold matchPack
      cases hw : withLength matchFields 1 vs with
      | error e => rw [hw] at h2; cases h2 e rfl; exact .pack
      | ok ws =>
        rw [hw] at h2
        have hws : ∃ k : Nat, ws = vs.set 1 (.int k) := by
          unfold withLength at hw
          split at hw
          · cases hw
          · cases hw; exact ⟨_, rfl⟩
        obtain ⟨k, rfl⟩ := hws
        have h4 := h3 k
        simp only at h2 ⊢
        split
        · rename_i e he; rw [he] at h2; cases h2 e rfl; exact .pack
        · split
          · rename_i e he; rw [he] at h4; exact absurd h4 Succeeds.not_error
          · exact .ok _
    · unfold matchSize
      split
      · rename_i e he; rw [he] at h1; exact absurd h1 Succeeds.not_error
      · exact .ok _
  refine Refuse.orDefault (Refuse.pad8 ⟨?_, ?_, ?_⟩) ?_ ?_
  · intro v d hd
    obtain ⟨vs₁, l, vs₂, ds₁, ds₂, rfl, _⟩ := ownLen_den_inv hd
    simp only [«match», if_true]
    exact (key hd).1
  · intro v d hd
    obtain ⟨vs₁, l, vs₂, ds₁, ds₂, rfl, _⟩ := ownLen_den_inv hd
    simp only [«match», if_true]
    exact (key hd).2
  · intro v d _ hd
    obtain ⟨vs₁, l, vs₂, ds₁, ds₂, rfl, _⟩ := ownLen_den_inv hd
    simp only [«match», if_true]
    exact (key hd).2
  · exact (key (vs := matchInit) rfl).1
  · exact (key (vs := matchInit) rfl).2

/-! ## Actions -/

theorem only_actionSize {cs vs} (h : Succeeds (sizeAttrs cs vs)) : Succeeds (actionSize cs vs) := by
  unfold actionSize
  split
  · rename_i e he; rw [he] at h; exact absurd h Succeeds.not_error
  · exact .ok _

theorem setField_refuse {vs d} (hd : Spec.V04.setField.den (.obj "04.ActionSetField" vs) = some d) :
    OnlyPack (actionSetField.pack vs) ∧ Succeeds (actionSetField.size vs) := by
  obtain ⟨t, l, x, tn, dx, hv, h1, h2, rfl⟩ := setField_den_inv hd
  cases hv
  have hp : actionSetField.pack = setFieldPack := rfl
  have hs : actionSetField.size = actionSize setFieldFields := rfl
  rw [hp, hs]
  refine ⟨?_, only_actionSize (only_sizeAttrs_cons (.ok _) (only_sizeAttrs_cons (.ok _)
    (only_sizeAttrs_cons (oxm_refuse.size _ _ h2) only_sizeAttrs_nil)))⟩
  obtain ⟨c, k, l', v, f, m, cn, fn, mn, dv, rfl, _⟩ := oxm_den_inv h2
  have hx := oxm_refuse.pack _ _ h2
  simp only [setFieldPack, setFieldPrep]
  cases he : oxm.pack (.obj "04.OxmTLV" [c, k, l', v, f, m]) with
  | error e => rw [he] at hx; cases hx e rfl; exact .pack
  | ok p =>
    simp only
    have : OnlyPack (packAttrs setFieldFields [t, .int (ceil8 (4 + p.length)), .obj "04.OxmTLV" [c, k, l', v, f, m]]) :=
      only_packAttrs_cons (ubint_only _) (only_packAttrs_cons (ubint_only _) (only_packAttrs_cons (.of_ok he) only_packAttrs_nil))
    cases hq : packAttrs setFieldFields [t, .int (ceil8 (4 + p.length)), .obj "04.OxmTLV" [c, k, l', v, f, m]] with
    | error e => rw [hq] at this; cases this e rfl; exact .pack
    | ok q => exact .ok _

theorem action_refuse : Refuse action Spec.V04.action := by
  refine Refuse.delimited (refuse_variant fun t c h => ?_) 2
  have key : ∀ {name tail}, name ≠ "04.ActionSetField" → c = name → subOf actionSubs c = some (actionSub name tail) →
      RefuseAll (actionHead ++ tail) (("action_type", uint 2 (some Spec.V04.actionMembers)) :: ("length", Spec.V04.u16) :: Spec.V04.actionTail c) →
      ∃ s, subOf actionSubs c = some s ∧ ∀ vs d, (Spec.V04.actionLay c).den (.obj c vs) = some d →
        OnlyPack (s.pack vs) ∧ Succeeds (s.size vs) := by
    rintro name tail hn rfl h1 h2
    refine ⟨_, h1, fun vs d hd => ?_⟩
    simp only [Spec.V04.actionLay, if_neg hn] at hd
    obtain ⟨ws, ds, hw, h3, rfl⟩ := struct_den_inv hd
    cases hw
    exact ⟨h2.pack h3, only_actionSize (h2.size h3)⟩
  unfold Spec.V04.actionSel at h
  rcases ite_some h with ⟨_, rfl⟩ | h
  · exact key (by decide) rfl rfl (by simp only [Spec.V04.actionTail]; unfold actionHead; refuse_fields)
  rcases ite_some h with ⟨_, rfl⟩ | h
  · exact key (by decide) rfl rfl (by simp only [Spec.V04.actionTail]; unfold actionHead; refuse_fields)
  rcases ite_some h with ⟨_, rfl⟩ | h
  · exact key (by decide) rfl rfl (by simp only [Spec.V04.actionTail]; unfold actionHead; refuse_fields)
  rcases ite_some h with ⟨_, rfl⟩ | h
  · exact key (by decide) rfl rfl (by simp only [Spec.V04.actionTail]; unfold actionHead; refuse_fields)
  rcases ite_some h with ⟨_, rfl⟩ | h
  · exact key (by decide) rfl rfl (by simp only [Spec.V04.actionTail]; unfold actionHead; refuse_fields)
  rcases ite_some h with ⟨_, rfl⟩ | h
  · exact key (by decide) rfl rfl (by simp only [Spec.V04.actionTail]; unfold actionHead; refuse_fields)
  rcases ite_some h with ⟨_, rfl⟩ | h
  · exact key (by decide) rfl rfl (by simp only [Spec.V04.actionTail]; unfold actionHead; refuse_fields)
  rcases ite_some h with ⟨_, rfl⟩ | h
  · exact key (by decide) rfl rfl (by simp only [Spec.V04.actionTail]; unfold actionHead; refuse_fields)
  rcases ite_some h with ⟨_, rfl⟩ | h
  · exact key (by decide) rfl rfl (by simp only [Spec.V04.actionTail]; unfold actionHead; refuse_fields)
  rcases ite_some h with ⟨_, rfl⟩ | h
  · exact key (by decide) rfl rfl (by simp only [Spec.V04.actionTail]; unfold actionHead; refuse_fields)
  rcases ite_some h with ⟨_, rfl⟩ | h
  · exact key (by decide) rfl rfl (by simp only [Spec.V04.actionTail]; unfold actionHead; refuse_fields)
  rcases ite_some h with ⟨_, rfl⟩ | h
  · exact key (by decide) rfl rfl (by simp only [Spec.V04.actionTail]; unfold actionHead; refuse_fields)
  rcases ite_some h with ⟨_, rfl⟩ | h
  · exact ⟨actionSetField, rfl, fun vs d hd => setField_refuse hd⟩
  rcases ite_some h with ⟨_, rfl⟩ | h
  · exact key (by decide) rfl rfl (by simp only [Spec.V04.actionTail]; unfold actionHead; refuse_fields)
  rcases ite_some h with ⟨_, rfl⟩ | h
  · exact key (by decide) rfl rfl (by simp only [Spec.V04.actionTail]; unfold actionHead; refuse_fields)
  cases h

theorem actions_refuse : Refuse actions Spec.V04.actions := refuse_list action_refuse itemOk_action

/-! ## Families with their own length -/

theorem only_autoSub {name cs₁ cs₂ m ref dv fs₁ fs₂ cs i w} (h1 : RefuseAll cs₁ fs₁) (h2 : RefuseAll cs₂ fs₂)
    (hc : cs = cs₁ ++ (m, ubint w ref dv) :: cs₂) (hi : i = fs₁.length) {vs d} (hd : (ownLen name fs₁ fs₂).den (.obj name vs) = some d) :
    OnlyPack ((autoSub name cs i).pack vs) ∧ Succeeds ((autoSub name cs i).size vs) :=
  have h := only_auto h1 h2 hc hi hd
  ⟨h.2.1, h.1⟩

theorem instruction_refuse : Refuse instruction Spec.V04.instruction := by
  have h0 := actions_refuse
  refine refuse_variant fun t c hsel => ?_
  have key : ∀ {tail}, subOf instructionSubs c = some (instructionSub c tail) → RefuseAll tail (Spec.V04.instructionTail c) →
      ∃ s, subOf instructionSubs c = some s ∧ ∀ vs d,
        (ownLen c [("instruction_type", uint 2 (some Spec.V04.instructionMembers))] (Spec.V04.instructionTail c)).den (.obj c vs) = some d →
        OnlyPack (s.pack vs) ∧ Succeeds (s.size vs) := fun h1 h2 =>
    ⟨_, h1, fun vs d hd => only_autoSub (cs₁ := [("instruction_type", ubint 2 (.enum instructionTypes))]) (by refuse_fields) h2
      (m := "length") (w := 2) rfl rfl hd⟩
  unfold Spec.V04.instructionSel at hsel
  rcases ite_some hsel with ⟨h2, rfl⟩ | hsel
  · exact key rfl (by simp only [Spec.V04.instructionTail]; refuse_fields)
  rcases ite_some hsel with ⟨h2, rfl⟩ | hsel
  · exact key rfl (by simp only [Spec.V04.instructionTail]; refuse_fields)
  rcases ite_some hsel with ⟨h2, rfl⟩ | hsel
  · exact key rfl (by simp only [Spec.V04.instructionTail]; refuse_fields)
  rcases ite_some hsel with ⟨h2, rfl⟩ | hsel
  · exact key rfl (by simp only [Spec.V04.instructionTail]; refuse_fields)
  rcases ite_some hsel with ⟨h2, rfl⟩ | hsel
  · exact key rfl (by simp only [Spec.V04.instructionTail]; refuse_fields)
  rcases ite_some hsel with ⟨h2, rfl⟩ | hsel
  · exact key rfl (by simp only [Spec.V04.instructionTail]; refuse_fields)
  · cases hsel
theorem instructions_refuse : Refuse instructions Spec.V04.instructions := refuse_list instruction_refuse itemOk_instruction

theorem property_refuse : Refuse property Spec.V04.property := by
  have h0 := actions_refuse
  have h1 := instructions_refuse
  have h3 := oxms_refuse
  refine refuse_variant fun t c hsel => ?_
  have key : ∀ {tail}, subOf propertySubs c = some (propertySub c tail) → RefuseAll tail (Spec.V04.propertyTail c) →
      ∃ s, subOf propertySubs c = some s ∧ ∀ vs d,
        (ownLen c [("property_type", uint 2 (some Spec.V04.propertyMembers))] (Spec.V04.propertyTail c)).den (.obj c vs) = some d →
        OnlyPack (s.pack vs) ∧ Succeeds (s.size vs) := fun h1 h2 =>
    ⟨_, h1, fun vs d hd => only_autoSub (cs₁ := [("property_type", ubint 2 (.enum propertyTypes))]) (by refuse_fields) h2
      (m := "length") (w := 2) rfl rfl hd⟩
  unfold Spec.V04.propertySel at hsel
  rcases ite_some hsel with ⟨h2, rfl⟩ | hsel
  · exact key rfl (by simp only [Spec.V04.propertyTail]; refuse_fields)
  rcases ite_some hsel with ⟨h2, rfl⟩ | hsel
  · exact key rfl (by simp only [Spec.V04.propertyTail]; refuse_fields)
  rcases ite_some hsel with ⟨h2, rfl⟩ | hsel
  · exact key rfl (by simp only [Spec.V04.propertyTail]; refuse_fields)
  rcases ite_some hsel with ⟨h2, rfl⟩ | hsel
  · exact key rfl (by simp only [Spec.V04.propertyTail]; refuse_fields)
  · cases hsel
theorem properties_refuse : Refuse properties (list Spec.V04.property) := refuse_list property_refuse itemOk_property

theorem band_refuse : Refuse band Spec.V04.band := by
  refine Refuse.delimited (refuse_variant fun t c h => ?_) 2
  unfold Spec.V04.bandSel at h
  rcases ite_some h with ⟨_, rfl⟩ | h
  · exact ⟨bandDrop, rfl, fun vs d hd => only_plainSub rfl rfl (by simp only [Spec.V04.bandTail]; unfold bandDrop bandHead plainSub; refuse_fields) hd⟩
  rcases ite_some h with ⟨_, rfl⟩ | h
  · exact ⟨bandDscpRemark, rfl, fun vs d hd => only_plainSub rfl rfl (by simp only [Spec.V04.bandTail]; unfold bandDscpRemark bandHead plainSub; refuse_fields) hd⟩
  cases h
theorem bands_refuse : Refuse bands (list Spec.V04.band) := refuse_list band_refuse itemOk_band

/-! ## Buckets -/

theorem bucket_refuse : Refuse bucket Spec.V04.bucket := by
  refine Refuse.exact ?_ 0
  have h : Refuse (bareListAttr (isSub actionSubs) action) (bareList Spec.V04.action) := refuse_bareList action_refuse itemOk_action
  have h2 : Refuse (structAttr "04.Bucket" bucketFields [.none, .none, .none, .none, .pad 4, .none])
    (Spec.V04.bucketRaw (bareList Spec.V04.action)) := refuse_struct (by refuse_fields)
  have hs : ∀ {v d}, (Spec.V04.bucketRaw (bareList Spec.V04.action)).den v = some d → Succeeds (bucket.size v) ∧ Succeeds (bucket.usize v) := by
    intro v d hd
    obtain ⟨vs, ds, rfl, h1, rfl⟩ := struct_den_inv hd
    obtain ⟨l, r, d1, e1, rfl, h2, h3, rfl⟩ := denAll_cons_inv h1
    have hl : ∃ n, numOf l = some n := by
      cases l <;> simp [Spec.V04.u16, Spec.uint] at h2 ⊢ <;> (obtain ⟨n, h2, _⟩ := h2; exact ⟨n, h2⟩)
    obtain ⟨n, hn⟩ := hl
    have : Succeeds (bucketSize (l :: r)) := by
      simp only [bucketSize]
      split
      · cases hn
      · simp only [cmpNum_num hn]
        rw [if_pos (by omega)]
        exact .ok _
    simp only [bucket, lengthCut, if_true]
    exact ⟨this, this⟩
  exact ⟨h2.pack, fun v d hd => (hs hd).1, fun v d _ hd => (hs hd).2⟩
theorem buckets_refuse : Refuse buckets (list Spec.V04.bucket) := refuse_list bucket_refuse itemOk_bucket

theorem helloElem_refuse : Refuse helloElem Spec.V04.helloElem :=
  Refuse.cut (refuse_own (cs₁ := [("element_type", ubint 2)]) (by refuse_fields) (cs₂ := [("content", binAttr)]) (by refuse_fields)
    (m := "length") (w := 2) (by rfl) (by rfl)) 2
theorem helloElems_refuse : Refuse helloElems (list Spec.V04.helloElem) := refuse_list helloElem_refuse itemOk_ownLen

/-- A packet-out with a bad input port is refused with `ValidationError`. -/
theorem packetOut_refuse {a t l x vs d} (hd : Spec.V04.packetOut.den (.obj "04.PacketOut" vs) = some d) :
    ∃ b p r, d = .record (.num b :: .num p :: r) ∧
      (Spec.V04.inPortOk p → OnlyPack (packetOut.pack (.obj "04.PacketOut" (.obj "04.Header" [a, t, l, x] :: vs)))) ∧
      (¬ Spec.V04.inPortOk p → packetOut.pack (.obj "04.PacketOut" (.obj "04.Header" [a, t, l, x] :: vs)) = .error .validation) := by
  obtain ⟨b, p, l, pd, acts, data, bn, pn, as, dd, hv, h1, h2, h3, h4, rfl⟩ := packetOut_den_inv hd
  cases hv
  refine ⟨bn, pn, _, rfl, ?_⟩
  simp only [MsgCls.pack]
  have hprep : packetOut.prep = packetOutPrep := rfl
  have hval : packetOut.valid = packetOutValid := rfl
  obtain ⟨n, hn⟩ := actions_refuse.size _ _ h3
  simp only [hprep, packetOutPrep, hn]
  have hsz : Succeeds (sizeAttrs packetOut.body [b, p, .int n, pd, acts, data]) :=
    only_sizeAttrs_cons (.ok _) (only_sizeAttrs_cons (.ok _) (only_sizeAttrs_cons (.ok _) (only_sizeAttrs_cons (.ok _) 
      (only_sizeAttrs_cons (.of_ok hn) (only_sizeAttrs_cons (refuse_rest.size _ _ h4) only_sizeAttrs_nil)))))
  have hpk : OnlyPack (packAttrs packetOut.body [b, p, .int n, pd, acts, data]) :=
    only_packAttrs_cons (ubint_only _) (only_packAttrs_cons (ubint_only _) (only_packAttrs_cons (ubint_only _) (only_packAttrs_cons (.ok _) 
      (only_packAttrs_cons (actions_refuse.pack _ _ h3) (only_packAttrs_cons (refuse_rest.pack _ _ h4) only_packAttrs_nil)))))
  constructor
  · intro hok e he
    rcases genericPack_only (m := packetOut) hsz hpk he with h5 | h5
    · exact h5
    · simp only [hval, packetOutValid, cmpNum_num h2] at h5
      split at h5
      · cases h5
      · rename_i hbad
        unfold Spec.V04.inPortOk at hok
        exact absurd (by omega) hbad
  · intro hbad
    refine genericPack_invalid (m := packetOut) hsz ?_
    simp only [hval, packetOutValid, cmpNum_num h2]
    rw [if_neg]
    intro h5
    refine hbad ?_
    unfold Spec.V04.inPortOk
    omega

/-! ## Multipart bodies -/

/-- The objects in a body are refused with `PackException`. -/
def BodyRefuse (simple : Nat → Option Attr) (array : Nat → Option (String × Attr)) (k : Spec.V04.Body) (t : Nat) : Prop :=
  match k with
  | .one g => ∃ a name, simple t = some a ∧ StatsItem bodyClasses a g name ∧ Refuse a g
  | .many g _ => simple t = none ∧ ∃ a name, array t = some (name, a) ∧ StatsItem bodyClasses a g name ∧ Refuse a g
  | .opaque => True

theorem flowStats_refuse : Refuse flowStats Spec.V04.flowStats :=
  have h2 := match_refuse
  have h3 := instructions_refuse
  Refuse.delimited (Refuse.cut (refuse_struct (by refuse_fields)) 0) 0

theorem tableFeatures_refuse : Refuse tableFeatures Spec.V04.tableFeatures :=
  have h := properties_refuse
  Refuse.cut (refuse_own (cs₁ := []) (by refuse_fields) (cs₂ := tableFeaturesFields.drop 1) (by unfold tableFeaturesFields; refuse_fields)
    (m := "length") (w := 2) (by rfl) (by rfl)) 0

theorem meterStats_refuse : Refuse meterStats Spec.V04.meterStats :=
  have h : Refuse bandStatsList (list Spec.V04.bandStats) := refuse_list (refuse_struct (by refuse_fields)) itemOk_struct
  Refuse.cut (refuse_own (cs₁ := [("meter_id", ubint 4)]) (by refuse_fields) (cs₂ := meterStatsFields.drop 2) (by unfold meterStatsFields; refuse_fields)
    (m := "length") (w := 2) (by rfl) (by rfl)) 4

theorem request_refuse (t : Nat) : BodyRefuse requestSimple requestArray (Spec.V04.requestBody t) t := by
  have h2 := match_refuse
  unfold Spec.V04.requestBody
  split
  · exact ⟨_, _, rfl, item_flowStatsRequest, refuse_struct (by refuse_fields)⟩
  · exact ⟨_, _, rfl, item_aggregateStatsRequest, refuse_struct (by refuse_fields)⟩
  · exact ⟨_, _, rfl, item_portStatsRequest, refuse_struct (by refuse_fields)⟩
  · exact ⟨_, _, rfl, item_queueStatsRequest, refuse_struct (by refuse_fields)⟩
  · exact ⟨_, _, rfl, item_groupStatsRequest, refuse_struct (by refuse_fields)⟩
  · exact ⟨_, _, rfl, item_meterMultipartRequest, refuse_struct (by refuse_fields)⟩
  · exact ⟨rfl, _, _, rfl, item_tableFeatures, tableFeatures_refuse⟩
  · exact ⟨_, _, rfl, item_experimenterMultipart, refuse_struct (by refuse_fields)⟩
  · trivial

theorem reply_refuse (t : Nat) : BodyRefuse replySimple replyArray (Spec.V04.replyBody t) t := by
  have h5 := bands_refuse
  have h6 : Refuse bucketCounters (list Spec.V04.bucketCounter) := refuse_list (refuse_struct (by refuse_fields)) itemOk_struct
  unfold Spec.V04.replyBody
  split
  · exact ⟨_, _, rfl, item_desc, refuse_struct (by refuse_fields)⟩
  · exact ⟨rfl, _, _, rfl, item_flowStats, flowStats_refuse⟩
  · exact ⟨rfl, _, _, rfl, item_aggregateStatsReply, refuse_struct (by refuse_fields)⟩
  · exact ⟨rfl, _, _, rfl, item_tableStats, refuse_struct (by refuse_fields)⟩
  · exact ⟨rfl, _, _, rfl, item_portStats, refuse_struct (by refuse_fields)⟩
  · exact ⟨rfl, _, _, rfl, item_queueStats, refuse_struct (by refuse_fields)⟩
  · exact ⟨rfl, _, _, rfl, item_groupStats, refuse_struct (by refuse_fields)⟩
  · exact ⟨rfl, _, _, rfl, item_groupDescStats, refuse_struct (by refuse_fields)⟩
  · exact ⟨_, _, rfl, item_groupFeatures, refuse_struct (by refuse_fields)⟩
  · exact ⟨rfl, _, _, rfl, item_meterStats, meterStats_refuse⟩
  · exact ⟨rfl, _, _, rfl, item_meterConfig, refuse_struct (by refuse_fields)⟩
  · exact ⟨_, _, rfl, item_meterFeatures, refuse_struct (by refuse_fields)⟩
  · exact ⟨rfl, _, _, rfl, item_tableFeatures, tableFeatures_refuse⟩
  · exact ⟨rfl, _, _, rfl, item_port, refuse_struct (by refuse_fields)⟩
  · exact ⟨_, _, rfl, item_experimenterMultipart, refuse_struct (by refuse_fields)⟩
  · trivial

theorem only_objPrep {simple array t f p a g name c vs d} (si : StatsItem bodyClasses a g name) (hr : Refuse a g)
    (hd : g.den (.obj c vs) = some d) : OnlyPack (multipartPrep simple array [t, f, p, .obj c vs]) := by
  obtain ⟨ws, hw⟩ := si.inv _ _ hd
  cases hw
  have h1 := hr.pack _ _ hd
  simp only [multipartPrep, pyTrue, if_true, selfPack, si.lookup]
  cases hp : a.pack (.obj name vs) with
  | error e => rw [hp] at h1; cases h1 e rfl; exact .pack
  | ok b => exact .ok _

theorem only_multipartPrep {simple array} {kind : Nat → Spec.V04.Body} (hk : ∀ t, BodyRefuse simple array (kind t) t) {t f p body tn d}
    (ht : Spec.V04.fieldNum t = some tn) (hd : (kind tn).den body = some d)
    (ho : kind tn = .opaque → ∃ ws, multipartPrep simple array [t, f, p, body] = .ok ws) :
    OnlyPack (multipartPrep simple array [t, f, p, body]) := by
  have hkey : bodyKey t = .ok (tn : Int) := by rcases fieldNum_inv ht with rfl | rfl <;> rfl
  cases htr : pyTrue body
  · simp only [multipartPrep, htr]; exact .ok _
  have := hk tn
  revert this hd ho
  cases kind tn with
  | one g =>
    intro hd _ ⟨a, name, h1, si, hr⟩
    simp only [Spec.V04.Body.den] at hd
    split at hd
    · exact only_objPrep si hr hd
    · cases hd
  | many g single =>
    intro hd _ ⟨h1, a, name, h2, si, hr⟩
    simp only [Spec.V04.Body.den] at hd
    split at hd
    · rename_i xs hxs
      cases ho : optMap g.den xs with
      | none => simp [ho] at hd
      | some ds =>
        rcases arrayItems_truthy hxs htr with ⟨c, vs, rfl, rfl⟩ | ⟨b, y, ys, rfl, rfl⟩
        · obtain ⟨d, es, h3, _, _⟩ := optMap_cons_inv ho
          exact only_objPrep si hr h3
        · have hflat : addItems (isObj name) (y :: ys) = .ok (y :: ys) := addItems_flat fun x hx => by
            obtain ⟨d, hd⟩ := optMap_mem ho x hx
            obtain ⟨vs, rfl⟩ := si.inv _ _ hd
            exact ⟨by simp [isObj], by simp⟩
          have h4 := only_packItems hr ho
          simp only [multipartPrep, htr, if_true, hkey, Int.toNat_natCast, h1, h2, Option.isNone_none, and_true, Int.natCast_nonneg, hflat]
          cases hp : packItems a (y :: ys) with
          | error e => rw [hp] at h4; cases h4 e rfl; exact .pack
          | ok b => exact .ok _
    · cases hd
  | «opaque» =>
    intro _ ho _
    obtain ⟨ws, hw⟩ := ho rfl
    rw [hw]
    exact .ok _

theorem multipart_refuse {m : MsgCls} {s : MsgFmt} {kind flags simple array r₁ r₂} (hbody : m.body = [("multipart_type", ubint 2 r₁), ("flags", ubint 2 r₂), ("pad", padAttr 4), ("body", binAttr)])
    (hprep : m.prep = multipartPrep simple array) (hvalid : m.valid = fun _ => .ok ())
    (hs : s.fmt = Spec.V04.multipart s.name kind flags) (hk : ∀ t, KindOk simple array (kind t) t)
    (hr : ∀ t, BodyRefuse simple array (kind t) t) : MsgRefuse m s := by
  intro a t0 l x vs d hd e he
  rw [hs] at hd
  obtain ⟨t, f, p, body, tn, fn, x, hv, h1, h2, h3, rfl⟩ := multipart_den_inv hd
  cases hv
  have hp := prep_spec hk (f := f) (p := p) h1 h3
  have ho := only_multipartPrep hr (f := f) (p := p) h1 h3 (by
    intro hop
    rw [hop] at hp
    simp only [PrepSpec] at hp
    split at hp
    · rename_i hn
      simp only [hop, Spec.V04.Body.den] at h3
      split at h3
      · cases h3
      · obtain ⟨raw, rfl, _⟩ := rest_den_inv h3
        cases hn
    · obtain ⟨b, h4, _⟩ := hp; exact ⟨_, h4⟩)
  simp only [MsgCls.pack, hprep] at he
  cases hq : multipartPrep simple array [t, f, p, body] with
  | error e' => rw [hq] at he ho; cases he; exact ho e rfl
  | ok ws =>
    have : ∃ body', ws = [t, f, p, body'] ∧ OnlyPack ((binAttr).pack body') ∧ Succeeds ((binAttr).size body') := by
      unfold PrepSpec at hp
      split at hp
      · obtain ⟨e, h4⟩ := hp; rw [hq] at h4; cases h4
      · obtain ⟨body', h4, h5, h6⟩ := hp
        rw [hq] at h4; cases h4
        exact ⟨body', rfl, .of_ok h5, .of_ok h6⟩
    obtain ⟨body', rfl, h5, h6⟩ := this
    rw [hq] at he
    rcases genericPack_only (m := m) (vs := [t, f, p, body'])
      (hbody ▸ only_sizeAttrs_cons (.ok _) (only_sizeAttrs_cons (.ok _) (only_sizeAttrs_cons (.ok _) (only_sizeAttrs_cons h6 only_sizeAttrs_nil))))
      (hbody ▸ only_packAttrs_cons (ubint_only _) (only_packAttrs_cons (ubint_only _) (only_packAttrs_cons (.ok _) (only_packAttrs_cons h5 only_packAttrs_nil))))
      he with h | h
    · exact h
    · rw [hvalid] at h; cases h

theorem plain_refuse : ∀ p ∈ Spec.V04.plainMsgs, ∃ m, lib.find p.2.1 = some m ∧ MsgRefuse m (Spec.V04.plain p.1 p.2.1 p.2.2) := by
  have h1 := instructions_refuse
  have h2 := match_refuse
  have h3 := helloElems_refuse
  have h4 := buckets_refuse
  have h5 : Refuse port Spec.V04.port := refuse_struct (by refuse_fields)
  have h6 := bands_refuse
  simp only [Spec.V04.plainMsgs, List.forall_mem_cons, Spec.V04.switchConfig, Spec.V04.role, Spec.V04.async]
  refine ⟨⟨hello, rfl, ?_⟩, ⟨echoRequest, rfl, ?_⟩, ⟨echoReply, rfl, ?_⟩, ⟨experimenter, rfl, ?_⟩, ⟨featuresRequest, rfl, ?_⟩,
    ⟨featuresReply, rfl, ?_⟩, ⟨getConfigRequest, rfl, ?_⟩, ⟨getConfigReply, rfl, ?_⟩, ⟨setConfig, rfl, ?_⟩, ⟨packetIn, rfl, ?_⟩,
    ⟨flowRemoved, rfl, ?_⟩, ⟨portStatus, rfl, ?_⟩, ⟨flowMod, rfl, ?_⟩, ⟨groupMod, rfl, ?_⟩, ⟨portMod, rfl, ?_⟩, ⟨tableMod, rfl, ?_⟩,
    ⟨barrierRequest, rfl, ?_⟩, ⟨barrierReply, rfl, ?_⟩, ⟨roleRequest, rfl, ?_⟩, ⟨roleReply, rfl, ?_⟩, ⟨getAsyncRequest, rfl, ?_⟩,
    ⟨getAsyncReply, rfl, ?_⟩, ⟨setAsync, rfl, ?_⟩, ⟨meterMod, rfl, ?_⟩, by simp⟩ <;>
    exact msgRefuse_plain rfl rfl rfl (by refuse_fields)

theorem messages_refuse : ∀ s ∈ Spec.V04.messages, s.name ≠ "04.PacketOut" → ∃ m, lib.find s.code = some m ∧ MsgRefuse m s := by
  intro s hs hne
  simp only [Spec.V04.messages, List.mem_append, List.mem_map] at hs
  rcases hs with ⟨p, hp, rfl⟩ | hs
  · exact plain_refuse p hp
  · simp only [List.mem_cons, List.not_mem_nil, or_false] at hs
    rcases hs with rfl | rfl | rfl | rfl
    · exact ⟨errorMsg, rfl, msgRefuse_plain rfl rfl rfl (by refuse_fields)⟩
    · exact absurd rfl hne
    · exact ⟨multipartRequest, rfl, multipart_refuse rfl rfl rfl rfl kind_request request_refuse⟩
    · exact ⟨multipartReply, rfl, multipart_refuse rfl rfl rfl rfl kind_reply reply_refuse⟩

end V04
end Pyof
