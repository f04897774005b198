import Verif.Lemmas.Refuse
import Verif.Lemmas.KeepsV01
import Verif.Lemmas.V04
/-! Refusals: OpenFlow 1.0. -/
namespace Pyof
open Spec

/-- A family without overridden `pack` and `get_size`. -/
theorem only_plainSub {s : Sub} {c fs vs d} (hp : s.pack = packAttrs s.fields) (hs : s.size = sizeAttrs s.fields)
    (h : RefuseAll s.fields fs) (hd : (struct c fs).den (.obj c vs) = some d) : OnlyPack (s.pack vs) ∧ Succeeds (s.size vs) := by
  obtain ⟨ws, ds, hw, h1, rfl⟩ := struct_den_inv hd
  cases hw
  rw [hp, hs]
  exact ⟨h.pack h1, h.size h1⟩

namespace V01

theorem action_refuse : Refuse action Spec.V01.action := by
  refine refuse_variant fun t c h => ?_
  have key : ∀ {s : Sub}, subOf actionSubs c = some s → s.pack = packAttrs s.fields → s.size = sizeAttrs s.fields →
      RefuseAll s.fields (("action_type", Spec.V01.u16) :: ("length", Spec.V01.u16) :: Spec.V01.actionTail c) →
      ∃ s, subOf actionSubs c = some s ∧ ∀ vs d, (Spec.V01.actionLay c).den (.obj c vs) = some d →
        OnlyPack (s.pack vs) ∧ Succeeds (s.size vs) := fun {s} h1 h2 h3 h4 =>
    ⟨s, h1, fun vs d hd => only_plainSub h2 h3 h4 hd⟩
  unfold Spec.V01.actionSel at h
  rcases V04.ite_some h with ⟨_, rfl⟩ | h
  · exact key (s := actionOutput) rfl rfl rfl (by simp only [Spec.V01.actionTail]; unfold actionOutput; refuse_fields)
  rcases V04.ite_some h with ⟨_, rfl⟩ | h
  · exact key (s := actionVlanVid) rfl rfl rfl (by simp only [Spec.V01.actionTail]; unfold actionVlanVid; refuse_fields)
  rcases V04.ite_some h with ⟨_, rfl⟩ | h
  · exact key (s := actionVlanPCP) rfl rfl rfl (by simp only [Spec.V01.actionTail]; unfold actionVlanPCP; refuse_fields)
  rcases V04.ite_some h with ⟨_, rfl⟩ | h
  · exact key (s := actionStripVlan) rfl rfl rfl (by simp only [Spec.V01.actionTail]; unfold actionStripVlan; refuse_fields)
  rcases V04.ite_some h with ⟨_, rfl⟩ | h
  · exact key (s := actionDLAddr) rfl rfl rfl (by simp only [Spec.V01.actionTail]; unfold actionDLAddr; refuse_fields)
  rcases V04.ite_some h with ⟨_, rfl⟩ | h
  · exact key (s := actionNWAddr) rfl rfl rfl (by simp only [Spec.V01.actionTail]; unfold actionNWAddr; refuse_fields)
  rcases V04.ite_some h with ⟨_, rfl⟩ | h
  · exact key (s := actionNWTos) rfl rfl rfl (by simp only [Spec.V01.actionTail]; unfold actionNWTos; refuse_fields)
  rcases V04.ite_some h with ⟨_, rfl⟩ | h
  · exact key (s := actionTPPort) rfl rfl rfl (by simp only [Spec.V01.actionTail]; unfold actionTPPort; refuse_fields)
  rcases V04.ite_some h with ⟨_, rfl⟩ | h
  · exact key (s := actionEnqueue) rfl rfl rfl (by simp only [Spec.V01.actionTail]; unfold actionEnqueue; refuse_fields)
  rcases V04.ite_some h with ⟨_, rfl⟩ | h
  · exact key (s := actionVendorHeader) rfl rfl rfl (by simp only [Spec.V01.actionTail]; unfold actionVendorHeader; refuse_fields)
  cases h
  exact key (s := actionHeader) rfl rfl rfl (by simp only [Spec.V01.actionTail]; unfold actionHeader; refuse_fields)

theorem actions_refuse : Refuse actions Spec.V01.actions := refuse_list action_refuse itemOk_action

theorem match_refuse : Refuse «match» Spec.V01.match :=
  have h : Refuse (structAttr "01.Match" matchFields matchInit) Spec.V01.match := refuse_struct (by refuse_fields)
  ⟨h.pack, h.size, h.usize⟩
theorem phyPort_refuse : Refuse phyPort Spec.V01.phyPort := refuse_struct (by refuse_fields)
theorem phyPorts_refuse : Refuse phyPorts (list Spec.V01.phyPort) := refuse_list phyPort_refuse itemOk_struct
theorem queueProps_refuse : Refuse queueProps (list Spec.V01.queuePropHeader) :=
  refuse_list (refuse_struct (by refuse_fields)) itemOk_struct
theorem queues_refuse : Refuse queues (atMostOne Spec.V01.packetQueue) :=
  have h := queueProps_refuse
  (refuse_list (refuse_struct (by refuse_fields)) itemOk_struct).atMostOne

theorem plain_refuse : ∀ p ∈ Spec.V01.plainMsgs, ∃ m, lib.find p.2.1 = some m ∧ MsgRefuse m (Spec.V01.plain p.1 p.2.1 p.2.2) := by
  have h1 := actions_refuse
  have h2 := match_refuse
  have h3 := phyPorts_refuse
  have h4 := queues_refuse
  have h5 := phyPort_refuse
  simp only [Spec.V01.plainMsgs, List.forall_mem_cons, Spec.V01.switchConfig]
  refine ⟨⟨hello, rfl, ?_⟩, ⟨echoRequest, rfl, ?_⟩, ⟨echoReply, rfl, ?_⟩, ⟨vendorHeader, rfl, ?_⟩, ⟨featuresRequest, rfl, ?_⟩,
    ⟨featuresReply, rfl, ?_⟩, ⟨getConfigRequest, rfl, ?_⟩, ⟨getConfigReply, rfl, ?_⟩, ⟨setConfig, rfl, ?_⟩, ⟨packetIn, rfl, ?_⟩,
    ⟨flowRemoved, rfl, ?_⟩, ⟨portStatus, rfl, ?_⟩, ⟨flowMod, rfl, ?_⟩, ⟨portMod, rfl, ?_⟩, ⟨barrierRequest, rfl, ?_⟩,
    ⟨barrierReply, rfl, ?_⟩, ⟨queueGetConfigRequest, rfl, ?_⟩, ⟨queueGetConfigReply, rfl, ?_⟩, by simp⟩ <;>
    exact msgRefuse_plain rfl rfl rfl (by refuse_fields)

/-- A packet-out with a bad input port is refused with `ValidationError`. -/
theorem packetOut_refuse {a t l x vs d} (hd : Spec.V01.packetOut.den (.obj "01.PacketOut" vs) = some d) :
    ∃ b p r, d = .record (.num b :: .num p :: r) ∧
      (Spec.V01.inPortOk p → OnlyPack (packetOut.pack (.obj "01.PacketOut" (.obj "01.Header" [a, t, l, x] :: vs)))) ∧
      (¬ Spec.V01.inPortOk p → packetOut.pack (.obj "01.PacketOut" (.obj "01.Header" [a, t, l, x] :: vs)) = .error .validation) := by
  obtain ⟨b, p, l, acts, data, bn, pn, as, dd, hv, h1, h2, h3, h4, rfl⟩ := packetOut_den_inv hd
  cases hv
  refine ⟨bn, pn, _, rfl, ?_⟩
  simp only [MsgCls.pack]
  have hprep : packetOut.prep = packetOutPrep := rfl
  have hval : packetOut.valid = packetOutValid := rfl
  obtain ⟨n, hn⟩ := actions_refuse.size _ _ h3
  simp only [hprep, packetOutPrep, hn]
  have hsz : Succeeds (sizeAttrs packetOut.body [b, p, .int n, acts, data]) :=
    only_sizeAttrs_cons (.ok _) (only_sizeAttrs_cons (.ok _) (only_sizeAttrs_cons (.ok _) 
      (only_sizeAttrs_cons (.of_ok hn) (only_sizeAttrs_cons (refuse_rest.size _ _ h4) only_sizeAttrs_nil))))
  have hpk : OnlyPack (packAttrs packetOut.body [b, p, .int n, acts, data]) :=
    only_packAttrs_cons (ubint_only _) (only_packAttrs_cons (ubint_only _) (only_packAttrs_cons (ubint_only _) 
      (only_packAttrs_cons (actions_refuse.pack _ _ h3) (only_packAttrs_cons (refuse_rest.pack _ _ h4) only_packAttrs_nil))))
  constructor
  · intro hok e he
    rcases genericPack_only (m := packetOut) hsz hpk he with h5 | h5
    · exact h5
    · simp only [hval, packetOutValid, cmpNum_num h2] at h5
      split at h5
      · cases h5
      · rename_i hbad
        unfold Spec.V01.inPortOk at hok
        exact absurd (by omega) hbad
  · intro hbad
    refine genericPack_invalid (m := packetOut) hsz ?_
    simp only [hval, packetOutValid, cmpNum_num h2]
    rw [if_neg]
    intro h5
    refine hbad ?_
    unfold Spec.V01.inPortOk
    omega

theorem errorMsg_refuse : MsgRefuse errorMsg ⟨"01.ErrorMsg", 1, 1, "01.Header", Spec.V01.errorMsg⟩ := by
  intro a t l x vs d hd e he
  have hd : (struct "01.ErrorMsg" [("error_type", Spec.V01.u16), ("code", Spec.V01.u16), ("data", rest)]).den
    (.obj "01.ErrorMsg" vs) = some d := hd
  obtain ⟨ws, ds, hw, h1, rfl⟩ := struct_den_inv hd
  cases hw
  obtain ⟨v1, _, _, _, rfl, h2, ha, rfl⟩ := denAll_cons_inv h1
  obtain ⟨v2, _, _, _, rfl, h3, hb, rfl⟩ := denAll_cons_inv ha
  obtain ⟨v3, _, _, _, rfl, h4, hc, rfl⟩ := denAll_cons_inv hb
  obtain ⟨rfl, rfl⟩ := denAll_nil_inv hc
  have hprep : ∃ w, errorMsg.prep [v1, v2, v3] = .ok [v1, v2, w] ∧ Succeeds ((binAttr).size w) ∧ OnlyPack ((binAttr).pack w) := by
    have e : errorMsg.prep = errorPrep [] := rfl
    rw [e]
    obtain ⟨b, rfl, hb, _⟩ := rest_den_inv h4
    cases v3 <;> simp only [rest, reduceCtorEq] at h4
    · exact ⟨_, rfl, .ok _, .ok _⟩
    · exact ⟨_, rfl, .ok _, .ok _⟩
    · refine ⟨.bytes b, ?_, .ok _, .ok _⟩
      simp only [binPackRaw] at hb
      simp only [errorPrep, selfPack, hb]
    · refine ⟨.bytes b, ?_, .ok _, .ok _⟩
      simp only [binPackRaw] at hb
      cases hb
      rfl
  obtain ⟨w, h5, h6, h7⟩ := hprep
  simp only [MsgCls.pack, h5] at he
  rcases genericPack_only (m := errorMsg) (vs := [v1, v2, w])
    (only_sizeAttrs_cons (.ok _) (only_sizeAttrs_cons (.ok _) (only_sizeAttrs_cons h6 only_sizeAttrs_nil)))
    (only_packAttrs_cons (ubint_only _) (only_packAttrs_cons (ubint_only _) (only_packAttrs_cons h7 only_packAttrs_nil))) he with h | h
  · exact h
  · cases h

end V01

/-- The bodies a statistics message may hold are refused with `PackException`. -/
theorem only_selfPack {classes a g name} (h : StatsItem classes a g name) (hr : Refuse a g) {body xs ds r}
    (hb : Spec.bodyItems body = some xs) (hd : optMap g.den xs = some ds) (hp : selfPack classes body = some r) : OnlyPack r := by
  unfold Spec.bodyItems at hb
  split at hb
  · cases hb
    obtain ⟨d, es, h1, h2, rfl⟩ := optMap_cons_inv hd
    obtain ⟨vs, hv⟩ := h.inv _ d h1
    cases hv
    simp only [selfPack, h.lookup, Option.some.injEq] at hp
    subst hp
    exact hr.pack _ d h1
  · cases hb
    simp only [selfPack, Option.some.injEq] at hp
    subst hp
    rw [packAll_items h _ _ hd]
    exact only_packItems hr hd
  · cases hp
  · cases hp
  · cases hb

namespace V01

theorem stats_refuse {m : MsgCls} {s : MsgFmt} {item room} (hbody : m.body = statsFields) (hprep : PrepOk m.prep)
    (hvalid : m.valid = fun _ => .ok ()) (hfmt : s.fmt = Spec.V01.stats s.name item room)
    (hitem : ∀ t g, item t = some g → ∃ a name, StatsItem statsClasses a g name ∧ Refuse a g) : MsgRefuse m s := by
  intro a t0 l x vs d hd e he
  rw [hfmt] at hd
  obtain ⟨t, f, body, tn, fn, xs, ds, hw, ht, hf, hb, rfl, hi, hn⟩ := stats_den_inv hd
  cases hw
  simp only [MsgCls.pack] at he
  have fin : ∀ body', m.prep [t, f, body] = .ok [t, f, body'] → Succeeds ((binAttr).size body') → OnlyPack ((binAttr).pack body') →
      e = .pack := by
    intro body' h1 h2 h3
    rw [h1] at he
    rcases genericPack_only (m := m) (vs := [t, f, body'])
      (hbody ▸ only_sizeAttrs_cons (.ok _) (only_sizeAttrs_cons (.ok _) (only_sizeAttrs_cons h2 only_sizeAttrs_nil)))
      (hbody ▸ only_packAttrs_cons (ubint_only _) (only_packAttrs_cons (ubint_only _) (only_packAttrs_cons h3 only_packAttrs_nil))) he with h | h
    · exact h
    · rw [hvalid] at h; cases h
  have bare : body = .none ∨ body = .bytes [] → e = .pack := by
    intro hb
    refine fin body (hprep.bare _ _ _ hb) ?_ ?_ <;> (rcases hb with rfl | rfl <;> exact .ok _)
  cases hsp : selfPack statsClasses body with
  | none =>
    refine bare ?_
    unfold Spec.bodyItems at hb
    split at hb
    · simp only [selfPack] at hsp; split at hsp <;> cases hsp
    · cases hsp
    · exact .inl rfl
    · exact .inr rfl
    · cases hb
  | some r =>
    cases r with
    | ok bb =>
      obtain ⟨body', h1, h2, h3⟩ := hprep.ok t f body xs bb hb hsp
      exact fin body' h1 (.of_ok h3) (.of_ok h2)
    | error e' =>
      rw [hprep.err _ _ _ _ _ hb hsp] at he
      cases he
      cases hit : item tn with
      | none =>
        obtain ⟨rfl, rfl⟩ := hn hit
        unfold Spec.bodyItems at hb
        split at hb <;> cases hb
        · simp only [selfPack, selfPack.packAll] at hsp; cases hsp
        · cases hsp
        · cases hsp
      | some g =>
        obtain ⟨a, name, si, hr⟩ := hitem tn g hit
        exact only_selfPack si hr hb (hi g hit) hsp e rfl

theorem requestItem_refuse {t g} (h : Spec.V01.requestItem t = some g) :
    ∃ a name, StatsItem statsClasses a g name ∧ Refuse a g := by
  have h2 := match_refuse
  unfold Spec.V01.requestItem at h
  split at h <;> cases h
  · exact ⟨_, _, item_flowStatsRequest, refuse_struct (by refuse_fields)⟩
  · exact ⟨_, _, item_aggregateStatsRequest, refuse_struct (by refuse_fields)⟩
  · exact ⟨_, _, item_portStatsRequest, refuse_struct (by refuse_fields)⟩
  · exact ⟨_, _, item_queueStatsRequest, refuse_struct (by refuse_fields)⟩
  · exact ⟨_, _, item_vendorStatsRequest, refuse_struct (by refuse_fields)⟩

theorem replyItem_refuse {t g} (h : Spec.V01.replyItem t = some g) :
    ∃ a name, StatsItem statsClasses a g name ∧ Refuse a g := by
  have h2 := match_refuse
  have h3 := actions_refuse
  unfold Spec.V01.replyItem at h
  split at h <;> cases h
  · exact ⟨_, _, item_descStats, refuse_struct (by refuse_fields)⟩
  · exact ⟨_, _, item_flowStats, ((refuse_struct (by refuse_fields)).cut 0).delimited 0⟩
  · exact ⟨_, _, item_aggregateStatsReply, refuse_struct (by refuse_fields)⟩
  · exact ⟨_, _, item_tableStats, refuse_struct (by refuse_fields)⟩
  · exact ⟨_, _, item_portStats, refuse_struct (by refuse_fields)⟩
  · exact ⟨_, _, item_queueStats, refuse_struct (by refuse_fields)⟩
  · exact ⟨_, _, item_vendorStats, refuse_struct (by refuse_fields)⟩

theorem messages_refuse : ∀ s ∈ Spec.V01.messages, s.name ≠ "01.PacketOut" → ∃ m, lib.find s.code = some m ∧ MsgRefuse m s := by
  intro s hs hne
  simp only [Spec.V01.messages, List.mem_append, List.mem_map] at hs
  rcases hs with ⟨p, hp, rfl⟩ | hs
  · exact plain_refuse p hp
  · simp only [List.mem_cons, List.not_mem_nil, or_false] at hs
    rcases hs with rfl | rfl | rfl | rfl
    · exact ⟨errorMsg, rfl, errorMsg_refuse⟩
    · exact absurd rfl hne
    · exact ⟨statsRequest, rfl, stats_refuse rfl prep_request rfl rfl fun _ _ h => requestItem_refuse h⟩
    · exact ⟨statsReply, rfl, stats_refuse rfl prep_reply rfl rfl fun _ _ h => replyItem_refuse h⟩

end V01
end Pyof
