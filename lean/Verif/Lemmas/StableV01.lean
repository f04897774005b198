import Verif.Lemmas.StableCut
import Verif.Lemmas.V01
/-!
# Decoding arbitrary bytes and encoding the result again: OpenFlow 1.0
-/
namespace Pyof
open Spec

theorem stab_uint' {w ref dv ms dflt} (hw : 0 < w) (h : ms = ref.members) :
    Stab (ubint w ref dv).unpack (Spec.uint w ms dflt) false true 0 := by
  subst h; exact stab_uint w ref dv dflt hw

theorem run_of {cs fs t tot s T S} (h : StabRun cs fs t tot s) (ht : tot = T) (hs : s ≤ S) : StabRun cs fs t T S :=
  ht ▸ h.mono hs

syntax "stab1" : tactic
macro_rules | `(tactic| stab1) => `(tactic| exact stab_uint' (by decide) rfl)
macro_rules | `(tactic| stab1) => `(tactic| exact stab_pad _)
macro_rules | `(tactic| stab1) => `(tactic| exact stab_hw _ _)
macro_rules | `(tactic| stab1) => `(tactic| exact stab_ip _ _ _)
macro_rules | `(tactic| stab1) => `(tactic| exact stab_ip6 _)
macro_rules | `(tactic| stab1) => `(tactic| exact stab_dpid)
macro_rules | `(tactic| stab1) => `(tactic| exact stab_text (by decide))
macro_rules | `(tactic| stab1) => `(tactic| exact stab_rest)
macro_rules | `(tactic| stab1) => `(tactic| assumption)

macro "run1" : tactic => `(tactic| first
  | exact run_nil
  | (apply run_cons
     · enc1
     · stab1)
  | (apply run_last
     · enc1
     · stab1))

/-- Checks a class declaration against a format, attribute by attribute. -/
macro "runs" : tactic => `(tactic| (
  apply run_of
  · repeat run1
  · rfl
  · decide))

theorem Stab.congrU {U V f t tot s} (h : Stab U f t tot s) (he : ∀ buff off, buff ≠ [] → V buff off = U buff off) :
    Stab V f t tot s := by
  intro buff off u hb hm hu
  rw [he _ _ hb] at hu
  obtain ⟨h1, h2, h3⟩ := h buff off u hb hm hu
  refine ⟨h1, h2, fun d hd => ?_⟩
  obtain ⟨b, h4, h5, h6⟩ := h3 d hd
  refine ⟨b, h4, h5, fun buff' off' j post ha => ?_⟩
  rw [he _ _ ha.ne]
  exact h6 buff' off' j post ha

namespace V01

/-! ## match, ports, queues -/

theorem run_match : StabRun matchFields
    [("wildcards", uint 4 none (some 4194303)), ("in_port", uint 2 none (some 0)), ("dl_src", hw), ("dl_dst", hw),
     ("dl_vlan", uint 2 none (some 0)), ("dl_vlan_pcp", uint 1 none (some 0)), ("pad1", pad 1), ("dl_type", uint 2 none (some 0)),
     ("nw_tos", uint 1 none (some 0)), ("nw_proto", uint 1 none (some 0)), ("pad2", pad 2), ("nw_src", ip), ("nw_dst", ip),
     ("tp_src", uint 2 none (some 0)), ("tp_dst", uint 2 none (some 0))] false true 3 := by
  unfold matchFields
  runs

theorem stab_match : Stab «match».unpack Spec.V01.match false true 3 :=
  Stab.congrU (run_match.struct "01.Match" matchInit) fun _ _ hb => matchUnpack_eq hb
macro_rules | `(tactic| stab1) => `(tactic| exact stab_match)

theorem stab_phyPort : Stab phyPort.unpack Spec.V01.phyPort false true 0 := by
  refine StabRun.struct ?_ _ _
  unfold phyPortFields
  runs
macro_rules | `(tactic| stab1) => `(tactic| exact stab_phyPort)
theorem stab_phyPorts : Stab phyPorts.unpack (Spec.list Spec.V01.phyPort) true true 0 := stab_list enc_phyPort stab_phyPort
macro_rules | `(tactic| stab1) => `(tactic| exact stab_phyPorts)

theorem stab_queueProp : Stab queuePropHeader.unpack Spec.V01.queuePropHeader false true 4 := by
  refine StabRun.struct ?_ _ _
  unfold queuePropHeaderFields
  runs
theorem stab_queueProps : Stab queueProps.unpack (Spec.list Spec.V01.queuePropHeader) true true 4 :=
  stab_list enc_queueProp stab_queueProp
macro_rules | `(tactic| stab1) => `(tactic| exact stab_queueProps)
theorem stab_packetQueue : Stab packetQueue.unpack Spec.V01.packetQueue true true 6 := by
  refine StabRun.struct ?_ _ _
  unfold packetQueueFields
  runs
theorem stab_queues : Stab queues.unpack (Spec.atMostOne Spec.V01.packetQueue) true true 6 :=
  stab_atMostOne enc_packetQueue stab_packetQueue
macro_rules | `(tactic| stab1) => `(tactic| exact stab_queues)

/-! ## actions -/

macro "action_stab" : tactic => `(tactic| (
  simp only [plainSub, actionHead, List.cons_append, List.nil_append]
  refine SubStab.plain (fs := _ :: Spec.V01.actionTail _) (nm := "action_type") rfl rfl ?_
  simp only [Spec.V01.actionTail]
  runs))

theorem sstab_output : SubStab .mask false actionOutput (Spec.V01.actionLay actionOutput.name) false true 6 := by
  unfold actionOutput; action_stab
theorem sstab_strip : SubStab .mask false actionStripVlan (Spec.V01.actionLay actionStripVlan.name) false true 6 := by
  unfold actionStripVlan; action_stab
theorem sstab_enqueue : SubStab .mask false actionEnqueue (Spec.V01.actionLay actionEnqueue.name) false true 6 := by
  unfold actionEnqueue; action_stab
theorem sstab_vid : SubStab .mask false actionVlanVid (Spec.V01.actionLay actionVlanVid.name) false true 6 := by
  unfold actionVlanVid; action_stab
theorem sstab_pcp : SubStab .mask false actionVlanPCP (Spec.V01.actionLay actionVlanPCP.name) false true 6 := by
  unfold actionVlanPCP; action_stab
theorem sstab_dl : SubStab .mask false actionDLAddr (Spec.V01.actionLay actionDLAddr.name) false true 6 := by
  unfold actionDLAddr; action_stab
theorem sstab_nw : SubStab .mask false actionNWAddr (Spec.V01.actionLay actionNWAddr.name) false true 6 := by
  unfold actionNWAddr; action_stab
theorem sstab_tos : SubStab .mask false actionNWTos (Spec.V01.actionLay actionNWTos.name) false true 6 := by
  unfold actionNWTos; action_stab
theorem sstab_tp : SubStab .mask false actionTPPort (Spec.V01.actionLay actionTPPort.name) false true 6 := by
  unfold actionTPPort; action_stab
theorem sstab_vendor : SubStab .mask false actionVendorHeader (Spec.V01.actionLay actionVendorHeader.name) false true 6 := by
  unfold actionVendorHeader; action_stab
theorem sstab_header : SubStab .mask false actionHeader (Spec.V01.actionLay actionHeader.name) false true 6 := by
  unfold actionHeader; action_stab

theorem actionSel_total (t : Nat) : ∃ c, Spec.V01.actionSel t = some c := by
  unfold Spec.V01.actionSel
  repeat (first | exact ⟨_, rfl⟩ | split)

theorem action_stab_of {s : Sub} (hs : s ∈ actionSubs) : SubStab .mask false s (Spec.V01.actionLay s.name) false true 6 := by
  simp only [actionSubs, actionClasses, List.map_cons, List.map_nil, List.mem_cons, List.not_mem_nil, or_false] at hs
  rcases hs with rfl | rfl | rfl | rfl | rfl | rfl | rfl | rfl | rfl | rfl | rfl
  · exact sstab_header
  · exact sstab_output
  · exact sstab_strip
  · exact sstab_enqueue
  · exact sstab_vid
  · exact sstab_pcp
  · exact sstab_dl
  · exact sstab_nw
  · exact sstab_tos
  · exact sstab_tp
  · exact sstab_vendor

theorem stab_action : Stab action.unpack Spec.V01.action false true 6 := by
  show Stab (variantUnpack .mask false pickAction) (union Spec.V01.actionSel Spec.V01.actionLay) false true 6
  refine stab_variant fun n s _ hp => ?_
  obtain ⟨c, hc⟩ := actionSel_total n
  obtain ⟨s', h1, h2, h3, _⟩ := action_sub_of hc
  rw [hp] at h1
  cases h1
  refine ⟨by rw [hc, h2], action_stab_of ?_⟩
  unfold subOf at h3
  exact List.mem_of_find?_eq_some h3
theorem stab_actions : Stab actions.unpack Spec.V01.actions true true 6 := stab_list enc_action stab_action
macro_rules | `(tactic| stab1) => `(tactic| exact stab_actions)

/-! ## statistics -/

theorem stab_flowStatsRequest : Stab flowStatsRequest.unpack Spec.V01.flowStatsRequest false true 4 := by
  refine StabRun.struct ?_ _ _
  runs
theorem stab_aggregateStatsRequest : Stab aggregateStatsRequest.unpack Spec.V01.aggregateStatsRequest false true 4 := by
  refine StabRun.struct ?_ _ _
  runs
theorem stab_portStatsRequest : Stab portStatsRequest.unpack Spec.V01.portStatsRequest false true 6 := by
  refine StabRun.struct ?_ _ _
  runs
theorem stab_queueStatsRequest : Stab queueStatsRequest.unpack Spec.V01.queueStatsRequest false true 2 := by
  refine StabRun.struct ?_ _ _
  runs
theorem stab_vendorStatsRequest : Stab vendorStatsRequest.unpack Spec.V01.vendorStatsRequest true true 0 := by
  refine StabRun.struct ?_ _ _
  runs
theorem stab_vendorStats : Stab vendorStats.unpack Spec.V01.vendorStats true true 0 := by
  refine StabRun.struct ?_ _ _
  runs
theorem stab_descStats : Stab descStats.unpack Spec.V01.descStats false true 0 := by
  refine StabRun.struct ?_ _ _
  runs
theorem stab_aggregateStatsReply : Stab aggregateStatsReply.unpack Spec.V01.aggregateStatsReply false true 4 := by
  refine StabRun.struct ?_ _ _
  runs
theorem stab_tableStats : Stab tableStats.unpack Spec.V01.tableStats false true 3 := by
  refine StabRun.struct ?_ _ _
  runs
theorem stab_portStats : Stab portStats.unpack Spec.V01.portStats false true 6 := by
  refine StabRun.struct ?_ _ _
  runs
theorem stab_queueStats : Stab queueStats.unpack Spec.V01.queueStats false true 2 := by
  refine StabRun.struct ?_ _ _
  runs

theorem run_flowStats : StabRun flowStatsFields
    [("length", Spec.V01.u16), ("table_id", Spec.V01.u8), ("pad", pad 1), ("match", Spec.V01.match), ("duration_sec", Spec.V01.u32),
     ("duration_nsec", Spec.V01.u32), ("priority", Spec.V01.u16), ("idle_timeout", Spec.V01.u16), ("hard_timeout", Spec.V01.u16),
     ("pad2", pad 6), ("cookie", Spec.V01.u64), ("packet_count", Spec.V01.u64), ("byte_count", Spec.V01.u64),
     ("actions", Spec.V01.actions)] true true 16 := by
  unfold flowStatsFields
  runs

theorem stab_flowStats : Stab flowStats.unpack Spec.V01.flowStats true false 16 :=
  stab_delimited 0 (stab_cut (run_flowStats.obj "01.FlowStats") keeps2_first nilNone_first)

end V01
end Pyof
