import Verif.Lemmas.Size
/-! `get_size` of the OpenFlow 1.0 structures. -/
namespace Pyof.V01
open Spec

theorem sizedItem_action : SizedItem (isSub actionSubs) action := by
  apply sizedItem_variant
  intro s hs
  simp only [actionSubs, actionClasses, List.map_cons, List.map_nil, List.mem_cons, List.not_mem_nil, or_false] at hs
  rcases hs with rfl | rfl | rfl | rfl | rfl | rfl | rfl | rfl | rfl | rfl | rfl <;>
    (refine subSized_plain ?_; simp only [actionHead, List.cons_append, List.nil_append]; exact (by sz))

theorem sized_actions : Sized actions := sized_list sizedItem_action

theorem sized_matchFields : FieldsSized [] matchFields := by unfold matchFields; sz

theorem sized_match : Sized «match» := by
  have h : Sized (structAttr "01.Match" matchFields matchInit) := sized_struct sized_matchFields (by decide +kernel)
  exact h

macro_rules
  | `(tactic| sz1) => `(tactic| first | exact sized_actions | exact sized_match)

theorem phyPort_fields : FieldsSized (charLengths "01.PhyPort") phyPortFields := by
  show FieldsSized [none, none, some 16] _
  unfold phyPortFields
  sz

theorem sized_phyPort : Sized phyPort := sized_struct phyPort_fields (by decide +kernel)
theorem sized_phyPorts : Sized phyPorts := sized_list (sizedItem_struct phyPort_fields)

theorem sized_queues : Sized queues := by
  apply sized_list
  apply sizedItem_struct
  show FieldsSized [] _
  unfold packetQueueFields queueProps queuePropHeader queuePropHeaderFields
  sz

/-- Every class whose instances may be put in the body of a statistics message. -/
theorem stats_sized : ClassesSized statsClasses := by
  unfold statsClasses
  repeat' apply classesSized_cons
  · apply sizedItem_struct; show FieldsSized [] _; sz
  · apply sizedItem_struct; show FieldsSized [] _; sz
  · apply sizedItem_struct; show FieldsSized [some 256, some 256, some 256, some 32, some 256] _; sz
  · apply sizedItem_cut; apply sizedItem_struct; show FieldsSized [] _; unfold flowStatsFields; sz
  · apply sizedItem_struct; show FieldsSized [] _; sz
  · apply sizedItem_struct; show FieldsSized [] _; sz
  · apply sizedItem_struct; show FieldsSized [] _; sz
  · apply sizedItem_struct; show FieldsSized [] _; sz
  · apply sizedItem_struct; show FieldsSized [] _; sz
  · apply sizedItem_struct; show FieldsSized [none, none, some 32] _; sz
  · apply sizedItem_struct; show FieldsSized [] _; sz
  · exact classesSized_nil

end Pyof.V01
