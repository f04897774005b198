import Verif.Lemmas.Keeps
import Verif.Lemmas.V01
import Verif.Lemmas.V01Facts
/-! Packing does not change contents: OpenFlow 1.0. -/
namespace Pyof
open Spec

theorem postAttrs_id {cs : Fields} (h : ∀ p ∈ cs, p.2.post = id) (vs) : postAttrs cs vs = vs := by
  induction cs generalizing vs with
  | nil => cases vs <;> rfl
  | cons p cs ih =>
    obtain ⟨n, c⟩ := p
    cases vs with
    | nil => rfl
    | cons v vs =>
      have := h (n, c) List.mem_cons_self
      simp only at this
      simp only [postAttrs, this, ih (fun q hq => h q (List.mem_cons_of_mem _ hq))]
      rfl

theorem subOf_mem {subs c s} (h : subOf subs c = some s) : s ∈ subs ∧ s.name = c := by
  unfold subOf at h
  exact ⟨List.mem_of_find?_eq_some h, by simpa using List.find?_some h⟩

theorem same_nil : ∀ p ∈ ([] : Fields), p.2.post = id := by intro p hp; cases hp
theorem same_cons {n c} {fs : Fields} (h : c.post = id) (hs : ∀ p ∈ fs, p.2.post = id) : ∀ p ∈ (n, c) :: fs, p.2.post = id := by
  intro p hp
  rcases List.mem_cons.1 hp with rfl | hp
  · exact h
  · exact hs p hp

/-- Proves that packing changes no attribute of a declaration. -/
macro "same_fields" : tactic => `(tactic| (repeat' first | exact same_nil | refine same_cons rfl ?_))

namespace V01

theorem actionSub_same : ∀ s ∈ actionSubs, ∀ vs, s.post vs = vs := by
  intro s hs vs
  simp only [actionSubs, actionClasses, List.map_cons, List.map_nil] at hs
  repeat (rcases List.mem_cons.1 hs with rfl | hs; · exact postAttrs_id (by same_fields) vs)
  cases hs

theorem actions_keeps : Keeps actions Spec.V01.actions :=
  keeps_list (keeps_variant fun t c s _ hs vs d hd => by
    rw [actionSub_same s (subOf_mem hs).1]; exact hd)

theorem match_keeps : Keeps «match» Spec.V01.match :=
  have h : Keeps (structAttr "01.Match" matchFields matchInit) Spec.V01.match := content_struct (by keeps_fields)
  h
theorem phyPort_keeps : Keeps phyPort Spec.V01.phyPort := content_struct (by keeps_fields)
theorem phyPorts_keeps : Keeps phyPorts (list Spec.V01.phyPort) := keeps_list phyPort_keeps
theorem queueProps_keeps : Keeps queueProps (list Spec.V01.queuePropHeader) := keeps_list (content_struct (by keeps_fields))
theorem queues_keeps : Keeps queues (atMostOne Spec.V01.packetQueue) :=
  have h := queueProps_keeps
  (keeps_list (content_struct (by keeps_fields))).atMostOne

theorem packetOut_keeps : MsgKeeps packetOut ⟨"01.PacketOut", 1, 13, "01.Header", Spec.V01.packetOut⟩ := by
  intro vs d hd
  obtain ⟨b, p, l, acts, data, bn, pn, as, dd, hv, h1, h2, h3, h4, rfl⟩ := packetOut_den_inv hd
  cases hv
  simp only [packetOut, packetOutPrep]
  cases actions.size acts with
  | error e => exact hd
  | ok n =>
    have hp : postAttrs packetOutFields [b, p, .int n, acts, data] = [b, p, .int n, actions.post acts, data] := rfl
    simp only [hp, Spec.V01.packetOut, if_true, h1, h2, h4, actions_keeps _ _ h3]

theorem plain_keeps : ∀ p ∈ Spec.V01.plainMsgs, ∃ m, lib.find p.2.1 = some m ∧ MsgKeeps m (Spec.V01.plain p.1 p.2.1 p.2.2) := by
  have h1 := actions_keeps
  have h2 := match_keeps
  have h3 := phyPorts_keeps
  have h4 := queues_keeps
  have h5 := phyPort_keeps
  simp only [Spec.V01.plainMsgs, List.forall_mem_cons, Spec.V01.switchConfig]
  refine ⟨⟨hello, rfl, ?_⟩, ⟨echoRequest, rfl, ?_⟩, ⟨echoReply, rfl, ?_⟩, ⟨vendorHeader, rfl, ?_⟩, ⟨featuresRequest, rfl, ?_⟩,
    ⟨featuresReply, rfl, ?_⟩, ⟨getConfigRequest, rfl, ?_⟩, ⟨getConfigReply, rfl, ?_⟩, ⟨setConfig, rfl, ?_⟩, ⟨packetIn, rfl, ?_⟩,
    ⟨flowRemoved, rfl, ?_⟩, ⟨portStatus, rfl, ?_⟩, ⟨flowMod, rfl, ?_⟩, ⟨portMod, rfl, ?_⟩, ⟨barrierRequest, rfl, ?_⟩,
    ⟨barrierReply, rfl, ?_⟩, ⟨queueGetConfigRequest, rfl, ?_⟩, ⟨queueGetConfigReply, rfl, ?_⟩, by simp⟩ <;>
    exact msgKeeps_plain rfl rfl (by keeps_fields)

theorem messages_keeps : ∀ s ∈ Spec.V01.messages, ∃ m, lib.find s.code = some m ∧ MsgKeeps m s := by
  intro s hs
  simp only [Spec.V01.messages, List.mem_append, List.mem_map] at hs
  rcases hs with ⟨p, hp, rfl⟩ | hs
  · exact plain_keeps p hp
  · simp only [List.mem_cons, List.not_mem_nil, or_false] at hs
    rcases hs with rfl | rfl | rfl | rfl
    · exact ⟨errorMsg, rfl, msgKeeps_id rfl⟩
    · exact ⟨packetOut, rfl, packetOut_keeps⟩
    · exact ⟨statsRequest, rfl, msgKeeps_id rfl⟩
    · exact ⟨statsReply, rfl, msgKeeps_id rfl⟩

end V01
end Pyof
