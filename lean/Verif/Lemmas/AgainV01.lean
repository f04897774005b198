import Verif.Lemmas.Again
import Verif.Model.V01
/-! Packing twice: OpenFlow 1.0. -/
namespace Pyof
open Spec

theorem idem_nil : ∀ p ∈ ([] : Fields), Idem p.2 := by intro p hp; cases hp
theorem idem_cons {n c} {fs : Fields} (h : Idem c) (hs : ∀ p ∈ fs, Idem p.2) : ∀ p ∈ (n, c) :: fs, Idem p.2 := by
  intro p hp
  rcases List.mem_cons.1 hp with rfl | hp
  · exact h
  · exact hs p hp

/-- Proves `∀ p ∈ fields, Idem p.2` for a declaration; hypotheses are tried for the attributes that are not basic. -/
macro "idem_fields" : tactic => `(tactic| (
  repeat' first
    | exact idem_nil
    | refine idem_cons (idem_id rfl) ?_
    | refine idem_cons (by assumption) ?_
    | refine idem_cons (idem_struct ?_) ?_))

namespace V01

theorem actionSub_idem : ∀ s ∈ actionSubs, SubIdem s := by
  intro s hs
  simp only [actionSubs, actionClasses, List.map_cons, List.map_nil] at hs
  repeat (rcases List.mem_cons.1 hs with rfl | hs; · exact subIdem_plain (by idem_fields))
  cases hs

theorem actions_idem : Idem actions := idem_list (itemPost_variant actionSub_idem)

theorem match_idem : Idem «match» :=
  have h : Idem (structAttr "01.Match" matchFields matchInit) := idem_struct (by idem_fields)
  ⟨h.pack, h.size, h.usize⟩

theorem phyPorts_idem : Idem phyPorts :=
  idem_list (itemPost_obj (idem_struct (by idem_fields)) keeps_struct)
theorem queueProps_idem : Idem queueProps :=
  idem_list (itemPost_obj (idem_struct (by idem_fields)) keeps_struct)
theorem queues_idem : Idem queues :=
  have h := queueProps_idem
  idem_list (itemPost_obj (idem_struct (by idem_fields)) keeps_struct)

/-- A message whose `pack` leaves the attributes as they were. -/
theorem msgIdem_keep {m : MsgCls} (ha : m.after = id) : MsgIdem m := by
  refine msgIdem_of fun vs ws b h1 h2 => ⟨ws, by rw [ha]; exact h1, h2, rfl, rfl⟩

theorem packetOut_idem : MsgIdem packetOut := by
  refine msgIdem_of fun vs ws b h1 h2 => ?_
  rw [show packetOut.prep = packetOutPrep from rfl] at h1 ⊢
  unfold packetOutPrep at h1
  split at h1
  · rename_i bf p l acts d
    cases hn : actions.size acts with
    | error e => simp [hn] at h1
    | ok n =>
      simp only [hn, Except.ok.injEq] at h1
      subst h1
      have hall : ∀ p ∈ packetOutFields, Idem p.2 := by
        have h := actions_idem
        idem_fields
      obtain ⟨h3, h4⟩ := postAttrs_again hall h2
      have hp : packetOut.after [bf, p, l, acts, d] = [bf, p, .int n, actions.post acts, d] := by
        simp only [packetOut, packetOutPrep, hn]
        rfl
      have hacts : actions.size (actions.post acts) = .ok n := by
        obtain ⟨_, _, _, h2, _⟩ := packAttrs_cons.1 h2
        obtain ⟨_, _, _, h2, _⟩ := packAttrs_cons.1 h2
        obtain ⟨_, _, _, h2, _⟩ := packAttrs_cons.1 h2
        obtain ⟨x, _, hx, _, _⟩ := packAttrs_cons.1 h2
        rw [actions_idem.size acts x hx, hn]
      refine ⟨[bf, p, .int n, actions.post acts, d], ?_, h3, h4, rfl⟩
      rw [hp]
      simp only [packetOutPrep, hacts]
  · cases h1

theorem messages_idem : ∀ p ∈ lib.classes, MsgIdem p.2 := by
  have h1 := actions_idem
  have h2 := match_idem
  have h3 := phyPorts_idem
  have h4 := queues_idem
  intro p hp
  rw [show lib.classes = [(0, hello), (1, errorMsg), (2, echoRequest), (3, echoReply), (4, vendorHeader), (5, featuresRequest),
     (6, featuresReply), (7, getConfigRequest), (8, getConfigReply), (9, setConfig), (10, packetIn), (11, flowRemoved),
     (12, portStatus), (13, packetOut), (14, flowMod), (15, portMod), (16, statsRequest), (17, statsReply),
     (18, barrierRequest), (19, barrierReply), (20, queueGetConfigRequest), (21, queueGetConfigReply)] from rfl] at hp
  repeat (rcases List.mem_cons.1 hp with rfl | hp; · first | exact packetOut_idem | exact msgIdem_keep rfl | exact msgIdem_plain rfl rfl rfl (by idem_fields))
  cases hp

end V01
end Pyof
