import Verif.Lemmas.WeightMsg
import Verif.Props.Structures
/-!
# C72: what is decoded is not out of proportion to the packet
-/
namespace Pyof.Props
open Spec

/-- C72.  Whatever the bytes of the packet, the message that `unpack` returns holds at most five objects, characters and bytes for each byte
of the packet, and 120 more. -/
theorem C72_linear {p : Bytes} {m : Val} (h : pyUnpack libs (.bytes p) = .ok m) : weight m ≤ 5 * p.length + 120 := by
  obtain ⟨b0, b1, b2, b3, b4, b5, b6, b7, r, l, c, vs, rfl, hl, _, hc, hv, _, rfl⟩ := pyUnpack_bytes libs p m h
  have := mlin_find (List.mem_of_find?_eq_some hl) hc hv
  simp only [weight, weights, List.length_cons]
  omega

/-- A `Hello` of version 4 with two elements, and a list of two actions in a `PacketOut` of version 1. -/
example : ∃ m, pyUnpack libs (.bytes [4, 0, 0, 24, 0, 0, 0, 1, 0, 1, 0, 8, 0, 0, 0, 16, 0, 1, 0, 8, 0, 0, 0, 32]) = .ok m ∧ weight m = 32 ∧ weight m ≤ 5 * 24 + 120 := by
  refine ⟨.obj "04.Hello" [.obj "04.Header" [.ub 1 (.int 4), .enum 0, .ub 2 (.int 24), .ub 4 (.int 1)],
    .list true [.obj "04.HelloElemHeader" [.ub 2 (.int 1), .ub 2 (.int 8), .bin (.bytes [0, 0, 0, 16])],
      .obj "04.HelloElemHeader" [.ub 2 (.int 1), .ub 2 (.int 8), .bin (.bytes [0, 0, 0, 32])]]], ?_, ?_, ?_⟩ <;> decide +kernel

/-- C72.  Every structure and list that a packet can hold: what is decoded is in proportion to the size it says it has, and to what there was
of the buffer.  At offset 0 the constant is larger, since a length field 0 there means that nothing of the buffer is read and the new object
is returned as it is. -/
theorem C72_structures {e : Entry} (he : e ∈ structures) (hn : e.name ≠ "04.groupDescStats") {buff : Bytes} {off n : Nat} {u : Val} (hb : buff ≠ [])
    (hu : e.attr.unpack buff off = .ok u) (hs : e.attr.usize u = .ok n) :
    weight u ≤ 5 * min n (buff.length - off) + (if off = 0 then 152 else 2) := by
  have key : ∀ e ∈ structures, e.name ≠ "04.groupDescStats" → Lin 150 2 e.attr := by
    have up : ∀ {d e c}, Lin d e c → d ≤ 150 → e ≤ 2 → Lin 150 2 c := fun h h1 h2 => h.le h1 h2
    have a1 := V01.lin_match
    have a0 := V01.fol_match
    have a2 := V01.lin_phyPorts
    have a3 := V01.lin_queueProps
    have a4 := V01.lin_action
    have a5 := V01.lin_actions
    have a6 := V01.lin_queues
    have a7 := V01.lin_flowStats
    have a8 := V01.lin_queuePropMinRate
    have a9 := V01.fol_queueProps
    have b1 := V04.lin_oxm
    have b2 := V04.lin_oxms
    have b3 := V04.lin_match
    have b0 := V04.fol_match
    have b4 := V04.lin_action
    have b5 := V04.lin_actions
    have b6 := V04.lin_instruction
    have b7 := V04.lin_instructions
    have b8 := V04.lin_property
    have b9 := V04.lin_properties
    have b10 := V04.lin_tableFeatures
    have b11 := V04.lin_helloElem
    have b12 := V04.lin_helloElems
    have b13 := V04.lin_bandStatsList
    have b14 := V04.lin_meterStats
    have b15 := V04.lin_bucket
    have b16 := V04.lin_buckets
    have b17 := V04.lin_bucketCounters
    have b17' := V04.fol_bucketCounters
    have b18 := V04.lin_band
    have b19 := V04.lin_bands
    have b19' := V04.fol_bands
    have b20 := V04.lin_flowStats
    have b21 := V04.lin_queueProps
    have b21' := V04.fol_queueProps
    have b22 := V04.lin_ports
    have b23 := V04.lin_queueProp
    have b23' := V04.fol_queueProp
    intro e he hn
    unfold structures at he
    repeat (rcases List.mem_cons.1 he with rfl | he; · first
      | exact absurd rfl hn
      | (apply up <;> first | assumption | decide)
      | exact up (lin_struct (d := 40) (e := 2) (k := 0) (by ffol) (by flinle)) (by decide) (by decide))
    cases he
  have := key e he hn hb hu hs
  simp only [atStart] at this
  split at this <;> simp_all <;> omega

/-- An `ApplyActions` instruction with two `Output` actions at offset 1: 27 for its 40 bytes. -/
example :
    ∃ u, V04.instruction.unpack [9, 0, 4, 0, 40, 0, 0, 0, 0, 0, 0, 0, 16, 0, 0, 0, 1, 0, 0, 0, 0, 0, 0, 0, 0, 0, 0, 0, 16, 0, 0, 0, 2, 0, 0, 0, 0, 0, 0, 0, 0] 1 = .ok u ∧
      V04.instruction.usize u = .ok 40 ∧ weight u = 27 ∧ weight u ≤ 5 * min 40 (41 - 1) + 2 := by
  refine ⟨.obj "04.InstructionApplyAction" [.ub 2 (.enum 4), .ub 2 (.int 40), .pad 4, .list true
    [.obj "04.ActionOutput" [.ub 2 (.enum 0), .ub 2 (.int 16), .ub 4 (.int 1), .ub 2 (.int 0), .pad 6],
     .obj "04.ActionOutput" [.ub 2 (.enum 0), .ub 2 (.int 16), .ub 4 (.int 2), .ub 2 (.int 0), .pad 6]]], ?_, ?_, ?_, ?_⟩ <;> decide +kernel

/-- The bytes of a bucket without actions. -/
def bucketBytes : Bytes := [0, 16, 0, 0, 0, 0, 0, 0, 0, 0, 0, 0, 0, 0, 0, 0]

/-- C72.  `GroupDescStats` says that its size is 8 whatever the buckets it holds. -/
theorem C72_structures_counterexample : ∃ u,
    V04.groupDescStats.unpack ([0, 24, 0, 0, 0, 0, 0, 1] ++ (List.replicate 20 bucketBytes).flatten) 0 = .ok u ∧
      V04.groupDescStats.usize u = .ok 8 ∧ ¬ weight u ≤ 5 * 8 + 152 := by
  refine ⟨.obj "04.GroupDescStats" [.ub 2 (.int 24), .ub 1 (.int 0), .pad 1, .ub 4 (.int 1), .list true
    (List.replicate 20 (.obj "04.Bucket" [.ub 2 (.int 16), .ub 2 (.int 0), .ub 4 (.int 0), .ub 4 (.int 0), .pad 4, .list true []]))], ?_, ?_, ?_⟩ <;>
    decide +kernel

end Pyof.Props
