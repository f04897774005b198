import Verif.Lemmas.Follow
import Verif.Props.Structures
/-!
# C47: decoding a structure reads only its own window

The fixed-size classes are in `Props/Struct.lean` (`C47_basic_types`, `C47_struct`).  Here are all structure and list classes of both
versions, whatever their length.
-/
namespace Pyof.Props
open Pyof Spec

/-- The classes that read a length and cut the buffer there, and the ones that contain such a class. -/
def cutting : List String :=
  ["01.flowStats", "04.match", "04.action", "04.actions", "04.instruction", "04.instructions", "04.property", "04.properties",
   "04.tableFeatures", "04.helloElem", "04.helloElems", "04.meterStats", "04.bucket", "04.buckets", "04.band", "04.bands", "04.flowStats",
   "04.flowStatsRequest", "04.aggregateStatsRequest", "04.groupDescStats", "04.meterConfig"]

/-- C47.  What comes before the offset does not matter: where the same bytes follow two positive offsets, decoding gives the same object or
raises the same exception. -/
theorem C47_before : ∀ e ∈ structures, Local 1 e.attr := by
  have a1 := @V01.local_match 1
  have a2 := @V01.local_phyPorts 1
  have a3 := @V01.local_queueProps 1
  have a4 := @V01.local_action 1
  have a5 := @V01.local_actions 1
  have a6 := @V01.local_queues 1
  have a7 := V01.local_flowStats
  have a8 := @V01.local_queuePropMinRate 1
  have b1 := @V04.local_oxm 1
  have b2 := @V04.local_oxms 1
  have b3 := V04.local_match
  have b4 := V04.local_action
  have b5 := V04.local_actions
  have b6 := V04.local_instruction
  have b7 := V04.local_instructions
  have b8 := V04.local_property
  have b9 := V04.local_properties
  have b10 := V04.local_tableFeatures
  have b11 := V04.local_helloElem
  have b12 : Local 1 V04.helloElems := local_list V04.local_helloElem
  have b13 := @V04.local_bandStatsList 1
  have b14 := V04.local_meterStats
  have b15 := V04.local_bucket
  have b16 := V04.local_buckets
  have b17 := @V04.local_bucketCounters 1
  have b18 := V04.local_band
  have b19 := V04.local_bands
  have b20 := V04.local_flowStats
  have b21 := @V04.local_queueProps 1
  have b22 : Local 1 V04.ports := local_list V04.local_port
  have b23 := V04.local_groupDescStats
  have b24 := @V04.local_queueProp 1
  intro e he
  unfold structures at he
  repeat (rcases List.mem_cons.1 he with rfl | he; · first
    | assumption
    | exact local_struct (by flocal))
  cases he

/-- C47.  Offset 0 included, for every class outside of `cutting`. -/
theorem C47_before_all : ∀ e ∈ structures, e.name ∉ cutting → Local 0 e.attr := by
  have a1 := @V01.local_match 0
  have a2 := @V01.local_phyPorts 0
  have a3 := @V01.local_queueProps 0
  have a4 := @V01.local_action 0
  have a5 := @V01.local_actions 0
  have a6 := @V01.local_queues 0
  have a8 := @V01.local_queuePropMinRate 0
  have b1 := @V04.local_oxm 0
  have b2 := @V04.local_oxms 0
  have b13 := @V04.local_bandStatsList 0
  have b17 := @V04.local_bucketCounters 0
  have b21 := @V04.local_queueProps 0
  have b22 : Local 0 V04.ports := local_list V04.local_port
  have b24 := @V04.local_queueProp 0
  intro e he hn
  unfold structures at he
  repeat (rcases List.mem_cons.1 he with rfl | he; · first
    | assumption
    | exact absurd (by decide) hn
    | exact local_struct (by flocal))
  cases he

/-- C47.  Why offset 0 differs for the classes of `cutting`: an action of OpenFlow 1.3 that announces no bytes leaves an empty buffer at
offset 0, and an empty buffer leaves the attributes of a new object as they are, without an exception; one byte further on the buffer that is
left is too short. -/
theorem C47_before_counterexample :
    V04.action.unpack [0, 0, 0, 0, 0, 0, 0, 1] 0 = .ok (.obj "04.ActionOutput" (protos V04.actionOutput.fields)) ∧
      V04.action.unpack [9, 0, 0, 0, 0, 0, 0, 0, 1] 1 = .error .unpack :=
  ⟨by decide +kernel, by decide +kernel⟩

/-- C47.  What comes after the window does not matter: when decoding gives an object whose size is `n` and the buffer has more than the `n`
bytes, the rest of the buffer may be replaced by anything (or by nothing) and decoding gives the same object. -/
theorem C47_after : ∀ e ∈ structures, e.name ≠ "04.groupDescStats" → Follow e.attr := by
  have key : ∀ e ∈ structures, e.name ≠ "04.groupDescStats" → Fol e.attr := by
    have a1 := V01.fol_match
    have a2 := V01.fol_phyPorts
    have a3 := V01.fol_queueProps
    have a4 := V01.fol_action
    have a5 := V01.fol_actions
    have a6 := V01.fol_queues
    have a7 := V01.fol_flowStats
    have a8 := V01.fol_queuePropMinRate
    have b1 := V04.fol_oxm
    have b2 := V04.fol_oxms
    have b3 := V04.fol_match
    have b4 := V04.fol_action
    have b5 := V04.fol_actions
    have b6 := V04.fol_instruction
    have b7 := V04.fol_instructions
    have b8 := V04.fol_property
    have b9 := V04.fol_properties
    have b10 := V04.fol_tableFeatures
    have b11 := V04.fol_helloElem
    have b12 : Fol V04.helloElems := fol_list (gives_cut gives_auto)
    have b13 := V04.fol_bandStatsList
    have b14 := V04.fol_meterStats
    have b15 := V04.fol_bucket
    have b16 := V04.fol_buckets
    have b17 := V04.fol_bucketCounters
    have b18 := V04.fol_band
    have b19 := V04.fol_bands
    have b20 := V04.fol_flowStats
    have b21 := V04.fol_queueProps
    have b22 : Fol V04.ports := fol_list gives_struct
    have b24 := V04.fol_queueProp
    intro e he hn
    unfold structures at he
    repeat (rcases List.mem_cons.1 he with rfl | he; · first
      | assumption
      | exact absurd rfl hn
      | exact fol_struct (k := 0) (by ffol))
    cases he
  exact fun e he hn => (key e he hn).follow

/-- C47.  The size of `GroupDescStats` leaves its buckets out, so what it decoded depends on what follows its "size". -/
theorem C47_after_counterexample : ∃ u, V04.groupDescStats.unpack [0, 24, 0, 0, 0, 0, 0, 1, 0, 16, 0, 0, 0, 0, 0, 0, 0, 0, 0, 0, 0, 0, 0, 0] 0 = .ok u ∧
    V04.groupDescStats.usize u = .ok 8 ∧ V04.groupDescStats.unpack [0, 24, 0, 0, 0, 0, 0, 1] 0 ≠ .ok u := by
  refine ⟨.obj "04.GroupDescStats" [.ub 2 (.int 24), .ub 1 (.int 0), .pad 1, .ub 4 (.int 1), .list true
    [.obj "04.Bucket" [.ub 2 (.int 16), .ub 2 (.int 0), .ub 4 (.int 0), .ub 4 (.int 0), .pad 4, .list true []]]], ?_, ?_, ?_⟩ <;> decide +kernel

/-- C47.  Both together: decoding reads only the window of the object.  Put anywhere else (after at least one byte), with anything behind it,
the bytes of the window give the same object.  Where the window reached the end of the buffer, nothing may be put behind it. -/
theorem C47_window {e : Entry} (he : e ∈ structures) (hn : e.name ≠ "04.groupDescStats") {buff : Bytes} {off n : Nat} {u : Val} (ho : 1 ≤ off)
    (hu : e.attr.unpack buff off = .ok u) (hs : e.attr.usize u = .ok n) (hb : buff ≠ []) {pre post : Bytes} (hp : pre ≠ [])
    (h : off + n < buff.length ∨ post = []) :
    e.attr.unpack (pre ++ slice buff off (off + n) ++ post) pre.length = .ok u := by
  have hne : 1 ≤ pre.length := List.length_pos_iff.mpr hp
  have hL := C47_before e he
  by_cases hl : off + n < buff.length
  · have ht : (buff.take off).length = off := by simp only [List.length_take]; omega
    have hb' : buff.take (off + n) ++ post ≠ [] := by
      intro hc
      have := congrArg List.length hc
      simp only [List.length_append, List.length_take, List.length_nil] at this
      have := List.length_pos_iff.mpr hb
      omega
    have h1 := C47_after e he hn buff (buff.take (off + n) ++ post) off u n hb hb' hu hs hl
      (by rw [List.take_append_of_le_length (by simp only [List.length_take]; omega), List.take_take, Nat.min_self])
    rw [← h1]
    refine hL _ _ _ _ (by simp [hp]) hb' hne ho ?_
    rw [List.append_assoc, List.drop_left, List.drop_append_of_le_length (by simp only [List.length_take]; omega)]
    rfl
  · have hpost := h.resolve_left hl
    subst hpost
    rw [← hu, List.append_nil]
    refine hL _ _ _ _ (by simp [hp]) hb hne ho ?_
    rw [List.drop_left]
    unfold slice
    rw [List.take_of_length_le (by omega)]

/-- An action to output to port 1 among other bytes; its window are bytes 1 to 17. -/
example : ∃ u, V04.action.unpack ([7] ++ [0, 0, 0, 16, 0, 0, 0, 1, 0, 128, 0, 0, 0, 0, 0, 0] ++ [5, 5]) 1 = .ok u ∧ V04.action.usize u = .ok 16 ∧
    V04.action.unpack ([1, 2, 3] ++ [0, 0, 0, 16, 0, 0, 0, 1, 0, 128, 0, 0, 0, 0, 0, 0] ++ []) 3 = .ok u :=
  ⟨.obj "04.ActionOutput" [.ub 2 (.enum 0), .ub 2 (.int 16), .ub 4 (.int 1), .ub 2 (.int 128), .pad 6], by decide +kernel, by decide +kernel, by decide +kernel⟩

end Pyof.Props
