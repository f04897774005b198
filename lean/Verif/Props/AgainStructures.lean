import Verif.Props.Structures
import Verif.Props.Again
/-!
# C23: packing a structure or list twice
-/
namespace Pyof.Props
open Pyof.Spec

private theorem structures_idem : ∀ e ∈ structures, Idem e.attr := by
  have a1 := V01.actions_idem
  have a2 := V01.match_idem
  have a3 := V01.phyPorts_idem
  have a4 := V01.queueProps_idem
  have a5 := V01.queues_idem
  have a6 : Idem V01.action := idem_variant V01.actionSub_idem
  have b1 := V04.actions_idem
  have b2 := V04.match_idem
  have b3 := V04.instructions_idem
  have b4 := V04.properties_idem
  have b5 := V04.bands_idem
  have b6 := V04.bucketCounters_idem
  have b7 := V04.bandStatsList_idem
  have b8 : Idem (bareListAttr (isObj "04.Bucket") V04.bucket) := idem_bareList V04.bucket_idem
  have b9 := V04.action_idem
  have b10 := V04.oxm_idem
  have b11 := V04.oxms_idem
  have b12 : Idem V04.instruction := idem_variant V04.instructionSub_idem
  have b13 : Idem V04.property := idem_variant V04.propertySub_idem
  have b14 := V04.helloElem_idem
  have b15 := V04.helloElems_idem
  have b16 := V04.bucket_idem
  have b17 := V04.buckets_idem
  have b18 := V04.band_idem
  have b19 := V04.queueProps_idem
  have b20 : Idem V04.ports := idem_list (itemPost_obj (idem_struct (by idem_fields)) keeps_struct)
  intro e he
  unfold structures at he
  repeat (rcases List.mem_cons.1 he with rfl | he; · first
    | assumption
    | exact idem_struct (by idem_fields)
    | exact (idem_struct (by idem_fields)).cut 0
    | exact (idem_auto (by idem_fields) (lenAt_ubint rfl)).cut 0
    | exact (idem_auto (by idem_fields) (lenAt_ubint rfl)).cut 4)
  cases he

/-- What `n` calls of `pack()` leave behind. -/
def packedTimes (c : Attr) : Nat → Val → Val
  | 0, v => v
  | n + 1, v => packedTimes c n (c.post v)

/-- C23.  If `x.pack()` returns bytes for an object `x` of a structure or list class, then every further call returns the same bytes and
`get_size()` stays as it was, whatever the attributes of `x` hold. -/
theorem C23_structures {e : Entry} (he : e ∈ structures) {v : Val} {b : Bytes} (hb : e.attr.pack v = .ok b) (n : Nat) :
    e.attr.pack (packedTimes e.attr n v) = .ok b ∧ e.attr.usize (packedTimes e.attr n v) = e.attr.usize v := by
  have h := structures_idem e he
  induction n generalizing v with
  | zero => exact ⟨hb, rfl⟩
  | succ n ih =>
    obtain ⟨h1, h2⟩ := ih (h.pack v b hb)
    exact ⟨h1, h2.trans (h.usize v b hb)⟩

/-- An instruction whose length attribute is `None` before the first call and 24 after it. -/
private def exInst (l : Val) : Val :=
  .obj "04.InstructionApplyAction" [.enum 4, l, .pad 4, .list true [.obj "04.ActionOutput" [.enum 0, .int 16, .int 3, .enum 0xffff, .pad 6]]]
example : V04.instruction.pack (exInst .none) =
      .ok [0, 4, 0, 24, 0, 0, 0, 0, 0, 0, 0, 16, 0, 0, 0, 3, 255, 255, 0, 0, 0, 0, 0, 0] ∧
    packedTimes V04.instruction 3 (exInst .none) = exInst (.int 24) ∧
    (⟨"04.instruction", V04.instruction, Spec.V04.instruction, false⟩ : Entry) ∈ structures := by
  refine ⟨by decide +kernel, by decide +kernel, ?_⟩
  simp [structures]

end Pyof.Props
