import Verif.Lemmas.V01
import Verif.Lemmas.V04Facts
/-!
# Facts about the OpenFlow 1.0 formats used by the property theorems
-/
namespace Pyof.V01
open Spec

theorem actionTail_ok {c : String} : ∀ p ∈ Spec.V01.actionTail c, ∀ d b, p.2.enc d = some b → p.2.ok d := by
  intro p hp d b h
  unfold Spec.V01.actionTail at hp
  split at hp <;> (simp only [List.mem_cons, List.not_mem_nil, or_false] at hp) <;> (try rcases hp with rfl | rfl | rfl) <;>
    (try rcases hp with rfl | rfl) <;> (try subst hp) <;> first | exact V04.ok_uint h | exact trivial

/-- Every content that has an encoding is acceptable to the decoder. -/
theorem action_ok {d b} (he : Spec.V01.action.enc d = some b) : Spec.V01.action.ok d := by
  have he : (union Spec.V01.actionSel Spec.V01.actionLay).enc d = some b := he
  obtain ⟨c, t, ds, rfl, _, he'⟩ := union_enc_inv he
  obtain ⟨ds', h0, he'⟩ := struct_enc_inv he'
  cases h0
  refine V04.okAll_of (fs := _ :: _ :: Spec.V01.actionTail c) ?_ he'
  intro p hp
  rcases List.mem_cons.mp hp with rfl | hp
  · exact fun d b h => V04.ok_uint h
  · rcases List.mem_cons.mp hp with rfl | hp
    · exact fun d b h => V04.ok_uint h
    · exact actionTail_ok p hp

end Pyof.V01
