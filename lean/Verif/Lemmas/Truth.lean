import Verif.Model.Basic
import Verif.Spec.Truth
/-!
# `bool(value)` is what `Spec.Falsy` says
-/
namespace Pyof
open Spec

theorem noData_of : ∀ x : Val, binSizeRaw x = .ok 0 → NoData x
  | .bin x, h => .bin (noData_of x (by simpa [binSizeRaw] using h))
  | .foreign b n, h => by simp [binSizeRaw] at h; subst h; exact .object
  | .none, _ => .none
  | .bytes b, h => by simp [binSizeRaw, binPackRaw] at h; subst h; exact .bytes
  | .list true [], _ => .list
  | .list true (_ :: _), h | .list false _, h | .int _, h | .enum _, h | .mask _, h | .str _, h | .ub _ _, h | .hw _, h | .ip _ _, h
  | .ip6 _ _, h | .dpid _, h | .chr _ _, h | .pad _, h | .obj _ _, h => by simp [binSizeRaw, binPackRaw] at h

theorem noData_iff (x : Val) : binSizeRaw x = .ok 0 ↔ NoData x := by
  refine ⟨noData_of x, fun h => ?_⟩
  induction h with
  | bin _ ih => simpa [binSizeRaw] using ih
  | _ => simp [binSizeRaw, binPackRaw]

theorem falsy_iff (v : Val) : pyTrue v = false ↔ Falsy v := by
  constructor
  · intro h
    cases v <;> simp only [pyTrue, decide_eq_false_iff_not, Decidable.not_not, reduceCtorEq] at h
    case none => exact .none
    case int => subst h; exact .zero
    case enum => subst h; exact .enumZero
    case str => subst h; exact .str
    case bytes => subst h; exact .bytes
    case list => subst h; exact .list
    case bin => exact .bin ((noData_iff _).mp h)
    case pad => subst h; exact .pad
    case chr => subst h; exact .chr
  · intro h
    cases h with
    | bin h => simp only [pyTrue, (noData_iff _).mpr h]; simp
    | _ => simp [pyTrue]

theorem true_iff (v : Val) : pyTrue v = true ↔ ¬ Falsy v := by
  rw [← falsy_iff]; simp

end Pyof
