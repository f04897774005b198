import Verif.Props.Messages
import Verif.Lemmas.AgainV04
/-!
# C23: packing twice
-/
namespace Pyof.Props
open Pyof.Spec

/-- C23.  `m.pack()` followed by `m.pack()`: if the first call returns bytes, the second call, on the object as the first one left
it, returns the same bytes.  For every message object of both libraries, whatever its attributes hold. -/
theorem C23_pack_twice {v : Val} {p : Bytes} (h : pyPack libs v = .ok p) : pyPack libs (pyPost libs v) = .ok p :=
  pyPack_again h

example : ∃ p, pyPack libs (pyPost libs exFlowMod04) = .ok p :=
  (isOk_iff.1 (by decide +kernel)).imp fun _ h => C23_pack_twice h

/-- The object after `n` successful calls of `pack()`. -/
def afterPacks : Nat → Val → Val
  | 0, v => v
  | n + 1, v => afterPacks n (pyPost libs v)

/-- C23.  Any number of times. -/
theorem C23_pack_again {v : Val} {p : Bytes} (h : pyPack libs v = .ok p) (n : Nat) : pyPack libs (afterPacks n v) = .ok p := by
  induction n generalizing v with
  | zero => exact h
  | succ n ih => exact ih (pyPack_again h)

/-- The first call does change the object: it stores lengths in the header, the match and the instructions. -/
example : (pyPack libs exFlowMod04).isOk = true ∧ pyPost libs exFlowMod04 ≠ exFlowMod04 ∧
    pyPost libs exFlowMod04 = .obj "04.FlowMod"
      [.obj "04.Header" [.ub 1 (.int 4), .enum 14, .int 88, .int 9], .int 0, .int 0, .int 0, .enum 0, .int 0, .int 0, .int 0,
       .enum 4294967295, .enum 4294967295, .enum 4294967295, .int 0, .pad 2,
       .obj "04.Match" [.enum 1, .int 12, .list true [.obj "04.OxmTLV" [.enum 0x8000, .int 0, .int 4, .bytes [0, 0, 0, 5], .enum 0, .int 0]]],
       .list true [.obj "04.InstructionApplyAction" [.enum 4, .int 24, .pad 4, .list true
         [.obj "04.ActionOutput" [.enum 0, .int 16, .enum 0xfffffffd, .enum 0xffff, .pad 6]]]]] := by decide +kernel

end Pyof.Props
