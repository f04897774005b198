import Verif.Lemmas.Heap
/-!
# C50: instances do not share state

`Library cs h0.length h0` says that `h0` is the heap after importing the library: the class attributes and what belongs to them, referring only to
each other.  `Hist cs h0 h insts` says that a program can then reach the heap `h` having made the instances `insts`.
-/
namespace Pyof.Props
open Pyof.Mem

/-- Whatever a program does with its instances, the class attributes never change. -/
theorem C50_classes {cs : Classes} {h0 h : Heap} {insts : List Nat} (lib : Library cs h0.length h0) (hh : Hist cs h0 h insts) :
    ∀ a, a < h0.length → h[a]? = h0[a]? := by
  obtain ⟨_, o⟩ := hist_owned lib hh
  exact o.same

/-- Constructing an instance changes no existing object, also if it raises; and everything that can be reached from the new instance is new. -/
theorem C50_construct {cs : Classes} {h0 h h' : Heap} {insts : List Nat} (lib : Library cs h0.length h0) (hh : Hist cs h0 h insts)
    {fuel : Nat} {cls : String} {args : List (String × Slot)} {r : Option Nat} (hargs : ∀ p ∈ args, ∃ v, p.2 = .prim v)
    (hc : create cs fuel h cls args = (h', r)) :
    (∀ a, a < h.length → h'[a]? = h[a]?) ∧ ∀ a, r = some a → ∀ b, Reach h' a b → h.length ≤ b := by
  obtain ⟨_, o⟩ := hist_owned lib hh
  obtain ⟨f, ha⟩ := create_fresh (o.lib lib) o.bound hargs hc
  exact ⟨f.keeps, fun a hr b hb => f.reach (by have := (ha a hr).1; omega) hb⟩

/-- At every point of every program a new instance has the content of the class attributes as they were after the import. -/
theorem C50_content {cs : Classes} {h0 h h' : Heap} {insts : List Nat} (lib : Library cs h0.length h0) (hh : Hist cs h0 h insts)
    {fuel : Nat} {cls : String} {attrs : List (String × Nat)} {a : Nat} (hcls : cs cls = some attrs)
    (hc : construct cs fuel h cls = (h', some a)) (d : Nat) :
    view h' (d + 1) a = .node (.struct cls) (attrs.map fun p => (p.1, view h0 d p.2)) := by
  obtain ⟨_, o⟩ := hist_owned lib hh
  exact construct_view (o.lib lib) o.bound o.same hcls hc d

/-- Two instances never have an object in common. -/
theorem C50_disjoint {cs : Classes} {h0 h : Heap} {insts : List Nat} (lib : Library cs h0.length h0) (hh : Hist cs h0 h insts)
    {i j : Nat} (hi : i ∈ insts) (hj : j ∈ insts) (hij : i ≠ j) {a : Nat} : Reach h i a → ¬ Reach h j a := by
  intro h1 h2
  obtain ⟨own, o⟩ := hist_owned lib hh
  have e1 := (o.reach (o.inst i hi).1 h1).2
  have e2 := (o.reach (o.inst j hj).1 h2).2
  rw [(o.inst i hi).2.2] at e1
  rw [(o.inst j hj).2.2] at e2
  exact hij (e1.symm.trans e2)

/-- The class attributes cannot be reached from an instance. -/
theorem C50_apart {cs : Classes} {h0 h : Heap} {insts : List Nat} (lib : Library cs h0.length h0) (hh : Hist cs h0 h insts)
    {i : Nat} (hi : i ∈ insts) {a : Nat} (hr : Reach h i a) : h0.length ≤ a := by
  obtain ⟨own, o⟩ := hist_owned lib hh
  exact (o.reach (o.inst i hi).1 hr).1

/-- Decoding into an instance or updating it in place leaves every object of every other instance as it was. -/
theorem C50_operation {cs : Classes} {h0 h h' : Heap} {insts : List Nat} (lib : Library cs h0.length h0) (hh : Hist cs h0 h insts)
    {i j : Nat} (hi : i ∈ insts) (hj : j ∈ insts) (hij : i ≠ j) (hop : Op cs h i h') :
    (∀ a, Reach h j a → h'[a]? = h[a]?) ∧ ∀ d, view h' d j = view h d j := by
  obtain ⟨own, o⟩ := hist_owned lib hh
  have hj' := o.inst j hj
  have key : ∀ a, Reach h j a → h'[a]? = h[a]? := fun a hr =>
    (o.op lib hi hop).2 a (hr.lt o.bound hj'.2.1) (by rw [(o.reach hj'.1 hr).2, hj'.2.2]; exact fun h => hij h.symm)
  exact ⟨key, fun d => view_congr d key⟩

/-- Whatever a program does without naming the instance `j`, the content of `j` stays as it was. -/
theorem C50_without {cs : Classes} {h0 h h' : Heap} {insts insts' : List Nat} (lib : Library cs h0.length h0) (hh : Hist cs h0 h insts)
    {j : Nat} (hj : j ∈ insts) (hw : Without cs j h insts h' insts') : j ∈ insts' ∧ ∀ d, view h' d j = view h d j := by
  suffices (∃ own, Owned h0.length h0 h' insts' own) ∧ j ∈ insts' ∧ ∀ d, view h' d j = view h d j from this.2
  induction hw with
  | refl => exact ⟨hist_owned lib hh, hj, fun _ => rfl⟩
  | step _ st hjt ih =>
    obtain ⟨⟨own, o⟩, hj1, hv⟩ := ih
    obtain ⟨o', hk, hin⟩ := o.step lib st
    have hj' := o.inst j hj1
    refine ⟨o', hin j hj1 hjt, fun d => (view_congr d fun a hr => ?_).trans (hv d)⟩
    exact hk a (hr.lt o.bound hj'.2.1) (by rw [(o.reach hj'.1 hr).2, hj'.2.2]; exact hjt)

/-! ## C62: deep copies -/

/-- `copy.deepcopy(x)` of an instance, or of a part `a` of one, whose basic objects hold immutable values: no existing object changes, everything that can be reached
from the copy is new, and the copy has the content of the original. -/
theorem C62_deepcopy {cs : Classes} {h0 h h' : Heap} {insts : List Nat} (lib : Library cs h0.length h0) (hh : Hist cs h0 h insts)
    {i a : Nat} (hi : i ∈ insts) (hr : Reach h i a) (hp : Plain h a) {fuel : Nat} {m : Memo} {j : Nat} (hc : copyObj fuel [] h a = some (m, h', j)) :
    (∀ b, b < h.length → h'[b]? = h[b]?) ∧ (∀ b, Reach h' j b → h.length ≤ b) ∧ ∀ d, view h' d j = view h d a := by
  obtain ⟨_, o⟩ := hist_owned lib hh
  obtain ⟨R, d, hin⟩ := copyObj_done o.bound (hr.lt o.bound (o.inst i hi).2.1) hp hc
  exact ⟨d.old, fun b hb => (d.fresh o.bound).reach (d.pairs a j hin).1 hb, fun n => done_view d n a j hin⟩

/-- The copy is made whenever the recursion limit allows for the depth of the object; in particular when there are no cycles. -/
theorem C62_total {cs : Classes} {h0 h : Heap} {insts : List Nat} (lib : Library cs h0.length h0) (hh : Hist cs h0 h insts)
    {i a : Nat} (hi : i ∈ insts) (hr : Reach h i a) (hp : Plain h a) {fuel : Nat} (hs : Shallow h fuel a) :
    ∃ m h' j, copyObj fuel [] h a = some (m, h', j) := by
  obtain ⟨_, o⟩ := hist_owned lib hh
  have src : Source h (Reach h a) :=
    ⟨fun b hb => hb.lt o.bound (hr.lt o.bound (o.inst i hi).2.1), fun b n hr hn c hc => .step hr hn hc, fun b n hr hn hk => hp b n hr hn hk⟩
  obtain ⟨⟨m, h', j⟩, he⟩ := copyObj_total src fuel [] h a ⟨Nat.le_refl _, fun _ _ => rfl⟩ (.refl a) hs
  exact ⟨m, h', j, he⟩

/-- The copy and the original stay independent: whatever the program then does without naming the one, it keeps the content it had. -/
theorem C62_independent {cs : Classes} {h0 h h' h'' : Heap} {insts insts' : List Nat} (lib : Library cs h0.length h0) (hh : Hist cs h0 h insts)
    {i : Nat} (hi : i ∈ insts) (hp : Plain h i) {fuel : Nat} {m : Memo} {j : Nat} (hc : copyObj fuel [] h i = some (m, h', j)) :
    (Without cs i h' (j :: insts) h'' insts' → ∀ d, view h'' d i = view h d i) ∧
    (Without cs j h' (j :: insts) h'' insts' → ∀ d, view h'' d j = view h d i) := by
  have hh' : Hist cs h0 h' (j :: insts) := .step hh (.copy hi (.refl _) hp hc)
  obtain ⟨hold, _, hv⟩ := C62_deepcopy lib hh hi (.refl _) hp hc
  obtain ⟨_, o⟩ := hist_owned lib hh
  refine ⟨fun hw d => ((C50_without lib hh' (List.mem_cons_of_mem _ hi) hw).2 d).trans (view_congr d fun b hb => ?_), fun hw d =>
    ((C50_without lib hh' List.mem_cons_self hw).2 d).trans (hv d)⟩
  exact hold b (hb.lt o.bound (o.inst i hi).2.1)

/-! ## A part of the library as it is after the import

`Match` (v0x01/common/flow_match.py:66-98) and `AggregateStatsRequest` (v0x01/controller2switch/common.py:119-142). -/

def matchNames : List String :=
  ["wildcards", "in_port", "dl_src", "dl_dst", "dl_vlan", "dl_vlan_pcp", "pad1", "dl_type", "nw_tos", "nw_proto", "pad2", "nw_src", "nw_dst",
    "tp_src", "tp_dst"]

/-- The attribute objects of a `Match()`; the values are those given in the class, `0` standing for the addresses and pads. -/
def matchObjects : Heap :=
  (0x3fffff :: List.replicate 14 0).map fun v => ⟨.basic, [("_value", .prim (.int v))]⟩

/-- A `Match()` whose attribute objects start at address `a`. -/
def matchAt (a : Nat) : Node := ⟨.struct "Match", matchNames.zipIdx.map fun p => (p.1, .ref (a + p.2))⟩

/-- 0-14: the class attributes of `Match`; 15-30: the class attribute `AggregateStatsRequest.match`; 31-33: the other class attributes of
`AggregateStatsRequest`; 34-49: the `Match()` which is the default value of the parameter `match` of its constructor (line 128). -/
def importHeap : Heap :=
  matchObjects ++ matchObjects ++ [matchAt 15] ++
    [⟨.basic, [("_value", .prim .none)]⟩, ⟨.basic, [("_value", .prim (.int 1))]⟩, ⟨.basic, [("_value", .prim .none)]⟩] ++
    [matchAt 35] ++ matchObjects

def importClasses : Classes
  | "Match" => some matchNames.zipIdx
  | "AggregateStatsRequest" => some [("match", 30), ("table_id", 31), ("pad", 32), ("out_port", 33)]
  | _ => none

theorem import_library : Library importClasses importHeap.length importHeap := by
  have hall : importHeap.all (fun n => n.refs.all (· < importHeap.length)) = true := by decide +kernel
  have hbas : importHeap.all (fun n => n.kind != .basic || n.refs == []) = true := by decide +kernel
  refine ⟨Nat.le_refl _, fun a n _ hn b hb => ?_, fun a n _ hn hk => ?_, fun c attrs hc => ?_, fun c attrs hc => ?_⟩
  · have := List.all_eq_true.1 hall n (List.mem_of_getElem? hn)
    simpa using List.all_eq_true.1 this b hb
  · have := List.all_eq_true.1 hbas n (List.mem_of_getElem? hn)
    simpa [hk] using this
  · unfold importClasses at hc
    split at hc <;> cases hc <;> decide +kernel
  · unfold importClasses at hc
    split at hc <;> cases hc <;> decide +kernel

/-- One request with arguments; then another one. -/
def oneRequest : Heap :=
  (create importClasses 5 importHeap "AggregateStatsRequest" [("table_id", .prim (.int 255)), ("out_port", .prim (.int 65535))]).1

def twoRequests : Heap := (create importClasses 5 oneRequest "AggregateStatsRequest" [("table_id", .prim (.int 1))]).1

def decodedRequest : Dec :=
  .parts [.parts ((0 :: List.replicate 14 7).map fun v => .value (.int v)), .value (.int 3), .value (.int 0), .value (.int 9)]

theorem twoRequests_hist : Hist importClasses importHeap twoRequests [70, 50] := by
  have h1 : create importClasses 5 importHeap "AggregateStatsRequest" [("table_id", .prim (.int 255)), ("out_port", .prim (.int 65535))]
      = (oneRequest, some 50) := by decide +kernel
  have h2 : create importClasses 5 oneRequest "AggregateStatsRequest" [("table_id", .prim (.int 1))] = (twoRequests, some 70) := by decide +kernel
  refine .step (.step .start (.create ?_ h1)) (.create ?_ h2)
  · simp
  · simp

/-- Each theorem above applies to these two requests. -/
example := C50_classes import_library twoRequests_hist
example := C50_construct import_library twoRequests_hist (fuel := 5) (cls := "AggregateStatsRequest") (args := [("table_id", .prim (.int 1))])
  (by simp) rfl
example := C50_content import_library twoRequests_hist (fuel := 5) (cls := "AggregateStatsRequest") (a := 90) rfl
  (Prod.ext rfl (by decide +kernel : (construct importClasses 5 twoRequests "AggregateStatsRequest").2 = some 90)) 3
example {a : Nat} := C50_disjoint import_library twoRequests_hist (i := 70) (j := 50) (by decide) (by decide) (by decide) (a := a)
example := C50_apart import_library twoRequests_hist (i := 70) (by decide) (.refl _)
example := C50_without import_library twoRequests_hist (j := 70) (by decide)
  (.step .refl (.op (i := 50) (by decide) (.unpack (fuel := 5) (d := decodedRequest) (.refl _))) (by decide))

/-- Non-vacuity: two instances; decoding into the first one changes what it holds, and not what the second one holds. -/
example : Op importClasses twoRequests 50 (unpack importClasses 5 twoRequests 50 decodedRequest).1 ∧
    (unpack importClasses 5 twoRequests 50 decodedRequest).2 = true ∧
    (unpack importClasses 5 twoRequests 50 decodedRequest).1[50]? ≠ twoRequests[50]? ∧
    ∀ d, view (unpack importClasses 5 twoRequests 50 decodedRequest).1 d 70 = view twoRequests d 70 :=
  ⟨.unpack (.refl _), by decide +kernel, by decide +kernel,
    (C50_operation import_library twoRequests_hist (by decide) (by decide) (by decide) (.unpack (.refl _))).2⟩

/-- Non-vacuity of C62: a request whose two attributes `pad` and `out_port` are one and the same object is copied. -/
example : ∃ h m h' j, Hist importClasses importHeap h [70, 50] ∧ Plain h 50 ∧ copyObj 5 [] h 50 = some (m, h', j) ∧
    Shallow h 3 50 ∧ get h 50 "pad" = get h 50 "out_port" ∧ get h' j "pad" = get h' j "out_port" ∧ get h' j "pad" ≠ get h 50 "pad" := by
  have hop : Op importClasses twoRequests 50 (write twoRequests 50 "out_port" (.ref 68)) :=
    .link (.refl _) (.step (n := twoRequests[50]) (.refl _) (by decide +kernel) (by decide +kernel))
  refine ⟨write twoRequests 50 "out_port" (.ref 68), _, _, _, .step twoRequests_hist (.op (by decide) hop), ?_,
    (by rfl), ?_, by decide +kernel, by decide +kernel, by decide +kernel⟩
  case refine_2 => decide +kernel
  intro b n _ hn hk
  have hall : (write twoRequests 50 "out_port" (.ref 68)).all (fun n => n.kind != .basic || n.refs == []) = true := by decide +kernel
  have := List.all_eq_true.1 hall n (List.mem_of_getElem? hn)
  simpa [hk] using this

/-- Where C62 ends: a basic object that holds another object, as a `BinaryData` to whose value a struct was given, shares it with its deep copy. -/
theorem C62_counterexample :
    ∃ (h h' : Heap) (m : Memo) (x y : Nat), copyObj 5 [] h x = some (m, h', y) ∧ x ≠ y ∧ get h' x "_value" = some (.ref 0) ∧
      get h' y "_value" = some (.ref 0) :=
  ⟨[⟨.struct "Header", []⟩, ⟨.basic, [("_value", .ref 0)]⟩], _, _, 1, _, rfl, by decide, by decide +kernel, by decide +kernel⟩

/-- The one place where instances do share an object: the default value of the parameter `match` of `AggregateStatsRequest` is one `Match()`
for all calls.  After `x = AggregateStatsRequest(); y = AggregateStatsRequest(); x.match.in_port = 5` the attribute `y.match.in_port` is 5, and so it
is for every request made later. -/
theorem C50_counterexample :
    ∃ (h1 h2 h3 h4 : Heap) (x y z m : Nat) (args : List (String × Slot)),
      args = [("match", .ref 34), ("table_id", .prim (.int 255)), ("out_port", .prim (.int 65535))] ∧
      create importClasses 5 importHeap "AggregateStatsRequest" args = (h1, some x) ∧
      create importClasses 5 h1 "AggregateStatsRequest" args = (h2, some y) ∧ x ≠ y ∧
      get h2 x "match" = some (.ref m) ∧ get h2 m "in_port" ≠ some (.prim (.int 5)) ∧
      h3 = write h2 m "in_port" (.prim (.int 5)) ∧
      get h3 y "match" = some (.ref m) ∧ get h3 m "in_port" = some (.prim (.int 5)) ∧
      create importClasses 5 h3 "AggregateStatsRequest" args = (h4, some z) ∧
      get h4 z "match" = some (.ref m) ∧ get h4 m "in_port" = some (.prim (.int 5)) := by
  let args : List (String × Slot) := [("match", .ref 34), ("table_id", .prim (.int 255)), ("out_port", .prim (.int 65535))]
  let h1 := (create importClasses 5 importHeap "AggregateStatsRequest" args).1
  let h2 := (create importClasses 5 h1 "AggregateStatsRequest" args).1
  let h3 := write h2 34 "in_port" (.prim (.int 5))
  exact ⟨h1, h2, h3, (create importClasses 5 h3 "AggregateStatsRequest" args).1, 50, 70, 90, 34, args, rfl,
    by decide +kernel, by decide +kernel, by decide, by decide +kernel, by decide +kernel, rfl, by decide +kernel, by decide +kernel,
    by decide +kernel, by decide +kernel, by decide +kernel⟩

end Pyof.Props
