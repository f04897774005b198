import Verif.Lemmas.Trace
import Verif.Props.Threads
/-!
# C73: packing between changes leaves no trace
-/
namespace Pyof.Props
open Threads

private theorem named {m : PMsg} (hm : m ∈ messages) (vs : List Val) : pyPack libs (.obj m.cls.name vs) = m.cls.pack (.obj m.cls.name vs) := by
  unfold messages at hm
  repeat (
    rcases List.mem_cons.1 hm with rfl | hm
    · rfl)
  cases hm

private theorem packed_same {m : PMsg} (hm : m ∈ messages) {vs : List Val} (hl : vs.length = m.body.length + 1) {n : Nat}
    (hn : n ≤ 1 ∨ NoPad (.obj m.cls.name vs)) {ts : List (Prog (Res Bytes))} {w : Val}
    (hr : Runs (List.replicate n m.steps, .obj m.cls.name vs) (ts, w)) : SameMsg m (.obj m.cls.name vs) w := by
  obtain ⟨R, h0, ⟨hs, ho, hh⟩, hg⟩ := safe_messages m hm m.cls.name vs
  obtain ⟨D, hw, hD⟩ : ∃ D, w = over (.obj m.cls.name vs) D ∧ Allowed R D := by
    by_cases h2 : NoPad (.obj m.cls.name vs)
    · have hi : SharedInv (.obj m.cls.name vs) R (fun b => b = m.cls.pack (.obj m.cls.name vs)) (List.replicate n m.steps) (.obj m.cls.name vs) :=
        ⟨fun _ => none, (over_none _).symm, allowed_none, fun t ht => ⟨fun _ => none, nofun, by rw [List.eq_of_mem_replicate ht]; exact hg _ _ _⟩⟩
      obtain ⟨D, hw, hD, _⟩ := shared_runs (hs.single h2) hr hi
      exact ⟨D, hw, hD⟩
    · match n, hn.resolve_right h2, hr with
      | 0, _, hr =>
        have : ∀ c : List (Prog (Res Bytes)) × Val, Runs ([], .obj m.cls.name vs) c → c = ([], .obj m.cls.name vs) := by
          intro c hc
          induction hc with
          | refl => rfl
          | step _ s ih =>
            subst ih
            cases s with
            | mk hi _ => simp at hi
        cases this _ hr
        exact ⟨fun _ => none, (over_none _).symm, allowed_none⟩
      | 1, _, hr =>
        have hi : AloneInv (.obj m.cls.name vs) R (fun b => b = m.cls.pack (.obj m.cls.name vs)) [m.steps] (.obj m.cls.name vs) :=
          ⟨fun _ => none, m.steps, (over_none _).symm, allowed_none, rfl, hg _ _ _⟩
        obtain ⟨D, t, hw, hD, _, _⟩ := alone_runs hr hi
        exact ⟨D, hw, hD⟩
  rw [hw]
  exact sameMsg_own (slack_messages m hm) hl h0 ho hh hD

private theorem history_same {m : PMsg} (hm : m ∈ messages) {v w : Val} (h : History m v w) : SameMsg m v w := by
  induction h with
  | made vs hl =>
    cases vs with
    | nil => simp at hl
    | cons a vs => exact ⟨a, a, vs, vs, rfl, rfl, Or.inl rfl, by simpa using hl, .refl _⟩
  | changed i p c _ ih => exact ih.alter i p c
  | packed _ hn hr ih =>
    refine ih.trans ?_
    obtain ⟨a, b, us, vs, _, rfl, _, hl, h3⟩ := ih
    exact packed_same hm (by simp [← h3.1, hl]) hn hr

/-- A message may be packed as often as one likes between changes, by one thread or by several, and each `pack()` may raise or be given up at any
moment: it packs to the packet (or exception) that it would give if it had only been changed and never packed before.

Partial: not for the messages that replace their body while packing (`C73_replaced_counterexample`; `C73_returning` has them), and several threads
at once only while no ActionSetField needs padding. -/
theorem C73_history_partial {m : PMsg} (hm : m ∈ messages) {v w : Val} (h : History m v w) : pyPack libs w = pyPack libs v := by
  have := history_same hm h
  obtain ⟨a, b, us, vs, rfl, rfl, _⟩ := this
  rw [named hm, named hm]
  exact ((history_same hm h).pack (slack_messages m hm)).symm

/-- The threads that pack it then give that too: none is ever stuck, and those that end have the packet (or exception) of the message that was
only changed. -/
theorem C73_threads_partial {m : PMsg} (hm : m ∈ messages) {v w : Val} (h : History m v w) {n : Nat} (hn : n ≤ 1 ∨ NoPad w)
    {ts : List (Prog (Res Bytes))} {w' : Val} (hr : Runs (List.replicate n m.steps, w) (ts, w')) :
    ∀ t ∈ ts, t = .ret (pyPack libs v) ∨ CanStep t w' := by
  have hp := C73_history_partial hm h
  obtain ⟨a, b, us, vs, _, rfl, _, hl, h3⟩ := history_same hm h
  by_cases h2 : NoPad (.obj m.cls.name (b :: vs))
  · rw [← hp]
    exact (C68_threads_partial hm _ h2 n hr).1
  · obtain ⟨R, h0, _, hg⟩ := safe_messages m hm m.cls.name (b :: vs)
    intro t ht
    match n, hn.resolve_right h2, hr with
    | 0, _, hr =>
      have : ∀ c : List (Prog (Res Bytes)) × Val, Runs ([], .obj m.cls.name (b :: vs)) c → c.1 = [] := by
        intro c hc
        induction hc with
        | refl => rfl
        | @step c c' _ s ih =>
          obtain ⟨cs, cw⟩ := c
          simp only at ih
          subst ih
          cases s with
          | mk hi _ => simp at hi
      have := this _ hr
      simp only at this
      subst this; cases ht
    | 1, _, hr =>
      have hi : AloneInv (.obj m.cls.name (b :: vs)) R (fun r => r = m.cls.pack (.obj m.cls.name (b :: vs))) [m.steps] (.obj m.cls.name (b :: vs)) :=
        ⟨fun _ => none, m.steps, (over_none _).symm, allowed_none, rfl, hg _ _ _⟩
      obtain ⟨D, t', hw, hD, h4, h5⟩ := alone_runs hr hi
      simp only at hw h4
      subst hw; subst h4
      simp only [List.mem_singleton] at ht
      subst ht
      cases t with
      | ret r => left; rw [← hp, named hm]; exact congrArg _ h5
      | get p k =>
        obtain ⟨u, hu, _⟩ := h5 D rfl hD
        exact Or.inr ⟨_, .get hu⟩
      | set p x k => exact Or.inr ⟨_, .set⟩

private theorem class_named {l : Lib} (hl : l ∈ libs) {k : Nat} {m : MsgCls} (hm : (k, m) ∈ l.classes) (vs : List Val) :
    pyPack libs (.obj m.name vs) = m.pack (.obj m.name vs) ∧ pyPost libs (.obj m.name vs) = m.post (.obj m.name vs) := by
  simp only [libs, List.mem_cons, List.not_mem_nil, or_false] at hl
  rcases hl with rfl | rfl
  · unfold V01.lib at hm
    simp only at hm
    repeat (
      rcases List.mem_cons.1 hm with h | hm
      · cases h; exact ⟨rfl, rfl⟩)
    cases hm
  · unfold V04.lib at hm
    simp only at hm
    repeat (
      rcases List.mem_cons.1 hm with h | hm
      · cases h; exact ⟨rfl, rfl⟩)
    cases hm

private def altersTop : List (Nat × Path × Change) → Val → Val
  | [], v => v
  | (i, p, c) :: es, v => altersTop es (alter v (i :: p) c)

/-- Every message of either version, also those that replace their body while packing: it may be packed as often as one likes between changes, if
each `pack()` returns.  It packs to the packet (or exception) that it would give if it had only been changed and never packed before. -/
theorem C73_returning {l : Lib} (hl : l ∈ libs) {k : Nat} {m : MsgCls} (hm : (k, m) ∈ l.classes) {v w : Val} (h : Sequel m.name v w) :
    pyPack libs w = pyPack libs v := by
  obtain ⟨S, h1, h2, h3⟩ : TraceMsg m := by
    simp only [libs, List.mem_cons, List.not_mem_nil, or_false] at hl
    rcases hl with rfl | rfl
    · exact trace_messages01 _ hm
    · exact trace_messages04 _ hm
  have run : ∀ es v w, S v w → m.pack (altersTop es v) = m.pack (altersTop es w) := by
    intro es
    induction es with
    | nil => exact h1
    | cons e es ih => exact fun v w h => ih _ _ (h2 v w _ _ _ h)
  have main : (∀ es, m.pack (altersTop es v) = m.pack (altersTop es w)) ∧ (∃ vs, v = .obj m.name vs) ∧ ∃ vs, w = .obj m.name vs := by
    induction h with
    | made vs => exact ⟨fun _ => rfl, ⟨vs, rfl⟩, ⟨vs, rfl⟩⟩
    | changed i p c _ ih =>
      obtain ⟨h4, ⟨vs, rfl⟩, ⟨ws, rfl⟩⟩ := ih
      exact ⟨fun es => h4 ((i, p, c) :: es), ⟨_, rfl⟩, ⟨_, rfl⟩⟩
    | packed _ _ ih =>
      obtain ⟨h4, h5, ⟨ws, rfl⟩⟩ := ih
      rw [(class_named hl hm ws).2]
      refine ⟨fun es => (h4 es).trans (run es _ _ (h3 ws)), h5, ?_⟩
      cases ws with
      | nil => exact ⟨[], rfl⟩
      | cons a ws =>
        obtain ⟨h', vs', h6, _⟩ := post_shape m m.name a ws
        exact ⟨_, h6⟩
  obtain ⟨h4, ⟨vs, rfl⟩, ⟨ws, rfl⟩⟩ := main
  rw [(class_named hl hm vs).1, (class_named hl hm ws).1]
  exact (h4 []).symm

/-! ### A case: a flow entry is packed, gets another action and a match field, loses the action, and is packed by two threads -/

def hiFirst : Val := alter (.obj "04.FlowMod" thFlow) [14, 0, 3] (.items [.old 1, .new (.obj "04.ActionOutput" [.enum 0, .int 16, .int 9, .int 4, .pad 6]), .old 0])

def hiSecond (v : Val) : Val := alter (alter v [13, 2, 0, 3] (.assign (.bytes [0, 0, 0, 7]))) [14, 0, 3] (.items [.old 2])

/-- The packets before, between and after the changes differ. -/
example : (pyPack libs (.obj "04.FlowMod" thFlow)).isOk = true ∧ (pyPack libs hiFirst).isOk = true ∧ (pyPack libs (hiSecond hiFirst)).isOk = true ∧
    pyPack libs hiFirst ≠ pyPack libs (.obj "04.FlowMod" thFlow) ∧ pyPack libs (hiSecond hiFirst) ≠ pyPack libs hiFirst ∧
    pyPack libs (hiSecond hiFirst) ≠ pyPack libs (.obj "04.FlowMod" thFlow) := by decide +kernel

/-- Whatever packing has done to `w` before the second change. -/
example {w : Val} {ts : List (Prog (Res Bytes))} (hr : Runs (List.replicate 1 thFlowMod.steps, .obj "04.FlowMod" thFlow) (ts, w)) :
    History thFlowMod (hiSecond (.obj "04.FlowMod" thFlow)) (hiSecond w) :=
  .changed 14 _ _ (.changed 13 _ _ (.packed (.made thFlow (by decide +kernel)) (Or.inl (Nat.le_refl 1)) hr))

example {w : Val} {ts : List (Prog (Res Bytes))} (hr : Runs (List.replicate 1 thFlowMod.steps, .obj "04.FlowMod" thFlow) (ts, w)) :
    pyPack libs (hiSecond w) = pyPack libs (hiSecond (.obj "04.FlowMod" thFlow)) :=
  C73_history_partial (m := thFlowMod) (by simp [messages, thFlowMod])
    (.changed 14 _ _ (.changed 13 _ _ (.packed (.made thFlow (by decide +kernel)) (Or.inl (Nat.le_refl 1)) hr)))

/-- The message that was packed is not the one that was not, even after the changes: old lengths are still in it. -/
example : ∃ ts w, Runs (List.replicate 1 thFlowMod.steps, .obj "04.FlowMod" thFlow) (ts, w) ∧ hiSecond w ≠ hiSecond (.obj "04.FlowMod" thFlow) := by
  exact run_find (List.replicate 400 0) _ (fun c => hiSecond c.2 ≠ hiSecond (.obj "04.FlowMod" thFlow)) (by decide +kernel)

/-- A statistics request for a port is packed and asks for another port then. -/
example {b : Bytes} (hb : pyPack libs (.obj "01.StatsRequest" [thHdr 1 16, .enum 4, .int 0, .obj "01.PortStatsRequest" [.int 1, .pad 6]]) = .ok b) :=
  C73_returning (l := V01.lib) (by simp [libs]) (k := 16) (m := V01.statsRequest) (by simp [V01.lib]) (.changed 3 [0] (.assign (.int 2)) (.packed (.made _) hb))

example : (pyPack libs (.obj "01.StatsRequest" [thHdr 1 16, .enum 4, .int 0, .obj "01.PortStatsRequest" [.int 1, .pad 6]])).isOk = true ∧
    alter (pyPost libs (.obj "01.StatsRequest" [thHdr 1 16, .enum 4, .int 0, .obj "01.PortStatsRequest" [.int 1, .pad 6]])) [3, 0] (.assign (.int 2)) =
      .obj "01.StatsRequest" [.obj "01.Header" [.ub 1 (.int 1), .enum 16, .int 20, .int 7], .enum 4, .int 0, .obj "01.PortStatsRequest" [.int 2, .pad 6]] := by
  decide +kernel

/-- A table features request is packed; then a property of the table gets an instruction and is packed again; then it loses it. -/
def hiTables : Val :=
  .obj "04.MultipartRequest" [thHdr 4 18, .ub 2 (.enum 12), .enum 0, .pad 4,
    .list true [.obj "04.TableFeatures" [.int 0, .int 3, .pad 5, .str "t".toList, .int 0, .int 0, .int 0, .int 9,
      .list true [.obj "04.InstructionsProperty" [.enum 0, .int 0, .list true []]]]]]

def hiGrow (v : Val) : Val := alter v [4, 0, 8, 0, 2] (.items [.new (.obj "04.InstructionGotoTable" [.enum 1, .int 8, .int 4, .pad 3])])
def hiShrink (v : Val) : Val := alter v [4, 0, 8, 0, 2] (.items [])

example {b b' : Bytes} (hb : pyPack libs hiTables = .ok b) (hb' : pyPack libs (hiGrow (pyPost libs hiTables)) = .ok b') :
    pyPack libs (hiShrink (pyPost libs (hiGrow (pyPost libs hiTables)))) = pyPack libs (hiShrink (hiGrow hiTables)) :=
  C73_returning (l := V04.lib) (by simp [libs]) (k := 18) (m := V04.multipartRequest) (by simp [V04.lib])
    (.changed 4 [0, 8, 0, 2] (.items []) (.packed (.changed 4 [0, 8, 0, 2] _ (.packed (.made _) hb)) hb'))

/-- Both are packed, to packets of different lengths, and lengths of the longer one are still there when the instruction is gone. -/
example : (pyPack libs hiTables).isOk = true ∧ (pyPack libs (hiGrow (pyPost libs hiTables))).isOk = true ∧
    (pyPack libs hiTables).map List.length ≠ (pyPack libs (hiGrow (pyPost libs hiTables))).map List.length ∧
    at? (hiShrink (pyPost libs (hiGrow (pyPost libs hiTables)))) [4, 0, 8, 0, 1] = some (.int 12) ∧
    at? (hiShrink (hiGrow hiTables)) [4, 0, 8, 0, 1] = some (.int 0) := by
  decide +kernel

/-! ## What does not hold -/

def hiWrong : List Val := [thHdr 4 18, .enum 9, .int 65536, .pad 4, .obj "04.MeterMultipartRequest" [.int 1, .pad 4]]

/-- A multipart request whose flags do not fit: `pack()` raises, then the flags are corrected.  It packs if `pack()` had not been called before;
now it raises UnboundLocalError, as the packed body is still there in place of the body. -/
theorem C73_replaced_counterexample :
    ∃ (m : RMsg) (vs : List Val) (w : Val), m ∈ replacing ∧ m.cls.name = "04.MultipartRequest" ∧
      (∃ ts, Runs ([m.steps], .obj m.cls.name vs) (ts, w) ∧ ts[0]? = some (.ret (.error .pack))) ∧
      (pyPack libs (alter (.obj m.cls.name vs) [2] (.assign (.int 0)))).isOk = true ∧
      pyPack libs (alter w [2] (.assign (.int 0))) = .error .unboundLocal := by
  obtain ⟨ts, w, h1, h2, h3⟩ := run_find (List.replicate 100 0) ([thMultipart.steps], .obj thMultipart.cls.name hiWrong)
    (fun c => resultOf 0 c = some (.error .pack) ∧ pyPack libs (alter c.2 [2] (.assign (.int 0))) = .error .unboundLocal) (by decide +kernel)
  exact ⟨thMultipart, hiWrong, w, by simp [thMultipart, replacing], rfl, ⟨ts, h1, resultOf_some h2⟩, by decide +kernel, h3⟩

end Pyof.Props
