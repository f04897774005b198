import Verif.Lemmas.ThreadsMsg
/-!
# C68: a message packed by several threads at once, or interrupted while it is packed
-/
namespace Pyof.Props
open Threads

/-- The programs of `pack()` are those of the message classes of the two libraries: each class is in exactly one of the tables. -/
theorem C68_classes :
    (∀ c, (∃ l ∈ libs, ∃ e ∈ l.classes, e.2.name = c) ↔
      c ∈ messages.map (fun m => m.cls.name) ++ replacing.map (fun m => m.cls.name) ++ ["01.ErrorMsg"]) ∧
    (messages.map (fun m => m.cls.name) ++ replacing.map (fun m => m.cls.name) ++ ["01.ErrorMsg"]).length = 52 := by
  refine ⟨?_, by decide +kernel⟩
  have h1 : ∀ c ∈ libs.flatMap (fun l => l.classes.map fun e => e.2.name),
      c ∈ messages.map (fun m => m.cls.name) ++ replacing.map (fun m => m.cls.name) ++ ["01.ErrorMsg"] := by decide +kernel
  have h2 : ∀ c ∈ messages.map (fun m => m.cls.name) ++ replacing.map (fun m => m.cls.name) ++ ["01.ErrorMsg"],
      c ∈ libs.flatMap (fun l => l.classes.map fun e => e.2.name) := by decide +kernel
  intro c
  constructor
  · rintro ⟨l, hl, e, he, rfl⟩
    exact h1 _ (List.mem_flatMap.2 ⟨l, hl, List.mem_map_of_mem (f := fun e => e.2.name) he⟩)
  · intro hc
    obtain ⟨l, hl, h⟩ := List.mem_flatMap.1 (h2 c hc)
    obtain ⟨e, he, rfl⟩ := List.mem_map.1 h
    exact ⟨l, hl, e, he, rfl⟩

private theorem named {m : PMsg} (hm : m ∈ messages) (vs : List Val) : pyPack libs (.obj m.cls.name vs) = m.cls.pack (.obj m.cls.name vs) := by
  unfold messages at hm
  repeat (
    rcases List.mem_cons.1 hm with rfl | hm
    · rfl)
  cases hm

private theorem named_replacing {m : RMsg} (hm : m ∈ replacing) (vs : List Val) :
    pyPack libs (.obj m.cls.name vs) = m.cls.pack (.obj m.cls.name vs) := by
  unfold replacing at hm
  repeat (
    rcases List.mem_cons.1 hm with rfl | hm
    · rfl)
  cases hm

/-! ## One thread, not interrupted -/

/-- A thread that packs a message alone ends with the packet (or exception) of `pack()`, so its steps are those of `pack()`. -/
theorem C68_alone {m : PMsg} (hm : m ∈ messages) (vs : List Val) :
    ∃ w, Runs ([m.steps], .obj m.cls.name vs) ([.ret (pyPack libs (.obj m.cls.name vs))], w) := by
  obtain ⟨R, _, _, hg⟩ := safe_messages m hm m.cls.name vs
  obtain ⟨a, K, h1, _, ha⟩ := exec_good (v := .obj m.cls.name vs) (R := R) m.steps allowed_none (hg _ _ _)
  rw [over_none] at h1
  rw [named hm, ← ha]
  exact ⟨_, exec_runs _ h1⟩

/-- The same for the messages that replace their body while packing; once the packet is there, all attributes but the header are what they were. -/
theorem C68_replacing_alone {m : RMsg} (hm : m ∈ replacing) (hdr : Val) (vs : List Val) (hl : vs.length = m.place) :
    ∃ hdr' ws, Runs ([m.steps], .obj m.cls.name (hdr :: vs)) ([.ret (pyPack libs (.obj m.cls.name (hdr :: vs)))], .obj m.cls.name (hdr' :: ws)) ∧
      ((∃ b, pyPack libs (.obj m.cls.name (hdr :: vs)) = .ok b) → ws = vs) := by
  obtain ⟨hdr', ws, h1, h2⟩ := replacing_alone hm m.cls.name hdr vs hl
  rw [named_replacing hm]
  exact ⟨hdr', ws, exec_runs _ h1, h2⟩

theorem C68_error_alone (hdr t c d : Val) :
    ∃ hdr' d', Runs ([errorSteps], .obj "01.ErrorMsg" [hdr, t, c, d]) ([.ret (pyPack libs (.obj "01.ErrorMsg" [hdr, t, c, d]))],
        .obj "01.ErrorMsg" [hdr', t, c, d']) ∧
      ((∃ b, pyPack libs (.obj "01.ErrorMsg" [hdr, t, c, d]) = .ok b) → d' = d) := by
  obtain ⟨hdr', d', h1, h2⟩ := error_alone "01.ErrorMsg" hdr t c d
  exact ⟨hdr', d', exec_runs _ h1, h2⟩

/-! ## One thread, interrupted -/

/-- `pack()` may be interrupted at any moment, by an exception it raises itself or by one from outside (`KeyboardInterrupt`, a signal handler,
the end of a thread): the next `pack()` returns (or raises) what it would have without the interrupted one. -/
theorem C68_interrupted_partial {m : PMsg} (hm : m ∈ messages) (vs : List Val) {ts : List (Prog (Res Bytes))} {w : Val}
    (h : Runs ([m.steps], .obj m.cls.name vs) (ts, w)) :
    (∃ ws, w = .obj m.cls.name ws) ∧ pyPack libs w = pyPack libs (.obj m.cls.name vs) := by
  obtain ⟨R, h0, _, hg⟩ := safe_messages m hm m.cls.name vs
  have hi : AloneInv (.obj m.cls.name vs) R (fun b => b = m.cls.pack (.obj m.cls.name vs)) [m.steps] (.obj m.cls.name vs) :=
    ⟨fun _ => none, m.steps, (over_none _).symm, allowed_none, rfl, hg _ _ _⟩
  obtain ⟨D, t, hw, hD, _, _⟩ := alone_runs h hi
  obtain ⟨⟨us, hus⟩, h2⟩ := same_pack (safe_messages m hm) h0 hg hD
  simp only at hw
  rw [← hw] at hus h2
  refine ⟨⟨us, hus⟩, ?_⟩
  rw [named hm, ← h2, hus, named hm]

/-! ## Several threads -/

/-- Any number of threads may pack the same message at once, however their steps are mixed, as long as no ActionSetField in it needs padding:

* each thread that has finished has the packet (or exception) that `pack()` alone gives,
* no thread is ever stuck, and all can be brought to their end,
* at each moment, the message packs to the same packet (or raises the same exception). -/
theorem C68_threads_partial {m : PMsg} (hm : m ∈ messages) (vs : List Val) (hn : NoPad (.obj m.cls.name vs)) (n : Nat)
    {ts : List (Prog (Res Bytes))} {w : Val} (h : Runs (List.replicate n m.steps, .obj m.cls.name vs) (ts, w)) :
    (∀ t ∈ ts, t = .ret (pyPack libs (.obj m.cls.name vs)) ∨ CanStep t w) ∧
    (∃ ts' w', Runs (ts, w) (ts', w') ∧ ∀ t ∈ ts', t = .ret (pyPack libs (.obj m.cls.name vs))) ∧
    pyPack libs w = pyPack libs (.obj m.cls.name vs) := by
  obtain ⟨R, h0, ⟨hs, _⟩, hg⟩ := safe_messages m hm m.cls.name vs
  have hi : SharedInv (.obj m.cls.name vs) R (fun b => b = m.cls.pack (.obj m.cls.name vs)) (List.replicate n m.steps) (.obj m.cls.name vs) :=
    ⟨fun _ => none, (over_none _).symm, allowed_none, fun t ht => ⟨fun _ => none, nofun, by rw [List.eq_of_mem_replicate ht]; exact hg _ _ _⟩⟩
  have hr : SharedInv _ R _ ts w := shared_runs (hs.single hn) h hi
  rw [named hm]
  refine ⟨?_, ?_, ?_⟩
  · intro t ht
    rcases shared_can hr ht with ⟨r, rfl, rfl⟩ | h
    · exact Or.inl rfl
    · exact Or.inr h
  · obtain ⟨ts', w', h1, h2⟩ := shared_all (hs.single hn) hr
    refine ⟨ts', w', h1, ?_⟩
    intro t ht
    have hr' : SharedInv _ R _ ts' w' := shared_runs (hs.single hn) h1 hr
    obtain ⟨r, rfl⟩ := h2 t ht
    rcases shared_can hr' ht with ⟨r', hr', rfl⟩ | ⟨c, hc⟩
    · exact hr'
    · cases hc
  · obtain ⟨D, hw, hD, _⟩ := hr
    obtain ⟨⟨us, hus⟩, h2⟩ := same_pack (safe_messages m hm) h0 hg hD
    rw [← hw] at hus h2
    rw [← h2, hus, named hm]

/-- Each thread comes to its end after finitely many of its steps: there is no infinite run of a thread. -/
theorem C68_ends {α : Type} (f : Nat → Prog α) (w : Nat → Val) (h : ∀ n, ∃ x, Step (f n, w n) (f (n + 1), x)) : False := by
  have main : ∀ (t : Prog α) n, f n = t → False := by
    intro t
    induction t with
    | ret a =>
      intro n hn
      obtain ⟨x, hx⟩ := h n
      rw [hn] at hx
      cases hx
    | get p k ih =>
      intro n hn
      obtain ⟨x, hx⟩ := h n
      rw [hn] at hx
      generalize hfn : f (n + 1) = t' at hx
      cases hx with
      | get hu => exact ih _ (n + 1) hfn
    | set p y k ih =>
      intro n hn
      obtain ⟨x, hx⟩ := h n
      rw [hn] at hx
      generalize hfn : f (n + 1) = t' at hx
      cases hx with
      | set => exact ih (n + 1) hfn
  exact main _ 0 rfl

/-! ### A case: threads that share a flow entry with a match, an output and a set-field action that needs no padding -/

def thHdr (v c : Nat) : Val := .obj (hdrName v) [.ub 1 (.int v), .enum c, .none, .int 7]

def thFlow : List Val := [thHdr 4 14, .int 1, .int 0, .int 0, .enum 0, .int 0, .int 0, .int 5, .int 0xffffffff, .int 1, .int 2, .enum 0, .pad 2,
  .obj "04.Match" [.enum 1, .int 99, .list true [.obj "04.OxmTLV" [.enum 0x8000, .none, .none, .bytes [0, 0, 0, 1], .enum 0, .int 0]]],
  .list true [.obj "04.InstructionApplyAction" [.enum 4, .none, .pad 4, .list true [.obj "04.ActionOutput" [.enum 0, .int 16, .int 3, .int 4, .pad 6],
    .obj "04.ActionSetField" [.enum 25, .none, .obj "04.OxmTLV" [.enum 0x8000, .none, .none, .bytes [1, 2, 3, 4, 5, 6, 7, 8], .enum 38, .int 0]]]]]]

def thFlowMod : PMsg := plainMsg [("match", matchP), ("instructions", instructionsP)] V04.flowMod

example : thFlowMod ∈ messages ∧ NoPad (.obj thFlowMod.cls.name thFlow) ∧ (pyPack libs (.obj thFlowMod.cls.name thFlow)).isOk = true :=
  ⟨by simp [messages, thFlowMod], noPad_of _ (by decide +kernel), by decide +kernel⟩

/-- After 160 turns both threads are still at work and the message has changed. -/
example : ∃ ts w, Runs ([thFlowMod.steps, thFlowMod.steps], .obj "04.FlowMod" thFlow) (ts, w) ∧ w ≠ .obj "04.FlowMod" thFlow ∧
    resultOf 0 (ts, w) = none ∧ resultOf 1 (ts, w) = none := by
  exact run_find ((List.replicate 100 [0, 1, 1]).flatten.take 160) _ (fun c => c.2 ≠ .obj "04.FlowMod" thFlow ∧ resultOf 0 c = none ∧
    resultOf 1 c = none) (by decide +kernel)

/-! ## What does not hold -/

def thPacketOut : PMsg := packetOutMsg V04.packetOut actionsP 4 6

def thPadded : List Val := [thHdr 4 13, .int 1, .int 1, .none, .pad 6,
  .list true [.obj "04.ActionSetField" [.enum 25, .none, .obj "04.OxmTLV" [.enum 0x8000, .none, .none, .bytes [9], .enum 10, .int 0]]], .bytes []]

def thGood : Bytes :=
  [4, 13, 0, 40, 0, 0, 0, 7, 0, 0, 0, 1, 0, 0, 0, 1, 0, 16, 0, 0, 0, 0, 0, 0, 0, 25, 0, 16, 128, 0, 20, 1, 9, 0, 0, 0, 0, 0, 0, 0]

def thBad : Bytes := [4, 13, 0, 40, 0, 0, 0, 7, 0, 0, 0, 1, 0, 0, 0, 1, 0, 16, 0, 0, 0, 0, 0, 0, 0, 25, 0, 9, 128, 0, 20, 1, 9]

/-- An ActionSetField that needs padding: `_update_length` stores the length without padding first.  If one thread has done that when the
other one packs the length, the other one returns a packet that ends inside the action and is shorter than its header says. -/
theorem C68_padding_counterexample :
    ∃ (m : PMsg) (vs : List Val) (ts : List (Prog (Res Bytes))) (w : Val) (good bad : Bytes), m ∈ messages ∧
      Runs ([m.steps, m.steps], .obj m.cls.name vs) (ts, w) ∧ pyPack libs (.obj m.cls.name vs) = .ok good ∧
      ts[0]? = some (.ret (.ok bad)) ∧ good.length = 40 ∧ bad.length = 33 ∧ slice bad 2 4 = be 2 40 := by
  obtain ⟨ts, w, h1, h2⟩ := run_find (List.replicate 58 0 ++ List.replicate 57 1 ++ List.replicate 100 0)
    ([thPacketOut.steps, thPacketOut.steps], .obj thPacketOut.cls.name thPadded) (fun c => resultOf 0 c = some (.ok thBad)) (by decide +kernel)
  exact ⟨thPacketOut, thPadded, ts, w, thGood, thBad, by simp [thPacketOut, messages], h1, by decide +kernel, resultOf_some h2, by decide, by decide,
    by decide⟩

def thMultipart : RMsg := ⟨V04.multipartRequest, 4, pyTrue⟩

def thMeter : List Val := [thHdr 4 18, .enum 9, .int 0, .pad 4, .obj "04.MeterMultipartRequest" [.int 1, .pad 4]]

def thError : List Val := [thHdr 1 1, .enum 1, .int 0, .bin (.bytes [1, 2])]

/-- Two threads that pack the same multipart request: the second one may find the packed body in place of the body and raise
UnboundLocalError. -/
theorem C68_multipart_counterexample :
    ∃ (m : RMsg) (vs : List Val) (ts : List (Prog (Res Bytes))) (w : Val), m ∈ replacing ∧ m.cls.name = "04.MultipartRequest" ∧
      Runs ([m.steps, m.steps], .obj m.cls.name vs) (ts, w) ∧ (pyPack libs (.obj m.cls.name vs)).isOk = true ∧
      ts[1]? = some (.ret (.error .unboundLocal)) := by
  obtain ⟨ts, w, h1, h2⟩ := run_find (List.replicate 3 0 ++ List.replicate 100 1) ([thMultipart.steps, thMultipart.steps], .obj thMultipart.cls.name thMeter)
    (fun c => resultOf 1 c = some (.error .unboundLocal)) (by decide +kernel)
  exact ⟨thMultipart, thMeter, ts, w, by simp [thMultipart, replacing], rfl, h1, by decide +kernel, resultOf_some h2⟩

/-- Two threads that pack the same error message of v0x01: the second one may find bytes where it expects an object with a `pack` method. -/
theorem C68_error_counterexample :
    ∃ (vs : List Val) (ts : List (Prog (Res Bytes))) (w : Val),
      Runs ([errorSteps, errorSteps], .obj "01.ErrorMsg" vs) (ts, w) ∧ (pyPack libs (.obj "01.ErrorMsg" vs)).isOk = true ∧
      ts[0]? = some (.ret (.error .attribute)) := by
  obtain ⟨ts, w, h1, h2⟩ := run_find (List.replicate 2 0 ++ List.replicate 5 1 ++ List.replicate 100 0)
    ([errorSteps, errorSteps], .obj "01.ErrorMsg" thError) (fun c => resultOf 0 c = some (.error .attribute)) (by decide +kernel)
  exact ⟨thError, ts, w, h1, by decide +kernel, resultOf_some h2⟩

/-- A body for each of the other messages that replace it. -/
def thBody : List (String × List Val) :=
  [("01.StatsRequest", [thHdr 1 16, .enum 4, .int 0, .obj "01.PortStatsRequest" [.int 1, .pad 6]]),
   ("01.StatsReply", [thHdr 1 17, .enum 2, .int 0, .obj "01.AggregateStatsReply" [.int 1, .int 2, .int 3, .pad 4]]),
   ("04.MultipartRequest", [thHdr 4 18, .enum 9, .int 0, .pad 4, .obj "04.MeterMultipartRequest" [.int 1, .pad 4]]),
   ("04.MultipartReply", [thHdr 4 19, .enum 2, .int 0, .pad 4, .obj "04.AggregateStatsReply" [.int 1, .int 2, .int 3, .pad 4]])]

/-- The body is not the one of `vs`, which packs. -/
private def Changed (m : RMsg) (vs : List Val) (c : List (Prog (Res Bytes)) × Val) : Prop :=
  (pyPack libs (.obj m.cls.name vs)).isOk = true ∧ at? c.2 [m.place] ≠ at? (.obj m.cls.name vs) [m.place]

private def BothDone (m : RMsg) (vs : List Val) (c : List (Prog (Res Bytes)) × Val) : Prop :=
  (resultOf 0 c).isSome = true ∧ (resultOf 1 c).isSome = true ∧ c.1.length = 2 ∧ Changed m vs c

private instance (m : RMsg) (vs : List Val) (c : List (Prog (Res Bytes)) × Val) : Decidable (Changed m vs c) := by unfold Changed; infer_instance
private instance (m : RMsg) (vs : List Val) (c : List (Prog (Res Bytes)) × Val) : Decidable (BothDone m vs c) := by unfold BothDone; infer_instance

/-- In each of these classes two threads can both return the right packet (or the second one raise) and leave the packed body behind for
good. -/
theorem C68_body_lost_counterexample {m : RMsg} (hm : m ∈ replacing) :
    ∃ (vs : List Val) (ts : List (Prog (Res Bytes))) (w : Val), Runs ([m.steps, m.steps], .obj m.cls.name vs) (ts, w) ∧
      (pyPack libs (.obj m.cls.name vs)).isOk = true ∧ (∀ t ∈ ts, Finished t) ∧ at? w [m.place] ≠ at? (.obj m.cls.name vs) [m.place] := by
  have hall : ∀ m ∈ replacing, ∀ vs, thBody.lookup m.cls.name = some vs →
      BothDone m vs (turns (List.replicate 3 0 ++ List.replicate 1 1 ++ List.replicate 100 0 ++ List.replicate 100 1) ([m.steps, m.steps], .obj m.cls.name vs)) := by
    intro m hm vs hv
    simp only [replacing, List.mem_cons, List.not_mem_nil, or_false] at hm
    rcases hm with rfl | rfl | rfl | rfl <;> (cases hv; decide +kernel)
  have hv : ∃ vs, thBody.lookup m.cls.name = some vs := by
    simp only [replacing, List.mem_cons, List.not_mem_nil, or_false] at hm
    rcases hm with rfl | rfl | rfl | rfl <;> exact ⟨_, rfl⟩
  obtain ⟨vs, hv⟩ := hv
  obtain ⟨ts, w, hr, h0, h1, h2, h3, h4⟩ := run_find _ _ (BothDone m vs) (hall m hm vs hv)
  refine ⟨vs, ts, w, hr, h3, ?_, h4⟩
  obtain ⟨r0, h0⟩ := Option.isSome_iff_exists.1 h0
  obtain ⟨r1, h1⟩ := Option.isSome_iff_exists.1 h1
  have e0 := resultOf_some h0
  have e1 := resultOf_some h1
  intro t ht
  obtain ⟨i, hi⟩ := List.mem_iff_getElem?.1 ht
  match i with
  | 0 => rw [e0] at hi; cases hi; exact ⟨_, rfl⟩
  | 1 => rw [e1] at hi; cases hi; exact ⟨_, rfl⟩
  | i + 2 =>
    have hl := (List.getElem?_eq_some_iff.1 hi).1
    have h2 : ts.length = 2 := h2
    omega

/-- Interrupting such a message after its body was replaced leaves the packed body behind. -/
theorem C68_interrupted_counterexample {m : RMsg} (hm : m ∈ replacing) :
    ∃ (vs : List Val) (ts : List (Prog (Res Bytes))) (w : Val), Runs ([m.steps], .obj m.cls.name vs) (ts, w) ∧
      (pyPack libs (.obj m.cls.name vs)).isOk = true ∧ at? w [m.place] ≠ at? (.obj m.cls.name vs) [m.place] := by
  have hall : ∀ m ∈ replacing, ∀ vs, thBody.lookup m.cls.name = some vs →
      Changed m vs (turns (List.replicate 3 0) ([m.steps], .obj m.cls.name vs)) := by
    intro m hm vs hv
    simp only [replacing, List.mem_cons, List.not_mem_nil, or_false] at hm
    rcases hm with rfl | rfl | rfl | rfl <;> (cases hv; decide +kernel)
  have hv : ∃ vs, thBody.lookup m.cls.name = some vs := by
    simp only [replacing, List.mem_cons, List.not_mem_nil, or_false] at hm
    rcases hm with rfl | rfl | rfl | rfl <;> exact ⟨_, rfl⟩
  obtain ⟨vs, hv⟩ := hv
  obtain ⟨ts, w, hr, h3, h4⟩ := run_find _ _ (Changed m vs) (hall m hm vs hv)
  exact ⟨vs, ts, w, hr, h3, h4⟩

/-! ## Instances -/

example := C68_alone (m := thFlowMod) (by simp [messages, thFlowMod]) thFlow
example := C68_replacing_alone (m := thMultipart) (by simp [thMultipart, replacing]) (thHdr 4 18) (thMeter.drop 1) rfl
example {ts : List (Prog (Res Bytes))} {w : Val} := C68_interrupted_partial (m := thFlowMod) (by simp [messages, thFlowMod]) thFlow (ts := ts) (w := w)
example {ts : List (Prog (Res Bytes))} {w : Val} := C68_threads_partial (m := thFlowMod) (by simp [messages, thFlowMod]) thFlow
  (noPad_of _ (by decide +kernel)) 5 (ts := ts) (w := w)

end Pyof.Props
