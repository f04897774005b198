import Verif.Lemmas.Sharing
import Verif.Props.Threads
/-!
# C71: messages that share objects
-/
namespace Pyof.Props
open Threads

private theorem named {m : PMsg} (hm : m ∈ messages) (vs : List Val) : pyPack libs (.obj m.cls.name vs) = m.cls.pack (.obj m.cls.name vs) := by
  unfold messages at hm
  repeat (
    rcases List.mem_cons.1 hm with rfl | hm
    · rfl)
  cases hm

/-- Message `i` of the list. -/
def messageAt (ms : List (PMsg × List Val)) (i : Nat) : Val := (at? (world ms) [i]).getD .none

private theorem messageAt_eq {ms : List (PMsg × List Val)} {i : Nat} {e : PMsg × List Val} (hi : ms[i]? = some e) :
    messageAt ms i = .obj e.1.cls.name e.2 := by
  simp only [messageAt, world, at?, world_get hi, Option.getD_some]

private theorem still {ms : List (PMsg × List Val)} (hm : ∀ e ∈ ms, e.1 ∈ messages) {Rs : Nat → Path → Val → Prop} {D : Done}
    (hD : Allowed (inWorld Rs) D) {i : Nat} {e : PMsg × List Val} (hi : ms[i]? = some e) (h0 : ∀ x, ¬ Rs i [] x)
    (hg : ∀ M le K, Good ⟨.obj e.1.cls.name e.2, Rs i, M, le, (· = [0, 2]), fun _ => False⟩ e.1.steps K (fun _ b => b = e.1.cls.pack (.obj e.1.cls.name e.2))) :
    ∃ us, at? (over (world ms) D) [i] = some (.obj e.1.cls.name us) ∧
      pyPack libs (.obj e.1.cls.name us) = pyPack libs (.obj e.1.cls.name e.2) := by
  have he := hm e (List.mem_of_getElem? hi)
  obtain ⟨⟨us, hus⟩, h2⟩ := same_pack (safe_messages e.1 he) h0 hg (allowed_inside hD i)
  refine ⟨us, ?_, ?_⟩
  · rw [world, at?_world (inWorld_none hD) (world_get hi), hus]; rfl
  · rw [hus] at h2
    rw [named he, named he, h2]

private theorem rounds {ms : List (PMsg × List Val)} (hm : ∀ e ∈ ms, e.1 ∈ messages ∧ Whole e) {pairs : List (Path × Path)}
    (hp : ∀ e ∈ pairs, Sharable ms e.1 e.2) :
    ∃ Rs : Nat → Path → Val → Prop, Setting pairs true (ms.map fun e => Val.obj e.1.cls.name e.2) Rs ∧
      (∀ (i : Nat) e, ms[i]? = some e → (∀ x, ¬ Rs i [] x) ∧
        ∀ M le K, Good ⟨.obj e.1.cls.name e.2, Rs i, M, le, (· = [0, 2]), fun _ => False⟩ e.1.steps K (fun _ b => b = e.1.cls.pack (.obj e.1.cls.name e.2))) ∧
      ∀ {w0 : Val}, Rounds pairs ms w0 → ∀ {idx : List Nat}, (∀ i ∈ idx, i < ms.length) → PadsApart pairs (world ms) idx →
        ∀ {ts : List (Prog (Res Bytes))} {w : Val}, SRuns pairs (idx.map (packing ms), w0) (ts, w) →
        SInv true (ms.map fun e => Val.obj e.1.cls.name e.2) Rs idx (fun k b => ∀ i, idx[k]? = some i → b = pyPack libs (messageAt ms i)) ts w := by
  obtain ⟨Rs, hRs⟩ := world_rules (ms := ms) (fun e he => (hm e he).1)
  have hR : ∀ i e, ms[i]? = some e → (∀ x, ¬ Rs i [] x) ∧ Own e.1 e.2 (Rs i) := fun i e he => ⟨((hRs i).2 e he).1, ((hRs i).2 e he).2.2.1⟩
  have hS : Setting pairs true (ms.map fun e => Val.obj e.1.cls.name e.2) Rs := by
    refine ⟨world_closed (fun e he => (hm e he).2) hp hR, fun e he => sharable_at (fun e he => (hm e he).2) hR (hp e he), fun i _ => header_apart hp i, ?_⟩
    intro i u hu
    rw [List.getElem?_map] at hu
    cases he : ms[i]? with
    | none => rw [he] at hu; cases hu
    | some e => rw [he] at hu; cases hu; exact ((hRs i).2 e he).2.1
  have start : ∀ {D} {idx : List Nat}, (∀ i ∈ idx, i < ms.length) → Allowed (inWorld Rs) D →
      SInv true (ms.map fun e => Val.obj e.1.cls.name e.2) Rs idx (fun k b => ∀ i, idx[k]? = some i → b = pyPack libs (messageAt ms i))
        (idx.map (packing ms)) (over (world ms) D) := by
    intro D idx hidx hD
    refine ⟨D, rfl, hD, ?_⟩
    intro k t ht
    rw [List.getElem?_map] at ht
    cases hk : idx[k]? with
    | none => rw [hk] at ht; cases ht
    | some i =>
      rw [hk] at ht
      have he : ms[i]? = some (ms[i]'(hidx _ (List.mem_of_getElem? hk))) := List.getElem?_eq_getElem _
      simp only [Option.map_some, packing, he, Option.some.injEq] at ht
      subst ht
      refine ⟨i, _, fun _ => none, _, rfl, world_get he, rfl, nofun, (((hRs i).2 _ he).2.2.2 _ _ _).mono ?_⟩
      rintro _ b rfl j hj
      rw [hk] at hj; cases hj
      rw [messageAt_eq he, named (hm _ (List.mem_of_getElem? he)).1]
  refine ⟨Rs, hS, fun i e he => ⟨((hRs i).2 e he).1, ((hRs i).2 e he).2.2.2⟩, ?_⟩
  intro w0 h0 idx hidx hP ts w h
  have main : ∃ D, w0 = over (world ms) D ∧ Allowed (inWorld Rs) D := by
    clear h
    induction h0 with
    | start => exact ⟨fun _ => none, (over_none _).symm, allowed_none⟩
    | round _ hi hQ hr ih =>
      obtain ⟨D, rfl, hD⟩ := ih
      obtain ⟨D', h1, h2, _⟩ := sruns hS hQ hr (start hi hD)
      exact ⟨D', h1, h2⟩
  obtain ⟨D, rfl, hD⟩ := main
  exact sruns hS hP h (start hidx hD)

/-- Any number of threads may pack messages that share objects, each thread one of them, however their steps are mixed, as long as no
ActionSetField that needs padding is in the messages of two threads.  `idx` says which message each thread packs, `pairs` which objects are shared.
Other threads may have packed the messages before, to the end or not.

* each thread that has finished has the packet (or exception) that `pack()` of its message gives when nothing is shared and no other thread runs,
* no thread is ever stuck, and all can be brought to their end,
* at each moment, each message packs to the same packet (or raises the same exception). -/
theorem C71_threads_partial {ms : List (PMsg × List Val)} (hm : ∀ e ∈ ms, e.1 ∈ messages ∧ Whole e)
    {pairs : List (Path × Path)} (hp : ∀ e ∈ pairs, Sharable ms e.1 e.2) {w₀ : Val} (h₀ : Rounds pairs ms w₀)
    {idx : List Nat} (hidx : ∀ i ∈ idx, i < ms.length) (hP : PadsApart pairs (world ms) idx)
    {ts : List (Prog (Res Bytes))} {w : Val} (h : SRuns pairs (idx.map (packing ms), w₀) (ts, w)) :
    (∀ (k i : Nat) t, idx[k]? = some i → ts[k]? = some t → t = .ret (pyPack libs (messageAt ms i)) ∨ CanSStep pairs t w) ∧
    (∃ w', SRuns pairs (ts, w) (idx.map fun i => .ret (pyPack libs (messageAt ms i)), w')) ∧
    (∀ i, i < ms.length → ∃ u, at? w [i] = some u ∧ pyPack libs u = pyPack libs (messageAt ms i)) := by
  obtain ⟨Rs, hS, hRs, hall⟩ := rounds hm hp
  have hr := hall h₀ hidx hP h
  refine ⟨?_, ?_, ?_⟩
  · intro k i t hk ht
    rcases scan (pairs := pairs) hr ht with ⟨r, rfl, hq⟩ | h
    · rw [hq i hk]; exact Or.inl rfl
    · exact Or.inr h
  · obtain ⟨ts', w', h1, h2, h3⟩ := sall hS hP hr
    have hr' := sruns hS hP h1 hr
    have hlen : ts.length = idx.length := by simpa using h.length
    refine ⟨w', ?_⟩
    have : ts' = idx.map fun i => .ret (pyPack libs (messageAt ms i)) := by
      refine List.ext_getElem? ?_
      intro k
      rw [List.getElem?_map]
      cases hk : ts'[k]? with
      | none =>
        rw [List.getElem?_eq_none_iff] at hk
        rw [List.getElem?_eq_none (by omega)]; rfl
      | some t =>
        have hkl := (List.getElem?_eq_some_iff.1 hk).1
        have hki : idx[k]? = some (idx[k]'(by omega)) := List.getElem?_eq_getElem (by omega)
        rw [hki]
        obtain ⟨r, rfl⟩ := h3 t (List.mem_of_getElem? hk)
        rcases scan (pairs := pairs) hr' hk with ⟨r', hrr, hq⟩ | ⟨c, hc⟩
        · cases hrr
          rw [hq _ hki]; rfl
        · cases hc
    rw [← this]; exact h1
  · intro i hi
    obtain ⟨D, rfl, hD, _⟩ := hr
    have he : ms[i]? = some (ms[i]'hi) := List.getElem?_eq_getElem hi
    obtain ⟨us, h1, h2⟩ := still (fun e he => (hm e he).1) hD he (hRs i _ he).1 (hRs i _ he).2
    exact ⟨_, h1, by rw [h2, messageAt_eq he]⟩

/-- Messages that share objects, or have the same object several times, may be packed one after the other, in any order and any number of
times, each completely or interrupted, with or without padding: packing a message returns the packet (or raises the exception) that it gives when
nothing is shared, and no object is left changed in a way that would show in a packet. -/
theorem C71_one_by_one {ms : List (PMsg × List Val)} (hm : ∀ e ∈ ms, e.1 ∈ messages ∧ Whole e)
    {pairs : List (Path × Path)} (hp : ∀ e ∈ pairs, Sharable ms e.1 e.2) {w : Val} (h : Packs pairs ms w) :
    (∀ i, i < ms.length → ∃ u, at? w [i] = some u ∧ pyPack libs u = pyPack libs (messageAt ms i)) ∧
    (∀ i, i < ms.length → ∀ ts w', SRuns pairs ([packing ms i], w) (ts, w') →
      ∃ t, ts = [t] ∧ (t = .ret (pyPack libs (messageAt ms i)) ∨ CanSStep pairs t w')) := by
  have hr : Rounds pairs ms w := by
    induction h with
    | start => exact .start
    | @pack w w' ts i _ hi hs ih => exact .round (idx := [i]) ih (by simpa using hi) (padsApart_one i) hs
  constructor
  · exact (C71_threads_partial hm hp hr (idx := []) nofun (fun _ _ _ _ _ _ h => by simp at h) (.refl _)).2.2
  · intro i hi ts w' hs
    have hT := (C71_threads_partial hm hp hr (idx := [i]) (by simpa using hi) (padsApart_one i) hs).1
    have hl := hs.length
    match ts, hl with
    | [t], _ => exact ⟨t, rfl, hT 0 i t rfl rfl⟩

/-- Each thread comes to its end after finitely many of its steps. -/
theorem C71_ends {α : Type} {pairs : List (Path × Path)} (f : Nat → Prog α) (w : Nat → Val)
    (h : ∀ n, ∃ x, SStep pairs (f n, w n) (f (n + 1), x)) : False := by
  have main : ∀ (t : Prog α) n, f n = t → False := by
    intro t
    induction t with
    | ret a =>
      intro n hn
      obtain ⟨x, hx⟩ := h n
      rw [hn] at hx
      cases hx
    | get p k ih =>
      intro n hn
      obtain ⟨x, hx⟩ := h n
      rw [hn] at hx
      generalize hfn : f (n + 1) = t' at hx
      cases hx with
      | get hu => exact ih _ (n + 1) hfn
    | set p y k ih =>
      intro n hn
      obtain ⟨x, hx⟩ := h n
      rw [hn] at hx
      generalize hfn : f (n + 1) = t' at hx
      cases hx with
      | set => exact ih (n + 1) hfn
  exact main _ 0 rfl

/-! ### A case: two flow entries that share their match and their instructions, and a packet out that shares the actions of the instruction -/

def shFlow : List Val := [.obj (hdrName 4) [.ub 1 (.int 4), .enum 14, .none, .int 8], .int 2] ++ thFlow.drop 2

def shOut : List Val := [thHdr 4 13, .int 1, .int 1, .none, .pad 6,
  .list true [.obj "04.ActionOutput" [.enum 0, .int 16, .int 3, .int 4, .pad 6],
    .obj "04.ActionSetField" [.enum 25, .none, .obj "04.OxmTLV" [.enum 0x8000, .none, .none, .bytes [1, 2, 3, 4, 5, 6, 7, 8], .enum 38, .int 0]]],
  .bytes [1, 2]]

def shMsgs : List (PMsg × List Val) := [(thFlowMod, thFlow), (thFlowMod, shFlow), (thPacketOut, shOut)]

def shPairs : List (Path × Path) := [([0, 13], [1, 13]), ([0, 14], [1, 14]), ([0, 14, 0, 3], [2, 5])]

theorem shPairs_ok : ∀ e ∈ shPairs, Sharable shMsgs e.1 e.2 := by
  intro e he
  simp only [shPairs, List.mem_cons, List.not_mem_nil, or_false] at he
  rcases he with rfl | rfl | rfl
  · exact ⟨0, 1, [13], [13], _, _, matchP, _, rfl, rfl, rfl, rfl, .attr rfl (by decide) rfl, .attr rfl (by decide) rfl⟩
  · exact ⟨0, 1, [14], [14], _, _, instructionsP, _, rfl, rfl, rfl, rfl, .attr rfl (by decide) rfl, .attr rfl (by decide) rfl⟩
  · exact ⟨0, 2, [14, 0, 3], [5], _, _, actionsP, _, rfl, rfl, rfl, rfl,
      .field (n := "actions") (i := 1) (.item (p := [14]) (k := 0) (.attr (n := "instructions") (a := instructionsP) rfl (by decide) rfl) rfl nofun) rfl rfl (by decide) rfl,
      .attr rfl (by decide) rfl⟩

theorem shMsgs_ok : ∀ e ∈ shMsgs, e.1 ∈ messages ∧ Whole e ∧ NoPad (.obj e.1.cls.name e.2) := by
  intro e he
  simp only [shMsgs, List.mem_cons, List.not_mem_nil, or_false] at he
  rcases he with rfl | rfl | rfl
  · exact ⟨by simp [messages, thFlowMod], rfl, noPad_of _ (by decide +kernel)⟩
  · exact ⟨by simp [messages, thFlowMod], rfl, noPad_of _ (by decide +kernel)⟩
  · exact ⟨by simp [messages, thPacketOut], rfl, noPad_of _ (by decide +kernel)⟩

theorem shPairs_names : Names shPairs (swaps shPairs) := swaps_names _ (by decide) (by decide)

/-- Four threads pack the three messages, the second one twice. -/
example : ∀ {ts w}, SRuns shPairs ([0, 1, 2, 1].map (packing shMsgs), world shMsgs) (ts, w) →
    ∀ t, ts[2]? = some t → t = .ret (pyPack libs (.obj "04.PacketOut" shOut)) ∨ CanSStep shPairs t w :=
  fun h t ht => (C71_threads_partial (fun e he => ⟨(shMsgs_ok e he).1, (shMsgs_ok e he).2.1⟩) shPairs_ok .start (by decide)
    (padsApart_none (fun e he => (shMsgs_ok e he).2.2) _) h).1 2 2 t rfl ht

/-- After 200 turns of two threads that pack the first flow entry and the packet out, the second flow entry, which nobody packs, has changed. -/
example : ∃ ts w, SRuns shPairs ([0, 2].map (packing shMsgs), world shMsgs) (ts, w) ∧ at? w [1] ≠ some (.obj "04.FlowMod" shFlow) ∧
    resultOf 0 (ts, w) = none := by
  exact srun_find shPairs_names ((List.replicate 100 [0, 1]).flatten.take 200) _
    (fun c => at? c.2 [1] ≠ some (.obj "04.FlowMod" shFlow) ∧ resultOf 0 c = none) (by decide +kernel)

example : ∀ {w}, Packs shPairs shMsgs w → ∃ u, at? w [1] = some u ∧ pyPack libs u = pyPack libs (.obj "04.FlowMod" shFlow) :=
  fun h => (C71_one_by_one (fun e he => ⟨(shMsgs_ok e he).1, (shMsgs_ok e he).2.1⟩) shPairs_ok h).1 1 (by decide)

/-- An action that has to be padded, twice in one packet out and once in another. -/
def shTwice : List (PMsg × List Val) :=
  [(thPacketOut, thPadded), (thPacketOut, thPadded.set 5 (.list true (List.replicate 2
    (.obj "04.ActionSetField" [.enum 25, .none, .obj "04.OxmTLV" [.enum 0x8000, .none, .none, .bytes [9], .enum 10, .int 0]]))))]

def shTwicePairs : List (Path × Path) := [([0, 5, 0], [1, 5, 0]), ([0, 5, 0], [1, 5, 1])]

theorem shTwice_ok : (∀ e ∈ shTwice, e.1 ∈ messages ∧ Whole e) ∧ ∀ e ∈ shTwicePairs, Sharable shTwice e.1 e.2 := by
  constructor
  · intro e he
    simp only [shTwice, List.mem_cons, List.not_mem_nil, or_false] at he
    rcases he with rfl | rfl <;> exact ⟨by simp [messages, thPacketOut], rfl⟩
  · intro e he
    simp only [shTwicePairs, List.mem_cons, List.not_mem_nil, or_false] at he
    rcases he with rfl | rfl
    · exact ⟨0, 1, [5, 0], [5, 0], _, _, actionP, _, rfl, rfl, rfl, rfl,
        .item (p := [5]) (k := 0) (.attr (n := "actions") (a := actionsP) rfl (by decide) rfl) rfl nofun,
        .item (p := [5]) (k := 0) (.attr (n := "actions") (a := actionsP) rfl (by decide) rfl) rfl nofun⟩
    · exact ⟨0, 1, [5, 0], [5, 1], _, _, actionP, _, rfl, rfl, rfl, rfl,
        .item (p := [5]) (k := 0) (.attr (n := "actions") (a := actionsP) rfl (by decide) rfl) rfl nofun,
        .item (p := [5]) (k := 1) (.attr (n := "actions") (a := actionsP) rfl (by decide) rfl) rfl nofun⟩

example {w : Val} (h : Packs shTwicePairs shTwice w) {ts : List (Prog (Res Bytes))} {w' : Val} (hr : SRuns shTwicePairs ([packing shTwice 1], w) (ts, w')) :
    ∃ t, ts = [t] ∧ (t = .ret (pyPack libs (messageAt shTwice 1)) ∨ CanSStep shTwicePairs t w') :=
  (C71_one_by_one shTwice_ok.1 shTwice_ok.2 h).2 1 (by decide) ts w' hr

example : ((pyPack libs (messageAt shTwice 1)).toOption.map List.length) = some 56 := by decide +kernel

/-- Two packet outs that have an output action in common, and each an action of its own that has to be padded. -/
def shOwn : List (PMsg × List Val) := [9, 10].map fun b => (thPacketOut, thPadded.set 5 (.list true
  [.obj "04.ActionOutput" [.enum 0, .int 16, .int 3, .int 4, .pad 6],
    .obj "04.ActionSetField" [.enum 25, .none, .obj "04.OxmTLV" [.enum 0x8000, .none, .none, .bytes [b], .enum 10, .int 0]]]))

def shOwnPairs : List (Path × Path) := [([0, 5, 0], [1, 5, 0])]

theorem shOwn_ok : (∀ e ∈ shOwn, e.1 ∈ messages ∧ Whole e) ∧ (∀ e ∈ shOwnPairs, Sharable shOwn e.1 e.2) ∧ PadsApart shOwnPairs (world shOwn) [0, 1] := by
  refine ⟨?_, ?_, padsApart_of (swaps_names shOwnPairs (by decide) (by decide)) (by decide +kernel) (by decide +kernel)⟩
  · intro e he
    simp only [shOwn, List.mem_map] at he
    obtain ⟨k, _, rfl⟩ := he
    exact ⟨by simp [messages, thPacketOut], rfl⟩
  · intro e he
    simp only [shOwnPairs, List.mem_cons, List.not_mem_nil, or_false] at he
    subst he
    exact ⟨0, 1, [5, 0], [5, 0], _, _, actionP, _, rfl, rfl, rfl, rfl,
      .item (p := [5]) (k := 0) (.attr (n := "actions") (a := actionsP) rfl (by decide) rfl) rfl nofun,
      .item (p := [5]) (k := 0) (.attr (n := "actions") (a := actionsP) rfl (by decide) rfl) rfl nofun⟩

example : ¬ (∀ e ∈ shOwn, padsIn (.obj e.1.cls.name e.2) = false) ∧ pads (world shOwn) = [[0, 5, 1], [1, 5, 1]] := by decide +kernel

example {w : Val} (hw : Rounds shOwnPairs shOwn w) {ts : List (Prog (Res Bytes))} {w' : Val}
    (hr : SRuns shOwnPairs ([packing shOwn 0, packing shOwn 1], w) (ts, w')) :
    ∃ w'', SRuns shOwnPairs (ts, w') ([.ret (pyPack libs (messageAt shOwn 0)), .ret (pyPack libs (messageAt shOwn 1))], w'') :=
  (C71_threads_partial shOwn_ok.1 shOwn_ok.2.1 hw (idx := [0, 1]) (by decide) shOwn_ok.2.2 hr).2.1

/-! ## What does not hold -/

def shPadded : List (PMsg × List Val) := [(thPacketOut, thPadded), (thPacketOut, thHdr 4 13 :: .int 9 :: thPadded.drop 2)]

def shAction : List (Path × Path) := [([0, 5, 0], [1, 5, 0])]

/-- Two threads pack two packet outs that have one action in common, an ActionSetField that needs padding.  The first may return a packet that
ends inside the action and is shorter than its header says. -/
theorem C71_padding_counterexample :
    ∃ (ms : List (PMsg × List Val)) (pairs : List (Path × Path)) (ts : List (Prog (Res Bytes))) (w : Val) (good bad : Bytes),
      (∀ e ∈ ms, e.1 ∈ messages ∧ Whole e) ∧ (∀ e ∈ pairs, Sharable ms e.1 e.2) ∧
      SRuns pairs ([0, 1].map (packing ms), world ms) (ts, w) ∧ pyPack libs (messageAt ms 0) = .ok good ∧
      ts[0]? = some (.ret (.ok bad)) ∧ good.length = 40 ∧ bad.length = 33 ∧ slice bad 2 4 = be 2 40 := by
  obtain ⟨ts, w, h1, h2⟩ := srun_find (pairs := shAction) (swaps_names _ (by decide) (by decide)) (List.replicate 58 0 ++ List.replicate 57 1 ++ List.replicate 100 0)
    ([0, 1].map (packing shPadded), world shPadded) (fun c => resultOf 0 c = some (.ok thBad)) (by decide +kernel)
  refine ⟨shPadded, shAction, ts, w, thGood, thBad, ?_, ?_, h1, by decide +kernel, resultOf_some h2, by decide, by decide, by decide⟩
  · intro e he
    simp only [shPadded, List.mem_cons, List.not_mem_nil, or_false] at he
    rcases he with rfl | rfl <;> exact ⟨by simp [messages, thPacketOut], rfl⟩
  · intro e he
    simp only [shAction, List.mem_cons, List.not_mem_nil, or_false] at he
    subst he
    exact ⟨0, 1, [5, 0], [5, 0], _, _, actionP, _, rfl, rfl, rfl, rfl,
      .item (p := [5]) (k := 0) (.attr (n := "actions") (a := actionsP) rfl (by decide) rfl) rfl nofun,
      .item (p := [5]) (k := 0) (.attr (n := "actions") (a := actionsP) rfl (by decide) rfl) rfl nofun⟩

end Pyof.Props
