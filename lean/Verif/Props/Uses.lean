import Verif.Lemmas.ThreadsSize
import Verif.Props.History
/-!
# C76: `pack()` and `get_size()` called by several threads, on messages and on structures of their own
-/
namespace Pyof.Props
open Threads

private theorem named {m : PMsg} (hm : m ∈ messages) (h : Val) (vs : List Val) :
    pyPack libs (.obj m.cls.name (h :: vs)) = m.cls.pack (.obj m.cls.name (h :: vs)) ∧
    pySize libs (.obj m.cls.name (h :: vs)) = sizeAttrs m.cls.fields (h :: vs) := by
  have key : pyPack libs (.obj m.cls.name (h :: vs)) = m.cls.pack (.obj m.cls.name (h :: vs)) ∧
      libs.findSome? (fun l => l.named m.cls.name) = some m.cls := by
    unfold messages at hm
    repeat (
      rcases List.mem_cons.1 hm with rfl | hm
      · exact ⟨rfl, rfl⟩)
    cases hm
  refine ⟨key.1, ?_⟩
  simp only [pySize, key.2, (sizable_messages m hm).size, MsgCls.fields, sizeAttrs]
  cases (headerAttr m.cls.ver m.cls.types m.cls.code).size h with
  | error e => rfl
  | ok n => cases sizeAttrs m.cls.body vs <;> rfl

private theorem reply_msg {m : PMsg} (hm : m ∈ messages) {vs : List Val} (hl : vs.length = m.body.length + 1) (c : Call) :
    reply (m.cls.pack (.obj m.cls.name vs)) (sizeAttrs m.cls.fields vs) c = answer (.obj m.cls.name vs) c := by
  cases vs with
  | nil => simp at hl
  | cons h vs => cases c <;> simp only [reply, answer, (named hm h vs).1, (named hm h vs).2]

private theorem same_answer {m : PMsg} (hm : m ∈ messages) {v w : Val} (h : SameMsg m v w) (c : Call) : answer w c = answer v c := by
  have h1 := h.pack (slack_messages m hm)
  obtain ⟨vs, ws, hv, hw, h2⟩ := h.size (sizable_messages m hm)
  obtain ⟨a, b, us, us', rfl, rfl, _⟩ := h
  cases hv; cases hw
  cases c with
  | pack => simp only [answer, (named hm _ _).1, h1]
  | size => simp only [answer, (named hm _ _).2, h2]

private theorem used_msg {m : PMsg} (hm : m ∈ messages) {vs : List Val} (hl : vs.length = m.body.length + 1) {cs : List Call}
    (hn : Fair cs (.obj m.cls.name vs)) {ts : List (Prog Answer)} {w : Val} (hr : Runs (cs.map m.call, .obj m.cls.name vs) (ts, w)) :
    (∀ (i : Nat) c t, cs[i]? = some c → ts[i]? = some t → t = .ret (answer (.obj m.cls.name vs) c) ∨ CanStep t w) ∧
    (∃ w', Runs (ts, w) (cs.map fun c => .ret (answer (.obj m.cls.name vs) c), w')) ∧ SameMsg m (.obj m.cls.name vs) w := by
  obtain ⟨R, h0, ⟨hs, ho, hh⟩, hg⟩ := safe_messages m hm m.cls.name vs
  obtain ⟨h1, h2, D, rfl, hD⟩ := calls_runs (calls_message (sizable_messages m hm) hl h0 ho hh hg) hs hn hr
  simp only [reply_msg hm hl] at h1 h2
  exact ⟨h1, h2, sameMsg_own (slack_messages m hm) hl h0 ho hh hD⟩

private theorem used_same {m : PMsg} (hm : m ∈ messages) {v w : Val} (h : Used m v w) : SameMsg m v w := by
  induction h with
  | made vs hl =>
    cases vs with
    | nil => simp at hl
    | cons a vs => exact ⟨a, a, vs, vs, rfl, rfl, Or.inl rfl, by simpa using hl, .refl _⟩
  | changed i p c _ ih => exact ih.alter i p c
  | used _ hn hr ih =>
    refine ih.trans ?_
    obtain ⟨a, b, us, vs, _, rfl, _, hl, h3⟩ := ih
    exact (used_msg hm (by simp [← h3.1, hl]) hn hr).2.2

/-- A message has been changed, packed and measured in any order, by one thread or several, and calls have been given up.  Now threads call
`pack()` or `get_size()` on it, at most one of them `pack()` unless no ActionSetField needs padding, and their steps are mixed in any way:

* a thread that has finished has the packet or size (or exception) of the message that was only changed, never packed or measured,
* no thread is ever stuck, and all can be brought to their end,
* the same holds for the calls made afterwards.

Partial: not for the messages that replace their body while packing, and several threads that pack only while nothing needs padding. -/
theorem C76_messages_partial {m : PMsg} (hm : m ∈ messages) {v w : Val} (h : Used m v w) {cs : List Call} (hn : Fair cs w)
    {ts : List (Prog Answer)} {w' : Val} (hr : Runs (cs.map m.call, w) (ts, w')) :
    (∀ (i : Nat) c t, cs[i]? = some c → ts[i]? = some t → t = .ret (answer v c) ∨ CanStep t w') ∧
    (∃ w'', Runs (ts, w') (cs.map fun c => .ret (answer v c), w'')) ∧
    ∀ c, answer w' c = answer v c := by
  have hs := used_same hm h
  have hs' := used_same hm (h.used hn hr)
  have he := same_answer hm hs
  obtain ⟨a, b, us, vs, _, rfl, _, hl, h3⟩ := hs
  obtain ⟨h1, h2, _⟩ := used_msg hm (by simp [← h3.1, hl]) hn hr
  simp only [he] at h1 h2
  exact ⟨h1, h2, same_answer hm hs'⟩

private theorem alter_obj {c : String} {vs : List Val} {i : Nat} {p : Path} {k : Change} : ∃ us, alter (.obj c vs) (i :: p) k = .obj c us := ⟨_, rfl⟩

private theorem reply_part {a : PAttr} (h : Part a) (c : String) (vs : List Val) (k : Call) :
    reply (a.attr.pack (.obj c vs)) (a.attr.size (.obj c vs)) k = a.answer (.obj c vs) k := by
  cases k with
  | pack => rfl
  | size => simp only [reply, PAttr.answer, h.usize]

private theorem alone_part {a : PAttr} (ha : Part a) {v w : Val} (h : Alone a v w) :
    Eqv a.attr v w ∧ ∃ c vs ws, v = .obj c vs ∧ w = .obj c ws := by
  induction h with
  | made c vs => exact ⟨Eqv.refl _, c, vs, vs, rfl, rfl⟩
  | changed i p k _ ih =>
    obtain ⟨h1, c, vs, ws, rfl, rfl⟩ := ih
    exact ⟨h1.alter _ _, c, _, _, rfl, rfl⟩
  | used _ hn hr ih =>
    obtain ⟨h1, c, vs, ws, rfl, rfl⟩ := ih
    obtain ⟨_, _, D, rfl, hD⟩ := calls_runs (calls_part ha.safe _) ha.safe.once hn hr
    refine ⟨h1.trans (ha.slack _ _ hD), c, vs, overs ws D 0, rfl, over_obj (allowed_root (ha.safe.root _) hD)⟩

private theorem alone_answer {a : PAttr} (ha : Part a) {v w : Val} (h : Alone a v w) (k : Call) : a.answer w k = a.answer v k := by
  obtain ⟨h1, c, vs, ws, rfl, rfl⟩ := alone_part ha h
  obtain ⟨h2, h3, _⟩ := h1.obs
  cases k with
  | pack => simp only [PAttr.answer, h2]
  | size => simp only [PAttr.answer, ha.usize, h3]

/-- The same for structures that are not part of a message: matches, TLVs, actions, instructions, buckets, the elements of Hello, the properties of
tables, and the bodies of multipart messages that hold such. -/
theorem C76_structures_partial {a : PAttr} (ha : a ∈ structures) {v w : Val} (h : Alone a v w) {cs : List Call} (hn : Fair cs w)
    {ts : List (Prog Answer)} {w' : Val} (hr : Runs (cs.map a.call, w) (ts, w')) :
    (∀ (i : Nat) c t, cs[i]? = some c → ts[i]? = some t → t = .ret (a.answer v c) ∨ CanStep t w') ∧
    (∃ w'', Runs (ts, w') (cs.map fun c => .ret (a.answer v c), w'')) ∧
    ∀ c, a.answer w' c = a.answer v c := by
  have hp := part_structures a ha
  have hs := alone_answer hp (h.used hn hr)
  have he := alone_answer hp h
  obtain ⟨_, c, vs, ws, _, rfl⟩ := alone_part hp h
  obtain ⟨h1, h2, _⟩ := calls_runs (calls_part hp.safe (.obj c ws)) hp.safe.once hn hr
  simp only [reply_part hp, he] at h1 h2
  exact ⟨h1, h2, hs⟩

/-! ## Instances -/

/-- One thread packs a message with an action that needs padding, two others ask for its size. -/
example {ts : List (Prog Answer)} {w : Val} := C76_messages_partial (m := thPacketOut) (by simp [messages, thPacketOut]) (.made thPadded rfl)
  (cs := [.size, .pack, .size]) (Or.inl (by decide)) (ts := ts) (w' := w)

/-- A flow mod is packed and measured by four threads that may be given up, then its match is replaced, then four threads use it again. -/
example {ts ts' : List (Prog Answer)} {w w' : Val} (hr : Runs ([.pack, .size, .pack, .size].map thFlowMod.call, .obj "04.FlowMod" thFlow) (ts, w))
    (hn : NoPad (alter w [13] (.assign (.obj "04.Match" [.enum 1, .none, .list true []])))) :=
  C76_messages_partial (m := thFlowMod) (by simp [messages, thFlowMod])
    (((Used.made thFlow rfl).used (Or.inr (noPad_of _ (by decide +kernel))) hr).changed 13 [] (.assign (.obj "04.Match" [.enum 1, .none, .list true []])))
    (cs := [.pack, .size, .pack, .size]) (Or.inr hn) (ts := ts') (w' := w')

example : answer (.obj "04.PacketOut" thPadded) .pack = .bytes (.ok thGood) ∧ answer (.obj "04.PacketOut" thPadded) .size = .size (.ok 40) := by
  decide +kernel

/-- The size is asked for while the action has the length without padding, and the message is another one than at the start. -/
example : ∃ ts w, Runs ([.pack, .size].map thPacketOut.call, .obj "04.PacketOut" thPadded) (ts, w) ∧
    at? w [5, 0, 1] = some (.int 9) ∧ resultOf 0 (ts, w) = none ∧ resultOf 1 (ts, w) = some (.size (.ok 40)) :=
  run_find (List.replicate 57 0 ++ List.replicate 60 1) ([.pack, .size].map thPacketOut.call, .obj "04.PacketOut" thPadded) (fun c => at? c.2 [5, 0, 1] = some (.int 9) ∧ resultOf 0 c = none ∧
    resultOf 1 c = some (Answer.size (.ok 40))) (by decide +kernel)

/-- The features of a table with the ids of its instructions, one of which holds a list of actions. -/
def usFeatures : List Val := [.none, .int 1, .pad 5, .str ['t'], .int 0, .int 0, .int 0, .int 9,
  .list true [.obj "04.InstructionsProperty" [.enum 0, .none, .list true [.obj "04.InstructionApplyAction" [.enum 4, .none, .pad 4,
    .list true [.obj "04.ActionOutput" [.enum 0, .int 16, .int 3, .int 4, .pad 6]]]]]]]

example {ts : List (Prog Answer)} {w : Val} := C76_structures_partial (a := tableFeaturesP) (List.mem_of_getElem? (i := 7) rfl)
  (.made "04.TableFeatures" usFeatures) (cs := [.pack, .size, .pack]) (Or.inr (noPad_of _ (by decide +kernel))) (ts := ts) (w' := w)

example : ∃ b, tableFeaturesP.answer (.obj "04.TableFeatures" usFeatures) .pack = .bytes (.ok b) ∧ b.length = 92 ∧
    tableFeaturesP.answer (.obj "04.TableFeatures" usFeatures) .size = .size (.ok 92) :=
  ⟨(V04.tableFeatures.pack (.obj "04.TableFeatures" usFeatures)).toOption.getD [], by decide +kernel⟩

/-- A match that is packed, gets a field more and is packed again, each time while another thread asks for its size. -/
example {ts ts' : List (Prog Answer)} {w w' : Val}
    (hr : Runs ([.pack, .size].map matchP.call, .obj "04.Match" [.enum 1, .none, .list true []]) (ts, w)) :=
  C76_structures_partial (a := matchP) (List.mem_of_getElem? (i := 1) rfl)
    (((Alone.made "04.Match" [.enum 1, .none, .list true []]).used (Or.inl (by decide)) hr).changed 2 []
      (.items [.new (.obj "04.OxmTLV" [.enum 0x8000, .none, .none, .bytes [0, 0, 0, 1], .enum 0, .int 0])]))
    (cs := [.pack, .size]) (Or.inl (by decide)) (ts := ts') (w' := w')

end Pyof.Props
