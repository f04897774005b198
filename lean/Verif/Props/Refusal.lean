import Verif.Lemmas.RefuseV04
import Verif.Props.Structures
import Verif.Props.Ctor
import Verif.Props.Bodies
/-!
# C66: what does not fit is refused with PackException, and with nothing else
-/
namespace Pyof.Props
open Pyof.Spec

/-- What `pack()` of a message of format `s` with transaction id `x` and content `d` is to do: return the packet if the body
can be encoded and the length and the transaction id fit in their fields, and raise `PackException` in every other case. -/
def outcome (s : MsgFmt) (x : Nat) (d : Data) : Res Bytes :=
  match s.fmt.enc d with
  | some body => if 8 + body.length < 65536 ∧ x < 4294967296 then .ok (packet s.ver s.code x body) else .error .pack
  | none => .error .pack

private theorem outcome_of {s x d r} (h : PackOk s x d r) (ho : OnlyPack r) : r = outcome s x d := by
  unfold outcome
  cases r with
  | ok p =>
    obtain ⟨body, h1, h2, h3, rfl⟩ := (h.ok p).mp rfl
    simp only [h1]
    rw [if_pos ⟨h2, h3⟩]
  | error e =>
    cases ho e rfl
    split
    · rename_i body hb
      split
      · rename_i hf
        have := (h.ok _).mpr ⟨body, hb, hf.1, hf.2, rfl⟩
        cases this
      · rfl
    · rfl

private theorem known_refuse {s} (hs : s ∈ messages) (h1 : s.name ≠ "01.PacketOut") (h4 : s.name ≠ "04.PacketOut") :
    ∃ l m, Known s l m ∧ MsgRefuse m s := by
  rcases List.mem_append.mp hs with h | h
  · obtain ⟨m, k⟩ := known_v01 h
    obtain ⟨m', h2, h3⟩ := V01.messages_refuse s h h1
    cases Option.some.inj (k.find.symm.trans h2)
    exact ⟨_, _, k, h3⟩
  · obtain ⟨m, k⟩ := known_v04 h
    obtain ⟨m', h2, h3⟩ := V04.messages_refuse s h h4
    cases Option.some.inj (k.find.symm.trans h2)
    exact ⟨_, _, k, h3⟩

/-- C66.  `pack()` of any message but PacketOut whose attributes have a meaning (numbers of any size, addresses, texts, lists of such structures)
returns the packet or raises `PackException`; which of the two is settled by whether everything fits. -/
theorem C66_messages {s : MsgFmt} (hs : s ∈ messages) (h1 : s.name ≠ "01.PacketOut") (h4 : s.name ≠ "04.PacketOut") {v : Val} {x : Nat} {d : Data}
    (hv : msgDen s v = some (x, d)) : pyPack libs v = outcome s x d := by
  obtain ⟨l, m, k, hr⟩ := known_refuse hs h1 h4
  obtain ⟨hdr, vs, rfl, hh, hd⟩ := msgDen_inv hv
  rw [k.pyPack_eq]
  refine outcome_of (k.ok.pack _ x d hv) ?_
  obtain ⟨a, t, l', y, rfl, _⟩ := hdrDen_inv hh
  have := hr a t l' y vs d hd
  rw [k.ok.hdr, ← k.ok.ver]
  exact this

/-- The input ports a PacketOut may name in the two versions. -/
def inPortAllowed (ver p : Nat) : Prop :=
  if ver = 1 then (0 < p ∧ p ≤ 0xff00) ∨ p = 0xfffd ∨ p = 0xfffe ∨ p = 0xffff
  else (0 < p ∧ p ≤ 0xffffff00) ∨ p = 0xfffffffd ∨ p = 0xfffffffe ∨ p = 0xffffffff

/-- C66.  PacketOut: a bad input port is a `ValidationError`, whatever else is wrong; with a good one it is as for all the others. -/
theorem C66_packetOut {s : MsgFmt} (hs : s ∈ messages) (hn : s.name = "01.PacketOut" ∨ s.name = "04.PacketOut") {v : Val} {x : Nat} {d : Data}
    (hv : msgDen s v = some (x, d)) :
    ∃ b p r, d = .record (.num b :: .num p :: r) ∧
      (¬ inPortAllowed s.ver p → pyPack libs v = .error .validation) ∧ (inPortAllowed s.ver p → pyPack libs v = outcome s x d) := by
  have h2 : messages.filter (fun s => decide (s.name = "01.PacketOut" ∨ s.name = "04.PacketOut")) =
      [⟨"01.PacketOut", 1, 13, "01.Header", Spec.V01.packetOut⟩, ⟨"04.PacketOut", 4, 13, "04.Header", Spec.V04.packetOut⟩] := by rfl
  have h3 : s ∈ messages.filter (fun s => decide (s.name = "01.PacketOut" ∨ s.name = "04.PacketOut")) := by
    rw [List.mem_filter]; exact ⟨hs, by simpa using hn⟩
  obtain ⟨l, m, k⟩ := known hs
  obtain ⟨hdr, vs, rfl, hh, hd⟩ := msgDen_inv hv
  rw [k.pyPack_eq]
  have hp := k.ok.pack _ x d hv
  obtain ⟨a, t, l', y, rfl, _⟩ := hdrDen_inv hh
  rw [h2] at h3
  simp only [List.mem_cons, List.not_mem_nil, or_false] at h3
  rcases h3 with rfl | rfl
  · have hm : m = V01.packetOut := (Option.some.inj (k.named.symm.trans (by rfl)) : m = V01.packetOut)
    subst hm
    obtain ⟨b, p, r, rfl, h5, h6⟩ := V01.packetOut_refuse (a := a) (t := t) (l := l') (x := y) hd
    refine ⟨b, p, r, rfl, fun h => h6 fun h7 => h ?_, fun h => outcome_of hp (h5 ?_)⟩
    · unfold inPortAllowed; rw [if_pos rfl]; exact h7
    · unfold inPortAllowed at h; rw [if_pos rfl] at h; exact h
  · have hm : m = V04.packetOut := (Option.some.inj (k.named.symm.trans (by rfl)) : m = V04.packetOut)
    subst hm
    obtain ⟨b, p, r, rfl, h5, h6⟩ := V04.packetOut_refuse (a := a) (t := t) (l := l') (x := y) hd
    refine ⟨b, p, r, rfl, fun h => h6 fun h7 => h ?_, fun h => outcome_of hp (h5 ?_)⟩
    · unfold inPortAllowed; rw [if_neg (by decide)]; exact h7
    · unfold inPortAllowed at h; rw [if_neg (by decide)] at h; exact h

/-- Numbers too big for their field, and an input port that does not exist: the queues of port 65536, a PacketOut of OpenFlow 1.3 from port
0 whose buffer id is too big as well, and from port 1. -/
def exRefusedPort : Val :=
  .obj "01.QueueGetConfigRequest" [.obj "01.Header" [.ub 1 (.int 1), .enum 20, .none, .int 7], .int 65536, .pad 2]
def exRefusedPacketOut (p : Int) : Val :=
  .obj "04.PacketOut" [.obj "04.Header" [.ub 1 (.int 4), .enum 13, .none, .int 7], .int 0x100000000, .int p, .none, .pad 6, .list false [], .bytes []]

example : pyPack libs (exRefusedPacketOut 0) = .error .validation ∧ pyPack libs (exRefusedPacketOut 1) = .error .pack := by decide +kernel
example : ∃ d, msgDen ⟨"04.PacketOut", 4, 13, "04.Header", Spec.V04.packetOut⟩ (exRefusedPacketOut 0) = some (7, d) ∧
    ∃ r, d = .record (.num 0x100000000 :: .num 0 :: r) ∧ ¬ inPortAllowed 4 0 :=
  ⟨_, rfl, _, rfl, by unfold inPortAllowed; decide⟩
example : ∃ d, msgDen (Spec.V01.plain "01.QueueGetConfigRequest" 20 [("port", Spec.V01.u16), ("pad", pad 2)]) exRefusedPort = some (7, d) :=
  ⟨_, rfl⟩
example : pyPack libs exRefusedPort = .error .pack := by decide +kernel

/-! ## Structures -/

private theorem structures_refuse : ∀ e ∈ structures, Refuse e.attr e.fmt := by
  have a1 := V01.match_refuse
  have a2 := V01.phyPorts_refuse
  have a3 := V01.queueProps_refuse
  have a4 := V01.action_refuse
  have a5 := V01.actions_refuse
  have a6 := V01.queues_refuse
  have b1 := V04.oxm_refuse
  have b2 := V04.oxms_refuse
  have b3 := V04.match_refuse
  have b4 := V04.action_refuse
  have b5 := V04.actions_refuse
  have b6 := V04.instruction_refuse
  have b7 := V04.instructions_refuse
  have b8 := V04.property_refuse
  have b9 := V04.properties_refuse
  have b10 := V04.tableFeatures_refuse
  have b11 := V04.helloElem_refuse
  have b12 := V04.helloElems_refuse
  have b13 : Refuse V04.bandStatsList (Spec.list Spec.V04.bandStats) := refuse_list (refuse_struct (by refuse_fields)) itemOk_struct
  have b14 := V04.meterStats_refuse
  have b15 := V04.bucket_refuse
  have b16 := V04.buckets_refuse
  have b17 : Refuse V04.bucketCounters (Spec.list Spec.V04.bucketCounter) := refuse_list (refuse_struct (by refuse_fields)) itemOk_struct
  have b18 := V04.band_refuse
  have b19 := V04.bands_refuse
  have b20 := V04.flowStats_refuse
  have b21 : Refuse V04.queueProps (Spec.list Spec.V04.queuePropHeader) := refuse_list (refuse_struct (by refuse_fields)) itemOk_struct
  have b22 : Refuse V04.ports (Spec.list Spec.V04.port) := refuse_list (refuse_struct (by refuse_fields)) itemOk_struct
  intro e he
  unfold structures at he
  repeat (rcases List.mem_cons.1 he with rfl | he; · first
    | assumption
    | exact refuse_struct (by refuse_fields)
    | exact Refuse.delimited (Refuse.cut (refuse_struct (by refuse_fields)) 0) 0)
  cases he

/-- C66.  The same for every structure and list class on its own: `pack()` of an object whose attributes have a meaning returns its encoding
or raises `PackException`, and `get_size()` raises nothing. -/
theorem C66_structures {e : Entry} (he : e ∈ structures) {v : Val} {d : Data} (hv : e.fmt.den v = some d) :
    e.attr.pack v = (match e.fmt.enc d with | some b => .ok b | none => .error .pack) ∧ ∃ n, e.attr.size v = .ok n := by
  have h := structures_refuse e he
  refine ⟨?_, h.size v d hv⟩
  have h1 := (structures_good e he).1.pack v d hv
  have h2 := h.pack v d hv
  cases hp : e.attr.pack v with
  | ok b => rw [(h1 b).mp hp]
  | error x =>
    rw [hp] at h2
    cases h2 x rfl
    split
    · rename_i b hb; rw [(h1 b).mpr hb] at hp; cases hp
    · rfl

example : ∃ d, Spec.V04.oxm.den (.obj "04.OxmTLV" [.enum 0x8000, .none, .none, .bytes [1], .int 40, .int 0]) = some d ∧ Spec.V04.oxm.enc d = none :=
  ⟨_, rfl, rfl⟩
example : V04.oxm.pack (.obj "04.OxmTLV" [.enum 0x8000, .none, .none, .bytes [1], .int 40, .int 0]) = .error .pack := by decide +kernel

/-! ## Values that are no structures -/

/-- The classes at the head of a family (their instances pack themselves), and OxmTLV. -/
def families : List String :=
  ["01.ActionHeader", "04.ActionHeader", "04.Instruction", "04.OxmTLV", "04.Property", "04.MeterBandHeader"]

/-- C66.  Packing anything that is neither `None` nor a structure (a number, text, bytes, list, ...) by a structure class raises `PackException`. -/
theorem C66_no_structure : ∀ p ∈ ("01.Match", V01.«match») :: structureAttrs.map (fun p => (p.1.cls, p.2)), p.1 ∉ families →
    ∀ v, v ≠ .none → (∀ c vs, v ≠ .obj c vs) → p.2.pack v = .error .pack := by
  intro p hp hf v h1 h2
  unfold structureAttrs at hp
  simp only [List.map_cons, List.map_nil] at hp
  cases v
  case none => exact absurd rfl h1
  case obj => exact absurd rfl (h2 _ _)
  all_goals
    repeat (rcases List.mem_cons.1 hp with rfl | hp; · first | rfl | exact absurd (by decide) hf)
    cases hp

/-- A list where an OpenFlow 1.0 match is needed. -/
example : V01.«match».pack (.list true [.int 1]) = .error .pack :=
  C66_no_structure ("01.Match", V01.«match») (by simp) (by decide) _ nofun nofun

/-- C66.  Asking a structure class for the size of such a value raises `PackException` too, also for `OxmTLV`; `Match` of
OpenFlow 1.3 is the exception, with `ValueError` (`Bucket.get_size` does not look at its argument). -/
theorem C66_no_structure_size : ∀ p ∈ ("01.Match", V01.«match») :: structureAttrs.map (fun p => (p.1.cls, p.2)),
    p.1 ∉ "04.Bucket" :: families ∨ p.1 = "04.OxmTLV" → ∀ v, v ≠ .none → (∀ c vs, v ≠ .obj c vs) → p.2.size v = .error (if p.1 = "04.Match" then .value else .pack) := by
  intro p hp hf v h1 h2
  unfold structureAttrs at hp
  simp only [List.map_cons, List.map_nil] at hp
  cases v
  case none => exact absurd rfl h1
  case obj => exact absurd rfl (h2 _ _)
  all_goals
    repeat (rcases List.mem_cons.1 hp with rfl | hp; · first | rfl | exact absurd hf (by decide))
    cases hp

example : ("04.OxmTLV", V04.oxm) ∈ ("01.Match", V01.«match») :: structureAttrs.map (fun p => (p.1.cls, p.2)) ∧
    V04.oxm.size (.bytes [1, 2]) = .error .pack ∧ "04.Port" ∉ "04.Bucket" :: families :=
  ⟨.tail _ (List.mem_map.2 ⟨(V04.New.oxmTLV, V04.oxm), by simp [structureAttrs], rfl⟩), rfl, by decide⟩

/-- C66.  As does a structure of another class, for `OxmTLV`. -/
theorem C66_oxm_size {c : String} {vs : List Val} (h : c ≠ "04.OxmTLV") : V04.oxm.size (.obj c vs) = .error .pack := by
  simp only [V04.oxm, if_neg h]

example := C66_oxm_size (c := "04.Port") (vs := [.int 1]) (by decide)

/-- C66.  Packing a structure of another class raises `PackException`, for every structure class without subclasses. -/
theorem C66_other_class : ∀ p ∈ ("01.Match", V01.«match») :: structureAttrs.map (fun p => (p.1.cls, p.2)), p.1 ∉ families →
    ∀ c vs, c ≠ p.1 → p.2.pack (.obj c vs) = .error .pack := by
  intro p hp hf c vs hc
  unfold structureAttrs at hp
  simp only [List.map_cons, List.map_nil] at hp
  repeat (rcases List.mem_cons.1 hp with rfl | hp; · first | exact if_neg hc | exact absurd (by decide) hf)
  cases hp

example : ("04.HelloElemHeader", V04.helloElem) ∈ ("01.Match", V01.«match») :: structureAttrs.map (fun p => (p.1.cls, p.2)) ∧
    "04.HelloElemHeader" ∉ families := by
  refine ⟨?_, by decide⟩
  unfold structureAttrs
  simp only [List.map_cons, List.map_nil, List.mem_cons]
  right; right
  repeat (first | exact .inl rfl | right)

/-- C66.  So does a structure of another class, for the structures held by messages. -/
theorem C66_other_structure {c : String} {vs : List Val} :
    (c ≠ "01.Match" → V01.«match».pack (.obj c vs) = .error .pack ∧ V01.«match».size (.obj c vs) = .error .pack) ∧
    (c ≠ "01.PhyPort" → V01.phyPort.pack (.obj c vs) = .error .pack ∧ V01.phyPort.size (.obj c vs) = .error .pack) ∧
    (c ≠ "04.Port" → V04.port.pack (.obj c vs) = .error .pack ∧ V04.port.size (.obj c vs) = .error .pack) ∧
    (c ≠ "04.Match" → V04.«match».pack (.obj c vs) = .error .pack ∧ V04.«match».size (.obj c vs) = .error .value) := by
  refine ⟨fun h => ?_, fun h => ?_, fun h => ?_, fun h => ?_⟩
  · simp only [V01.«match», structAttr, if_neg h, and_self]
  · simp only [V01.phyPort, structAttr, if_neg h, and_self]
  · simp only [V04.port, structAttr, if_neg h, and_self]
  · simp only [V04.«match», if_neg h, and_self]

example := (C66_other_structure (c := "04.Bucket") (vs := [.int 1])).1 (by decide)

/-- C66 (where the code departs).  A v0x04 FlowMod whose match is neither `None` nor a Match is refused with `ValueError`: the size is taken first. -/
theorem C66_match_counterexample (w t z x a b c d e f g i j k l m n : Val) {v : Val} (h1 : v ≠ .none) (h2 : ∀ vs, v ≠ .obj "04.Match" vs) :
    pyPack libs (.obj "04.FlowMod" [.obj "04.Header" [w, t, z, x], a, b, c, d, e, f, g, i, j, k, l, m, v, n]) = .error .value := by
  have hv : V04.«match».size v = .error .value := by
    cases v
    case none => exact absurd rfl h1
    case obj c vs => exact (C66_other_structure.2.2.2 fun hc => h2 vs (by rw [hc])).2
    all_goals rfl
  have hm : libs.findSome? (fun k => k.named "04.FlowMod") = some V04.flowMod := by rfl
  have hp : V04.flowMod.prep = fun vs => .ok vs := rfl
  have key : sizeAttrs V04.flowMod.fields (.obj "04.Header" [w, t, z, x] :: [a, b, c, d, e, f, g, i, j, k, l, m, v, n]) = .error .value := by
    have h0 : ∀ {n s v k fs vs e}, s.size v = .ok k → sizeAttrs fs vs = .error e → sizeAttrs ((n, s) :: fs) (v :: vs) = .error e := by
      intro n s v k fs vs e g1 g2
      simp only [sizeAttrs, g1, g2]
    have h3 : sizeAttrs [("match", V04.«match»), ("instructions", V04.instructions)] [v, n] = .error .value := by simp only [sizeAttrs, hv]
    exact h0 (by rfl) (h0 (by rfl) (h0 (by rfl) (h0 (by rfl) (h0 (by rfl) (h0 (by rfl) (h0 (by rfl) (h0 (by rfl) (h0 (by rfl)
      (h0 (by rfl) (h0 (by rfl) (h0 (by rfl) (h0 (by rfl) h3))))))))))))
  simp only [pyPack, hm, MsgCls.pack, hp, genericPack, key]

example : Val.int 5 ≠ .none ∧ (∀ vs, Val.int 5 ≠ .obj "04.Match" vs) ∧ V04.«match».pack (.int 5) = .error .pack ∧ V04.«match».size (.int 5) = .error .value :=
  ⟨nofun, nofun, rfl, rfl⟩

/-- C66 (where the code departs).  A v0x01 ErrorMsg whose `data` is a text or a number is refused with `AttributeError`: they have no `pack`. -/
theorem C66_error_data_counterexample (h t c : Val) {v : Val} (hv : (∃ s, v = .str s) ∨ (∃ i, v = .int i) ∨ ∃ i, v = .enum i) :
    pyPack libs (.obj "01.ErrorMsg" [h, t, c, v]) = .error .attribute := by
  have hm : libs.findSome? (fun k => k.named "01.ErrorMsg") = some V01.errorMsg := by rfl
  rcases hv with ⟨_, rfl⟩ | ⟨_, rfl⟩ | ⟨_, rfl⟩ <;> simp only [pyPack, hm] <;> rfl

/-- C66 (where the code departs).  `OxmTLV.pack(value)` calls `value.pack()` whatever the value is: `AttributeError` for numbers, texts, bytes and
built-in lists. -/
theorem C66_oxm_counterexample {v : Val} (hv : (∃ i, v = .int i) ∨ (∃ i, v = .enum i) ∨ (∃ s, v = .str s) ∨ (∃ x, v = .bytes x) ∨ ∃ xs, v = .list false xs) :
    V04.oxm.pack v = .error .attribute := by
  rcases hv with ⟨_, rfl⟩ | ⟨_, rfl⟩ | ⟨_, rfl⟩ | ⟨_, rfl⟩ | ⟨_, rfl⟩ <;> rfl

example := C66_messages (s := V01.messages[16]'(by decide +kernel)) (List.mem_append_left _ (List.getElem_mem _)) (by decide +kernel) (by decide +kernel)
  (v := exRefusedPort) rfl

end Pyof.Props
