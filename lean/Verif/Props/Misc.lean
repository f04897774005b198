import Verif.Model.Misc
import Verif.Model.Compare
import Verif.Props.Messages
import Verif.Lemmas.Stable
/-!
# C57 bit mask classes, C58 new messages from types and headers, C59 `int()` of wrapped integers
-/
namespace Pyof.Props
open Pyof

/-! ## C57 -/

/-- The declared members of a class body: the public names bound to numbers. -/
def member (body : List (String × BitEntry)) (name : String) (n : Nat) : Prop :=
  (name, BitEntry.value n) ∈ body ∧ ¬ underscored name

private theorem enum_mem {body : List (String × BitEntry)} {k n} :
    (k, n) ∈ bitEnum body ↔ member body k n := by
  simp only [bitEnum, List.mem_filterMap, member]
  constructor
  · rintro ⟨⟨k', e⟩, hm, h⟩
    cases e with
    | value m =>
      simp only at h
      split at h
      · cases h
      · rename_i hu; cases h; exact ⟨hm, hu⟩
    | callable => cases h
    | property => cases h
  · rintro ⟨hm, hu⟩
    exact ⟨_, hm, by simp [hu]⟩

private theorem lookup_of_mem {α : Type} {l : List (String × α)} (hn : (l.map (·.1)).Nodup) {k a} (h : (k, a) ∈ l) :
    l.lookup k = some a := by
  induction l with
  | nil => cases h
  | cons p l ih =>
    obtain ⟨k', a'⟩ := p
    simp only [List.map_cons, List.nodup_cons] at hn
    simp only [List.lookup_cons]
    rcases List.mem_cons.mp h with h1 | h1
    · cases h1; simp
    · have : k ≠ k' := by
        rintro rfl
        exact hn.1 (List.mem_map.mpr ⟨(k, a), h1, rfl⟩)
      rw [beq_eq_false_iff_ne.mpr this]
      exact ih hn.2 h1

private theorem lookup_none {α : Type} {l : List (String × α)} {k} (h : ∀ a, (k, a) ∉ l) : l.lookup k = none := by
  induction l with
  | nil => rfl
  | cons p l ih =>
    obtain ⟨k', a'⟩ := p
    have : k ≠ k' := by rintro rfl; exact h a' (by simp)
    rw [List.lookup_cons, beq_eq_false_iff_ne.mpr this]
    exact ih fun a ha => h a (List.mem_cons_of_mem _ ha)

private theorem filterMap_keys {body : List (String × BitEntry)} (hn : (body.map (·.1)).Nodup) :
    ((bitEnum body).map (·.1)).Nodup := by
  refine List.Sublist.nodup ?_ hn
  clear hn
  induction body with
  | nil => exact .slnil
  | cons p l ih =>
    obtain ⟨k, e⟩ := p
    cases e with
    | value n =>
      by_cases h : underscored k = true
      · simp only [bitEnum, List.filterMap_cons, h, if_true]; exact ih.cons _
      · simp only [bitEnum, List.filterMap_cons, h]; exact ih.cons_cons _
    | callable => exact ih.cons _
    | property => exact ih.cons _

/-- C57.  `Class.NAME` is the number the class body declares. -/
theorem C57_members {body : List (String × BitEntry)} (hn : (body.map (·.1)).Nodup) {name : String} {n : Nat} (hm : member body name n) :
    bitGet (bitNew body) name = .ok (.value n) := by
  have h1 := enum_mem.mpr hm
  have h2 := lookup_of_mem (filterMap_keys hn) h1
  simp only [bitNew]
  rw [if_neg (by intro he; rw [List.isEmpty_iff] at he; rw [he] at h1; cases h1)]
  simp only [bitGet]
  rw [lookup_none]
  · simp only [h2]
  · intro a ha
    rw [List.mem_filter] at ha
    obtain ⟨ha, hf⟩ := ha
    have e1 := lookup_of_mem hn ha
    have e2 := lookup_of_mem hn hm.1
    rw [e1] at e2
    cases e2
    simp [hm.2] at hf

/-- C57.  Everything else in the class body (underscored names, methods, properties) stays what it was. -/
theorem C57_kept {body : List (String × BitEntry)} (hn : (body.map (·.1)).Nodup) {name : String} {e : BitEntry} (he : (name, e) ∈ body)
    (hm : ∀ n, ¬ member body name n) : bitGet (bitNew body) name = .ok e := by
  simp only [bitNew]
  split
  · simp only [bitGet, lookup_of_mem hn he]
  · simp only [bitGet]
    rw [lookup_of_mem (a := e) (hn.sublist (List.Sublist.map _ List.filter_sublist)) (List.mem_filter.mpr ⟨he, ?_⟩)]
    cases e with
    | value n =>
      have := hm n
      cases hu : underscored name with
      | true => simp
      | false => exact absurd ⟨he, by simp [hu]⟩ this
    | callable => simp
    | property => simp

example : bitGet (bitNew [("_doc", .value 9), ("A", .value 1), ("name", .property)]) "_doc" = .ok (.value 9) ∧
    bitGet (bitNew [("_doc", .value 9), ("A", .value 1), ("name", .property)]) "name" = .ok .property := ⟨rfl, rfl⟩

/-- C57 violated.  A name that is not in the class is a `KeyError`, where `hasattr` and `getattr` with a default expect an
`AttributeError`. -/
theorem C57_unknown {body : List (String × BitEntry)} {m : String} {k : Nat} (hm : member body m k) {name : String}
    (hu : ∀ e, (name, e) ∉ body) : bitGet (bitNew body) name = .error .key := by
  have h1 := enum_mem.mpr hm
  simp only [bitNew]
  rw [if_neg (by intro he; rw [List.isEmpty_iff] at he; rw [he] at h1; cases h1)]
  simp only [bitGet]
  rw [lookup_none, lookup_none]
  · intro a ha
    exact hu _ (enum_mem.mp ha).1
  · intro a ha
    exact hu _ (List.mem_filter.mp ha).1

/-- C57 violated.  The names of every mask of every class are the empty list: the instance has an `_enum` of its own. -/
theorem C57_names_empty (body : List (String × BitEntry)) (b : Option Nat) :
    bitItems (bitNew body) (bitInit b) = [] ∧ bitNames (bitNew body) (bitInit b) = .ok [] := by
  simp [bitInit, bitItems, bitNames]

/-- C57, what holds: without the instance's own `_enum`, `names` lists exactly the members that share a bit with the mask, in the
order of the class body, each once.  Missing: the masks the library makes all have that attribute (`C57_names_empty`). -/
theorem C57_names_partial {body : List (String × BitEntry)} (hn : (body.map (·.1)).Nodup) (b : Nat) :
    ∃ ns, bitNames (bitNew body) (bitInit (some b)).dropEnum = .ok ns ∧
      (∀ name, name ∈ ns ↔ ∃ n i, member body name n ∧ n.testBit i = true ∧ b.testBit i = true) ∧
      ns.Sublist (body.map (·.1)) ∧ ns.Nodup := by
  generalize hE : bitEnum body = es
  have hes : ∀ {k n}, (k, n) ∈ es ↔ member body k n := by intro k n; rw [← hE]; exact enum_mem
  have hsub : (es.map (·.1)).Sublist (body.map (·.1)) := by
    rw [← hE]
    clear hE hes hn
    induction body with
    | nil => exact .slnil
    | cons p l ih =>
      obtain ⟨k, e⟩ := p
      cases e with
      | value n =>
        by_cases h : underscored k = true
        · simp only [bitEnum, List.filterMap_cons, h, if_true]; exact ih.cons _
        · simp only [bitEnum, List.filterMap_cons, h]; exact ih.cons_cons _
      | callable => exact ih.cons _
      | property => exact ih.cons _
  have hitems : bitItems (bitNew body) (bitInit (some b)).dropEnum = es := by
    simp only [bitNew, hE]
    cases es with
    | nil => rfl
    | cons _ _ => rfl
  have hnames : bitNames (bitNew body) (bitInit (some b)).dropEnum = .ok ((es.filter fun p => p.2 &&& b ≠ 0).map (·.1)) := by
    simp only [bitNames, hitems]
    cases es with
    | nil => rfl
    | cons _ _ => rfl
  have hs2 : ((es.filter fun p => p.2 &&& b ≠ 0).map (·.1)).Sublist (body.map (·.1)) :=
    (List.filter_sublist.map _).trans hsub
  refine ⟨_, hnames, fun name => ?_, hs2, hs2.nodup hn⟩
  simp only [List.mem_map, List.mem_filter, decide_eq_true_eq]
  constructor
  · rintro ⟨⟨k, n⟩, ⟨hm, hz⟩, rfl⟩
    obtain ⟨i, hi⟩ := Nat.exists_testBit_of_ne_zero hz
    rw [Nat.testBit_and, Bool.and_eq_true] at hi
    exact ⟨n, i, hes.mp hm, hi.1, hi.2⟩
  · rintro ⟨n, i, hm, h1, h2⟩
    refine ⟨(name, n), ⟨hes.mpr hm, fun hz => ?_⟩, rfl⟩
    have := congrArg (Nat.testBit · i) hz
    simp [Nat.testBit_and, h1, h2] at this

/-- C57: a mask without a value has no names: asking for them raises TypeError if the class has members. -/
theorem C57_names_no_value {body : List (String × BitEntry)} {name : String} {n : Nat} (h : member body name n) :
    bitNames (bitNew body) (bitInit none).dropEnum = .error .type := by
  have hm : (name, n) ∈ bitEnum body := enum_mem.mpr h
  have hitems : bitItems (bitNew body) (bitInit none).dropEnum = bitEnum body := by
    simp only [bitNew]
    cases bitEnum body with
    | nil => rfl
    | cons _ _ => rfl
  simp only [bitNames, hitems]
  cases he : bitEnum body with
  | nil => rw [he] at hm; cases hm
  | cons _ _ => rfl

/-- `PortState` of v0x01 (phy_port.py:104-126), with its docstring entry. -/
private def demo : List (String × BitEntry) :=
  [("__doc__", .callable), ("OFPPS_LINK_DOWN", .value 1), ("OFPPS_STP_LISTEN", .value 0), ("OFPPS_STP_LEARN", .value 256), ("helper", .callable)]

example : (demo.map (·.1)).Nodup ∧ member demo "OFPPS_STP_LEARN" 256 ∧ bitNames (bitNew demo) (bitInit (some 257)) = .ok [] ∧
    bitNames (bitNew demo) (bitInit (some 257)).dropEnum = .ok ["OFPPS_LINK_DOWN", "OFPPS_STP_LEARN"] := by
  refine ⟨by decide, ⟨by decide, by decide⟩, by decide +kernel, by decide +kernel⟩

example : bitGet (bitNew demo) "OFPPS_STP_LEARN" = .ok (.value 256) := C57_members (by decide) ⟨by decide, by decide⟩
example : bitGet (bitNew demo) "OFPPS_LIVE" = .error .key :=
  C57_unknown (m := "OFPPS_STP_LEARN") (k := 256) ⟨by decide, by decide⟩ (by intro e; simp [demo])
example := C57_names_partial (body := demo) (by decide) 257
example := C57_names_no_value (body := demo) (name := "OFPPS_STP_LEARN") (n := 256) ⟨by decide, by decide⟩

/-! ## C58 -/

/-- What `MESSAGE_TYPES` says: the class of each type name (the v0x01 standard's `ofp_type`). -/
def classes01 : List (String × String) :=
  [("OFPT_HELLO", "01.Hello"), ("OFPT_ERROR", "01.ErrorMsg"), ("OFPT_ECHO_REQUEST", "01.EchoRequest"), ("OFPT_ECHO_REPLY", "01.EchoReply"),
   ("OFPT_VENDOR", "01.VendorHeader"), ("OFPT_FEATURES_REQUEST", "01.FeaturesRequest"), ("OFPT_FEATURES_REPLY", "01.FeaturesReply"),
   ("OFPT_GET_CONFIG_REQUEST", "01.GetConfigRequest"), ("OFPT_GET_CONFIG_REPLY", "01.GetConfigReply"), ("OFPT_SET_CONFIG", "01.SetConfig"),
   ("OFPT_PACKET_IN", "01.PacketIn"), ("OFPT_FLOW_REMOVED", "01.FlowRemoved"), ("OFPT_PORT_STATUS", "01.PortStatus"),
   ("OFPT_PACKET_OUT", "01.PacketOut"), ("OFPT_FLOW_MOD", "01.FlowMod"), ("OFPT_PORT_MOD", "01.PortMod"),
   ("OFPT_STATS_REQUEST", "01.StatsRequest"), ("OFPT_STATS_REPLY", "01.StatsReply"), ("OFPT_BARRIER_REQUEST", "01.BarrierRequest"),
   ("OFPT_BARRIER_REPLY", "01.BarrierReply"), ("OFPT_QUEUE_GET_CONFIG_REQUEST", "01.QueueGetConfigRequest"),
   ("OFPT_QUEUE_GET_CONFIG_REPLY", "01.QueueGetConfigReply")]

/-- The same for v0x04. -/
def classes04 : List (String × String) :=
  [("OFPT_HELLO", "04.Hello"), ("OFPT_ERROR", "04.ErrorMsg"), ("OFPT_ECHO_REQUEST", "04.EchoRequest"), ("OFPT_ECHO_REPLY", "04.EchoReply"),
   ("OFPT_EXPERIMENTER", "04.ExperimenterHeader"), ("OFPT_FEATURES_REQUEST", "04.FeaturesRequest"), ("OFPT_FEATURES_REPLY", "04.FeaturesReply"),
   ("OFPT_GET_CONFIG_REQUEST", "04.GetConfigRequest"), ("OFPT_GET_CONFIG_REPLY", "04.GetConfigReply"), ("OFPT_SET_CONFIG", "04.SetConfig"),
   ("OFPT_PACKET_IN", "04.PacketIn"), ("OFPT_FLOW_REMOVED", "04.FlowRemoved"), ("OFPT_PORT_STATUS", "04.PortStatus"),
   ("OFPT_PACKET_OUT", "04.PacketOut"), ("OFPT_FLOW_MOD", "04.FlowMod"), ("OFPT_GROUP_MOD", "04.GroupMod"), ("OFPT_PORT_MOD", "04.PortMod"),
   ("OFPT_TABLE_MOD", "04.TableMod"), ("OFPT_MULTIPART_REQUEST", "04.MultipartRequest"), ("OFPT_MULTIPART_REPLY", "04.MultipartReply"),
   ("OFPT_BARRIER_REQUEST", "04.BarrierRequest"), ("OFPT_BARRIER_REPLY", "04.BarrierReply"),
   ("OFPT_QUEUE_GET_CONFIG_REQUEST", "04.QueueGetConfigRequest"), ("OFPT_QUEUE_GET_CONFIG_REPLY", "04.QueueGetConfigReply"),
   ("OFPT_ROLE_REQUEST", "04.RoleRequest"), ("OFPT_ROLE_REPLY", "04.RoleReply"), ("OFPT_GET_ASYNC_REQUEST", "04.GetAsyncRequest"),
   ("OFPT_GET_ASYNC_REPLY", "04.GetAsyncReply"), ("OFPT_SET_ASYNC", "04.SetAsync"), ("OFPT_METER_MOD", "04.MeterMod")]

/-- The two versions: library, and the names in the order of their numbers. -/
def typed : List (Lib × List (String × String)) := [(V01.lib, classes01), (V04.lib, classes04)]

private theorem table :
    (typed.all fun p => p.2.zipIdx.all fun q =>
      (p.1.find q.2).map (fun m => (m.name, m.ver)) == some (q.1.2, p.1.ver) && p.1.types.contains q.2 &&
      p.1.typeNames.find? (fun x => x.1.toList == q.1.1.toList) == some (q.1.1, q.2) &&
      p.1.typeNames.find? (fun x => "Type.".toList ++ x.1.toList == "Type.".toList ++ q.1.1.toList) == some (q.1.1, q.2)) = true := by
  decide +kernel

private theorem row {l cs} (hl : (l, cs) ∈ typed) {t : Nat} {name cls : String} (ht : cs[t]? = some (name, cls)) :
    ∃ m, l.find t = some m ∧ m.name = cls ∧ m.ver = l.ver ∧ t ∈ l.types ∧
      l.typeNames.find? (fun x => x.1.toList == name.toList) = some (name, t) ∧
      l.typeNames.find? (fun x => "Type.".toList ++ x.1.toList == "Type.".toList ++ name.toList) = some (name, t) := by
  have h := List.all_eq_true.mp table _ hl
  have h := List.all_eq_true.mp h ((name, cls), t) (List.mem_zipIdx_iff_getElem?.mpr ht)
  simp only [Bool.and_eq_true, beq_iff_eq, List.contains_iff_mem, Option.map_eq_some_iff, Prod.mk.injEq] at h
  obtain ⟨⟨⟨⟨m, h1, h2, h3⟩, h4⟩, h5⟩, h6⟩ := h
  exact ⟨m, h1, h2, h3, h4, h5, h6⟩

private theorem typed_lib {l cs} (hl : (l, cs) ∈ typed) : l ∈ libs ∧ (∀ t, t ∈ l.types ↔ t < cs.length) ∧
    l.typeNames.map (·.1) = cs.map (·.1) := by
  simp only [typed, List.mem_cons, List.not_mem_nil, or_false, Prod.mk.injEq] at hl
  rcases hl with ⟨rfl, rfl⟩ | ⟨rfl, rfl⟩
  · exact ⟨by simp [libs], C21_total.1, by decide +kernel⟩
  · exact ⟨by simp [libs], C21_total.2.1, by decide +kernel⟩

/-- C58.  Whether the header holds the member of `Type`, its number, its name or a `UBInt8` with the member, the new message is of
the class of that type, and has the version and the type of the class with the transaction id and length of the header. -/
theorem C58_from_header {l cs} (hl : (l, cs) ∈ typed) {t : Nat} {name cls : String} (ht : cs[t]? = some (name, cls)) {r : Val}
    (hr : r = .enum t ∨ r = .int t ∨ r = .str name.toList ∨ ∃ w, r = .ub w (.enum t)) (c : String) (ver len xid : Val) :
    ∃ m, l.find t = some m ∧ m.name = cls ∧
      newFromHeader l (.obj c [ver, r, len, xid]) = .ok (m, .obj (hdrName l.ver) [.ub 1 (.int l.ver), .enum m.code, len, xid]) := by
  obtain ⟨m, h1, h2, h3, h4, h5, _⟩ := row hl ht
  refine ⟨m, h1, h2, ?_⟩
  rcases hr with rfl | rfl | rfl | ⟨w, rfl⟩
  · simp [newFromHeader, newFromType, h1, h3]
  · simp [newFromHeader, newFromType, h1, h3, h4]
  · simp [newFromHeader, h5, newFromType, h1, h3]
  · simp [newFromHeader, newFromType, h1, h3]

example := C58_from_header (l := V04.lib) (cs := classes04) (by simp [typed]) (t := 18) (name := "OFPT_MULTIPART_REQUEST") (cls := "04.MultipartRequest") (by decide) (.inr (.inr (.inl rfl))) "04.Header" (.int 4) .none (.int 7)

/-- C58.  `new_message_from_message_type` of a member, of a `UBInt8` with it and of its text is a message of the class of the type. -/
theorem C58_from_type {l cs} (hl : (l, cs) ∈ typed) {t : Nat} {name cls : String} (ht : cs[t]? = some (name, cls)) {r : Val}
    (hr : r = .enum t ∨ r = .str ("Type.".toList ++ name.toList) ∨ ∃ w, r = .ub w (.enum t)) :
    ∃ m, l.find t = some m ∧ m.name = cls ∧ newFromType l r = .ok m := by
  obtain ⟨m, h1, h2, h3, h4, _, h5⟩ := row hl ht
  refine ⟨m, h1, h2, ?_⟩
  rcases hr with rfl | rfl | ⟨w, rfl⟩
  · simp [newFromType, h1]
  · simp only [newFromType, h5, h1]
  · simp [newFromType, h1]

example := C58_from_type (l := V04.lib) (cs := classes04) (by simp [typed]) (t := 18) (name := "OFPT_MULTIPART_REQUEST") (cls := "04.MultipartRequest") (by decide) (.inr (.inl rfl))

/-- C58.  A number that is no type is a `ValueError`. -/
theorem C58_unknown_number {l cs} (hl : (l, cs) ∈ typed) {i : Int} (hi : i < 0 ∨ cs.length ≤ i) (c : String) (ver len xid : Val) :
    newFromHeader l (.obj c [ver, .int i, len, xid]) = .error .value := by
  have hn : ¬ (0 ≤ i ∧ i.toNat ∈ l.types) := by
    rw [(typed_lib hl).2.1]
    omega
  simp only [newFromHeader, if_neg hn]

example := C58_unknown_number (l := V04.lib) (cs := classes04) (by simp [typed]) (i := 200) (by decide) "04.Header" (.int 4) .none (.int 7)

/-- C58 violated.  A name that is no type is a `KeyError`, not the `ValueError` the handler in the function is there for. -/
theorem C58_unknown_name {l cs} (hl : (l, cs) ∈ typed) {name : String} (hn : name ∉ cs.map (·.1)) (c : String) (ver len xid : Val) :
    newFromHeader l (.obj c [ver, .str name.toList, len, xid]) = .error .key := by
  have : l.typeNames.find? (fun p => p.1.toList == name.toList) = none := by
    rw [List.find?_eq_none]
    intro p hp he
    rw [beq_iff_eq, String.toList_inj] at he
    exact hn ((typed_lib hl).2.2 ▸ he ▸ List.mem_map.mpr ⟨p, hp, rfl⟩)
  simp only [newFromHeader, this]

example := C58_unknown_name (l := V04.lib) (cs := classes04) (by simp [typed]) (name := "OFPT_VENDOR") (by decide) "04.Header" (.int 4) .none (.int 7)

/-- C58 violated.  With a number in a `UBInt8` (what `Header(message_type=UBInt8(5))` holds) there is no message, although the number
itself gives one; nor is there for a number given to `new_message_from_message_type`. -/
theorem C58_wrapped_number {l cs} (hl : (l, cs) ∈ typed) {t : Nat} {name cls : String} (ht : cs[t]? = some (name, cls)) (w : Nat)
    (c : String) (ver len xid : Val) :
    newFromHeader l (.obj c [ver, .ub w (.int t), len, xid]) = .error .value ∧ newFromType l (.int t) = .error .value ∧
      (∃ p, newFromHeader l (.obj c [ver, .int t, len, xid]) = .ok p) := by
  obtain ⟨m, _, _, h⟩ := C58_from_header hl ht (.inr (.inl rfl)) c ver len xid
  exact ⟨rfl, rfl, _, h⟩

example := C58_wrapped_number (l := V04.lib) (cs := classes04) (by simp [typed]) (t := 18) (name := "OFPT_MULTIPART_REQUEST") (cls := "04.MultipartRequest") (by decide) 1 "04.Header" (.int 4) .none (.int 7)

/-- C58.  `unpack_message` is: decode the header from the first eight bytes, make the message from the header, decode its body from
the rest. -/
theorem C58_unpack {l : Lib} (hl : l ∈ libs) (b : Bytes) (hb : 8 ≤ b.length) :
    unpackMessage l b =
      match unpackAttrs (headerFields l.ver l.types) (b.take 8) 0 with
      | .error e => .error e
      | .ok (hs, _) =>
        match newFromHeader l (.obj (hdrName l.ver) hs) with
        | .error e => .error e
        | .ok (m, hdr) =>
          match m.unpack (b.drop 8) with
          | .error e => .error e
          | .ok vs => .ok (.obj m.name (hdr :: vs)) := by
  match b, hb with
  | b0 :: b1 :: b2 :: b3 :: b4 :: b5 :: b6 :: b7 :: r, _ =>
    rw [unpackMessage_bytes]
    simp only [List.take_succ_cons, List.take_zero, List.drop_succ_cons, List.drop_zero, header_bytes]
    by_cases h : b1.toNat ∈ l.types
    · obtain ⟨m, hm⟩ := (C21_total.2.2 l hl _).mp h
      simp only [if_pos h, newFromHeader, newFromType, Int.toNat_natCast, hm]
      cases m.unpack r <;> rfl
    · simp only [if_neg h]

example : (V04.lib, classes04) ∈ typed ∧ classes04[18]? = some ("OFPT_MULTIPART_REQUEST", "04.MultipartRequest") ∧
    "OFPT_VENDOR" ∉ classes04.map (·.1) :=
  ⟨by simp [typed], by decide, by decide⟩

example : ∃ m, newFromHeader V01.lib (.obj "01.Header" [.ub 1 (.int 1), .str "OFPT_FLOW_MOD".toList, .ub 2 (.int 80), .ub 4 (.int 7)]) =
    .ok (m, .obj "01.Header" [.ub 1 (.int 1), .enum 14, .ub 2 (.int 80), .ub 4 (.int 7)]) :=
  ⟨V01.flowMod, rfl⟩

/-! ## C59 -/

/-- C59.  `int()` of a decoded number whose field has no `enum_ref`, or one that is an `IntEnum`, is the number on the wire, which is also
its `.value` and fits the width. -/
theorem C59_decoded {w : Nat} {ref : Ref} {d : Val} {buff : Bytes} {off : Nat} {u : Val} (h : (ubint w ref d).unpack buff off = .ok u)
    (hr : ref ≠ .mask) :
    ubInt true u = .ok (beVal (slice buff off (off + w)) : Nat) ∧ gval u = .int (beVal (slice buff off (off + w))) ∧
      beVal (slice buff off (off + w)) < 256 ^ w := by
  obtain ⟨n, _, hn, hw, _, _, _, _, x, hx, rfl⟩ := ubUnpack_read h
  rw [← hn]
  cases ref with
  | none => cases hx; exact ⟨rfl, rfl, hw⟩
  | enum ms =>
    simp only [refApply] at hx
    split at hx
    · cases hx; exact ⟨rfl, rfl, hw⟩
    · cases hx
  | mask => exact absurd rfl hr

example := C59_decoded (w := 2) (ref := .enum [1, 513]) (d := .none) (buff := [9, 2, 1]) (off := 1) (u := .ub 2 (.enum 513)) (by decide +kernel) nofun

/-- C59 violated.  `int()` of every decoded bit mask, and of every decoded member of a plain `Enum`, is a `TypeError`, although its
`.value` is the number on the wire. -/
theorem C59_type_error {w : Nat} {ref : Ref} {d : Val} {buff : Bytes} {off : Nat} {u : Val} (h : (ubint w ref d).unpack buff off = .ok u)
    (hr : ref ≠ .none) :
    ubInt false u = .error .type ∧ (ref = .mask → ubInt true u = .error .type) ∧
      gval u = .int (beVal (slice buff off (off + w))) := by
  obtain ⟨n, _, hn, hw, _, _, _, _, x, hx, rfl⟩ := ubUnpack_read h
  rw [← hn]
  cases ref with
  | none => exact absurd rfl hr
  | enum ms =>
    simp only [refApply] at hx
    split at hx
    · cases hx; exact ⟨rfl, (nomatch ·), rfl⟩
    · cases hx
  | mask => cases hx; exact ⟨rfl, fun _ => rfl, rfl⟩

example := C59_type_error (w := 4) (ref := .mask) (d := .none) (buff := [0, 0, 0, 3]) (off := 0) (u := .ub 4 (.mask 3)) (by decide +kernel) nofun

/-- C59.  A wrapped integer or `IntEnum` member that packs has as `int()` the number its bytes encode. -/
theorem C59_packed {w : Nat} {x : Val} (hx : ∃ i, x = .int i ∨ x = .enum i) {b : Bytes} (h : gpack (.ub w x) = .ok b) :
    ubInt true (.ub w x) = .ok (beVal b : Nat) ∧ b.length = w := by
  have key : ∃ i : Int, ubInt true (.ub w x) = .ok i ∧ packNum w (.int i) = .ok b := by
    obtain ⟨i, rfl | rfl⟩ := hx
    · exact ⟨i, rfl, h⟩
    · exact ⟨i, rfl, h⟩
  obtain ⟨i, h1, h2⟩ := key
  refine ⟨?_, packNum_length h2⟩
  obtain ⟨h3, h4, rfl⟩ := packNum_ok.mp h2
  rw [h1, beVal_be_of_lt h4, Int.toNat_of_nonneg h3]

example : (ubint 2 (.enum [1, 513])).unpack [9, 2, 1] 1 = .ok (.ub 2 (.enum 513)) ∧ ubInt true (.ub 2 (.enum 513)) = .ok 513 ∧
    (ubint 4 .mask).unpack [0, 0, 0, 3] 0 = .ok (.ub 4 (.mask 3)) ∧ ubInt true (.ub 4 (.mask 3)) = .error .type ∧
    gpack (.ub 2 (.int 513)) = .ok [2, 1] := by
  decide +kernel

end Pyof.Props
