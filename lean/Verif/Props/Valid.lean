import Verif.Model.Valid
import Verif.Model.Extra
import Verif.Props.Bodies
/-!
# C69: `is_valid()` of messages; C70: `pack(value)` of messages
-/
namespace Pyof.Props
open Pyof.Spec

/-! ## C69 -/

def exHeader (ver : Nat) (code : Int) : Val := .obj (hdrName ver) [.ub 1 (.int ver), .enum code, .none, .int 7]

private theorem named_mem {c : String} {m : MsgCls} (h : libs.findSome? (fun l => l.named c) = some m) :
    (∃ k, (k, m) ∈ V01.lib.classes ++ V04.lib.classes) ∧ m.name = c := by
  simp only [libs, List.findSome?_cons, List.findSome?_nil, Lib.named] at h
  cases h1 : V01.lib.classes.find? (fun p => p.2.name == c) with
  | some e =>
    rw [h1] at h
    simp only [Option.map_some, Option.some.injEq] at h
    subst h
    exact ⟨⟨e.1, List.mem_append_left _ (List.mem_of_find?_eq_some h1)⟩, by simpa using List.find?_some h1⟩
  | none =>
    rw [h1] at h
    simp only [Option.map_none] at h
    cases h2 : V04.lib.classes.find? (fun p => p.2.name == c) with
    | some e =>
      rw [h2] at h
      simp only [Option.map_some, Option.some.injEq] at h
      subst h
      exact ⟨⟨e.1, List.mem_append_right _ (List.mem_of_find?_eq_some h2)⟩, by simpa using List.find?_some h2⟩
    | none => rw [h2] at h; cases h

private theorem valid_other {m : MsgCls} (h : ∃ k, (k, m) ∈ V01.lib.classes ++ V04.lib.classes)
    (h1 : m.name ≠ "01.PacketOut") (h4 : m.name ≠ "04.PacketOut") (vs : List Val) : m.valid vs = .ok () := by
  obtain ⟨k, h⟩ := h
  simp only [V01.lib, V04.lib, List.cons_append, List.nil_append, List.mem_cons, List.not_mem_nil, or_false, Prod.mk.injEq] at h
  rcases h with h | h | h | h | h | h | h | h | h | h | h | h | h | h | h | h | h | h | h | h | h | h | h | h | h | h | h | h | h | h | h | h | h |
    h | h | h | h | h | h | h | h | h | h | h | h | h | h | h | h | h | h | h <;> obtain ⟨rfl, rfl⟩ := h <;>
    first | rfl | exact absurd rfl h1 | exact absurd rfl h4

private theorem valid_prep {m : MsgCls} (h : ∃ k, (k, m) ∈ V01.lib.classes ++ V04.lib.classes) {vs ws : List Val} (hp : m.prep vs = .ok ws) :
    m.valid ws = m.valid vs := by
  by_cases h1 : m.name = "01.PacketOut"
  · have hm := h
    obtain ⟨k, hm⟩ := hm
    have : m = V01.packetOut := by
      simp only [V01.lib, V04.lib, List.cons_append, List.nil_append, List.mem_cons, List.not_mem_nil, or_false, Prod.mk.injEq] at hm
      rcases hm with h | h | h | h | h | h | h | h | h | h | h | h | h | h | h | h | h | h | h | h | h | h | h | h | h | h | h | h | h | h | h | h | h |
        h | h | h | h | h | h | h | h | h | h | h | h | h | h | h | h | h | h | h <;> obtain ⟨rfl, rfl⟩ := h <;>
        first | rfl | exact absurd h1 (by decide)
    subst this
    change V01.packetOutPrep vs = .ok ws at hp
    unfold V01.packetOutPrep at hp
    split at hp
    · split at hp
      · cases hp
      · cases hp; rfl
    · cases hp
  · by_cases h4 : m.name = "04.PacketOut"
    · have hm := h
      obtain ⟨k, hm⟩ := hm
      have : m = V04.packetOut := by
        simp only [V01.lib, V04.lib, List.cons_append, List.nil_append, List.mem_cons, List.not_mem_nil, or_false, Prod.mk.injEq] at hm
        rcases hm with h | h | h | h | h | h | h | h | h | h | h | h | h | h | h | h | h | h | h | h | h | h | h | h | h | h | h | h | h | h | h | h | h |
          h | h | h | h | h | h | h | h | h | h | h | h | h | h | h | h | h | h | h <;> obtain ⟨rfl, rfl⟩ := h <;>
          first | rfl | exact absurd h4 (by decide)
      subst this
      change V04.packetOutPrep vs = .ok ws at hp
      unfold V04.packetOutPrep at hp
      split at hp
      · split at hp
        · cases hp
        · cases hp; rfl
      · cases hp
    · rw [valid_other h h1 h4, valid_other h h1 h4]

/-- C69.  A message that can be packed is valid, whatever its attributes hold: `is_valid()` does not answer `False` and does not raise. -/
theorem C69_packed_partial {v : Val} {b : Bytes} (h : pyPack libs v = .ok b) : pyIsValid libs v = .ok true := by
  unfold pyPack at h
  split at h
  · rename_i c ws
    split at h
    · rename_i m hm
      have hmem := named_mem hm
      unfold MsgCls.pack at h
      split at h
      · rename_i c' hdr vs heq
        cases heq
        split at h
        · cases h
        · rename_i vs' hp
          obtain ⟨_, _, _, _, _, _, _, _, _, hv, _⟩ := genericPack_inv h
          rw [valid_prep hmem.1 hp] at hv
          simp only [pyIsValid, hm, hv]
      · cases h
    · cases h
  · cases h

example := C69_packed_partial (v := .obj "01.PacketOut" [exHeader 1 13, .int 0, .enum 0xfffd, .none, .list false [], .bytes [9]])
  (b := [1, 13, 0, 17, 0, 0, 0, 7, 0, 0, 0, 0, 0xff, 0xfd, 0, 0, 9]) (by decide +kernel)

/-- C69.  If `is_valid()` answers `False`, or raises, `pack()` raises: an invalid message is never sent. -/
theorem C69_refused_partial {v : Val} (h : pyIsValid libs v ≠ .ok true) : ∃ e, pyPack libs v = .error e := by
  cases hp : pyPack libs v with
  | ok b => exact absurd (C69_packed_partial hp) h
  | error e => exact ⟨e, rfl⟩

example := C69_refused_partial (v := .obj "04.PacketOut" [exHeader 4 13, .int 0, .int 0, .none, .pad 6, .list false [], .bytes [9]]) (by decide +kernel)

/-- C69.  What `is_valid()` of the two `PacketOut` classes answers when the input port is a number. -/
theorem C69_packet_out {hdr b p : Val} {rest : List Val} {pn : Nat} (hp : numOf p = some pn) :
    (pyIsValid libs (.obj "01.PacketOut" (hdr :: b :: p :: rest)) = .ok true ↔ Spec.V01.inPortOk pn) ∧
    (pyIsValid libs (.obj "01.PacketOut" (hdr :: b :: p :: rest)) = .ok false ↔ ¬ Spec.V01.inPortOk pn) ∧
    (pyIsValid libs (.obj "04.PacketOut" (hdr :: b :: p :: rest)) = .ok true ↔ Spec.V04.inPortOk pn) ∧
    (pyIsValid libs (.obj "04.PacketOut" (hdr :: b :: p :: rest)) = .ok false ↔ ¬ Spec.V04.inPortOk pn) := by
  have hc : cmpNum p = some (pn : Int) := cmpNum_num hp
  have n1 : libs.findSome? (fun l => l.named "01.PacketOut") = some V01.packetOut := rfl
  have n4 : libs.findSome? (fun l => l.named "04.PacketOut") = some V04.packetOut := rfl
  have e1 : V01.packetOut.valid = V01.packetOutValid := rfl
  have e4 : V04.packetOut.valid = V04.packetOutValid := rfl
  simp only [pyIsValid, n1, n4, e1, e4, V01.packetOutValid, V04.packetOutValid, hc]
  have q1 : ((0 < (pn : Int) ∧ (pn : Int) ≤ 0xff00) ∨ (pn : Int) = 0xfffe ∨ (pn : Int) = 0xfffd ∨ (pn : Int) = 0xffff) ↔ Spec.V01.inPortOk pn := by
    unfold Spec.V01.inPortOk; omega
  have q4 : ((0 < (pn : Int) ∧ (pn : Int) ≤ 0xffffff00) ∨ (pn : Int) = 0xfffffffe ∨ (pn : Int) = 0xfffffffd ∨ (pn : Int) = 0xffffffff) ↔
      Spec.V04.inPortOk pn := by
    unfold Spec.V04.inPortOk; omega
  by_cases g1 : Spec.V01.inPortOk pn <;> by_cases g4 : Spec.V04.inPortOk pn <;>
    simp only [q1, q4, g1, g4, if_true, if_false] <;> simp

example := C69_packet_out (hdr := exHeader 1 13) (b := .int 0) (p := .ub 2 (.int 0xfff8)) (rest := []) (pn := 0xfff8) rfl

/-- C69.  Every other message answers `True`, whatever its attributes hold. -/
theorem C69_others {l : Lib} (hl : l ∈ libs) {e : Nat × MsgCls} (he : e ∈ l.classes) (h1 : e.2.name ≠ "01.PacketOut")
    (h4 : e.2.name ≠ "04.PacketOut") (hdr : Val) (vs : List Val) : pyIsValid libs (.obj e.2.name (hdr :: vs)) = .ok true := by
  have hs : (libs.findSome? (fun l => l.named e.2.name)).isSome = true := by
    rw [List.findSome?_isSome_iff]
    refine ⟨l, hl, ?_⟩
    simp only [Lib.named, Option.isSome_map, List.find?_isSome]
    exact ⟨e, he, by simp⟩
  obtain ⟨m, hm⟩ := Option.isSome_iff_exists.mp hs
  have hmem := named_mem hm
  simp only [pyIsValid, hm, valid_other hmem.1 (hmem.2 ▸ h1) (hmem.2 ▸ h4)]

example (hdr : Val) (vs : List Val) := C69_others (l := V04.lib) (by simp [libs]) (e := (0, V04.hello)) (by simp [V04.lib]) (by decide) (by decide) hdr vs

/-- C69.  `is_valid()` is documented to tell "whether the message is ready to pack".  It does not: it is `True` for a message that
`pack()` refuses, and it raises `TypeError` for a `PacketOut` made without an input port. -/
theorem C69_counterexample :
    (pyIsValid libs (.obj "01.SetConfig" [exHeader 1 9, .int 0, .int 65536]) = .ok true ∧
      pyPack libs (.obj "01.SetConfig" [exHeader 1 9, .int 0, .int 65536]) = .error .pack) ∧
    pyIsValid libs (.obj "01.PacketOut" [exHeader 1 13, .int 0, .none, .none, .list false [], .bytes []]) = .error .type := by
  decide +kernel

/-! ## C70 -/

private theorem named_some {l : Lib} (hl : l ∈ libs) {e : Nat × MsgCls} (he : e ∈ l.classes) :
    ∃ m, libs.findSome? (fun l => l.named e.2.name) = some m := by
  refine Option.isSome_iff_exists.mp ?_
  rw [List.findSome?_isSome_iff]
  refine ⟨l, hl, ?_⟩
  simp only [Lib.named, Option.isSome_map, List.find?_isSome]
  exact ⟨e, he, by simp⟩

/-- C70.  For all message classes but four, `m.pack(x)` is `x.pack()` if `x` is a message of the same class, and raises `PackException` for
every other `x` except `None`; what is in `m` makes no difference.  With `None` it is `m.pack()`. -/
theorem C70_messages_partial {l : Lib} (hl : l ∈ libs) {e : Nat × MsgCls} (he : e ∈ l.classes)
    (hb : e.2.name ∉ ["01.StatsRequest", "01.StatsReply", "04.MultipartRequest", "04.MultipartReply"]) (hdr : Val) (vs : List Val) :
    (∀ ws, pyPackWith libs (.obj e.2.name (hdr :: vs)) (.obj e.2.name ws) = pyPack libs (.obj e.2.name ws)) ∧
    (∀ x, x ≠ .none → (∀ ws, x ≠ .obj e.2.name ws) → pyPackWith libs (.obj e.2.name (hdr :: vs)) x = .error .pack) ∧
    pyPackWith libs (.obj e.2.name (hdr :: vs)) .none = pyPack libs (.obj e.2.name (hdr :: vs)) := by
  obtain ⟨m, hm⟩ := named_some hl he
  have hb' : e.2.name ∉ bodyMsgs := hb
  refine ⟨fun ws => ?_, fun x h0 h1 => ?_, ?_⟩
  · simp only [pyPackWith, hm, if_neg hb', if_true]
  · simp only [pyPackWith, hm, if_neg hb']
    split
    · exact absurd rfl h0
    · rename_i c' ws
      rw [if_neg (fun hc => h1 ws (by rw [hc]))]
    · rfl
  · simp only [pyPackWith, hm, if_neg hb', pyPack]

example (hdr : Val) (vs : List Val) := C70_messages_partial (l := V01.lib) (by simp [libs]) (e := (14, V01.flowMod)) (by simp [V01.lib]) (by decide) hdr vs

/-- C70.  The other four take `x` for a body: if `m` has a type, flags and transaction id that fit, `m.pack(x)` is the packet of `m` with the
whole packet of the message `x` in place of its body. -/
theorem C70_swallowed_counterexample :
    ∀ c ∈ [("01.StatsRequest", 16, 1, [0, 3, 0, 0]), ("01.StatsReply", 17, 1, [0, 3, 0, 0]),
        ("04.MultipartRequest", 18, 4, [0, 3, 0, 0, 0, 0, 0, 0]), ("04.MultipartReply", 19, 4, [0, 3, 0, 0, 0, 0, 0, 0])],
      ∃ (m x : Val) (vs ws : List Val) (b : Bytes), m = .obj c.1 vs ∧ x = .obj c.1 ws ∧ pyPack libs x = .ok b ∧
        pyPackWith libs m x = .ok (packet c.2.2.1 c.2.1 7 (c.2.2.2 ++ b)) ∧ pyPackWith libs m x ≠ pyPack libs x := by
  intro c hc
  simp only [List.mem_cons, List.not_mem_nil, or_false] at hc
  rcases hc with rfl | rfl | rfl | rfl
  · exact ⟨.obj "01.StatsRequest" [exHeader 1 16, .enum 3, .int 0, .bytes []], .obj "01.StatsRequest" [exHeader 1 16, .enum 0, .int 0, .bytes []],
      _, _, [1, 16, 0, 12, 0, 0, 0, 7, 0, 0, 0, 0], rfl, rfl, by decide +kernel, by decide +kernel, by decide +kernel⟩
  · exact ⟨.obj "01.StatsReply" [exHeader 1 17, .enum 3, .int 0, .bytes []], .obj "01.StatsReply" [exHeader 1 17, .enum 0, .int 0, .bytes []],
      _, _, [1, 17, 0, 12, 0, 0, 0, 7, 0, 0, 0, 0], rfl, rfl, by decide +kernel, by decide +kernel, by decide +kernel⟩
  · exact ⟨.obj "04.MultipartRequest" [exHeader 4 18, .enum 3, .int 0, .pad 4, .bytes []],
      .obj "04.MultipartRequest" [exHeader 4 18, .enum 0, .int 0, .pad 4, .bytes []],
      _, _, [4, 18, 0, 16, 0, 0, 0, 7, 0, 0, 0, 0, 0, 0, 0, 0], rfl, rfl, by decide +kernel, by decide +kernel, by decide +kernel⟩
  · exact ⟨.obj "04.MultipartReply" [exHeader 4 19, .enum 3, .int 0, .pad 4, .bytes []],
      .obj "04.MultipartReply" [exHeader 4 19, .enum 0, .int 0, .pad 4, .bytes []],
      _, _, [4, 19, 0, 16, 0, 0, 0, 7, 0, 0, 0, 0, 0, 0, 0, 0], rfl, rfl, by decide +kernel, by decide +kernel, by decide +kernel⟩

/-- C70.  What these four classes do with an argument that is a body: `m.pack(body)` is what `pack()` of `m` would be with that body as its own.
`body` is an object of a class of the library that is no message, or a `FixedTypeList`, `BinaryData` or other object with a `pack` method
that is not empty. -/
theorem C70_body {l : Lib} (hl : l ∈ libs) {e : Nat × MsgCls} (he : e ∈ l.classes)
    (hb : e.2.name ∈ ["01.StatsRequest", "01.StatsReply", "04.MultipartRequest", "04.MultipartReply"]) (hdr : Val) (vs : List Val) (own body : Val)
    (ht : pyTrue body = true) (hp : (selfPack V01.statsClasses body).isSome = true)
    (hm : ∀ c ws, body = .obj c ws → ∀ l ∈ libs, ∀ k ∈ l.classes, k.2.name ≠ c) :
    pyPackWith libs (.obj e.2.name (hdr :: (vs ++ [own]))) body = pyPack libs (.obj e.2.name (hdr :: (vs ++ [body]))) := by
  obtain ⟨m, hn⟩ := named_some hl he
  have hb' : e.2.name ∈ bodyMsgs := hb
  have hg : givenBody libs m (vs ++ [own]) body = m.prep (vs ++ [body]) := by
    unfold givenBody
    split
    · rename_i c ws
      have : libs.findSome? (fun l => l.named c) = none := by
        cases hc : libs.findSome? (fun l => l.named c) with
        | none => rfl
        | some k =>
          obtain ⟨⟨i, hi⟩, h2⟩ := named_mem hc
          rcases List.mem_append.mp hi with h | h
          · exact absurd h2 (hm c ws rfl V01.lib (by simp [libs]) _ h)
          · exact absurd h2 (hm c ws rfl V04.lib (by simp [libs]) _ h)
      simp [this]
    · rw [if_neg (by simp [Option.isNone_iff_eq_none]; intro _ h; rw [h] at hp; cases hp)]
      simp
  simp only [pyPackWith, pyPack, hn, if_pos hb', ht, if_true, hg, MsgCls.pack]
  cases m.prep (vs ++ [body]) <;> rfl

example (own : Val) := C70_body (l := V01.lib) (by simp [libs]) (e := (16, V01.statsRequest)) (by simp [V01.lib]) (by decide) (exHeader 1 16)
  [.enum 4, .int 0] own (.obj "01.PortStatsRequest" [.int 3, .pad 6]) rfl rfl (by
    intro c ws h
    cases h
    have h1 : ∀ l ∈ libs, (l.classes.map (·.2.name)).all (· != "01.PortStatsRequest") = true := by
      intro l hl
      simp only [libs, List.mem_cons, List.not_mem_nil, or_false] at hl
      rcases hl with rfl | rfl <;> decide +kernel
    intro l hl k hk
    have := List.all_eq_true.mp (h1 l hl) _ (List.mem_map_of_mem hk)
    simpa using this)

/-! ## C01, C02: UBInt128 -/

/-- C01.  A `UBInt128` refuses every value with `PackException`, also the numbers below 2^128. -/
theorem C01_ubint128 (dflt v : Val) : ub128Pack dflt v = .error .pack := by
  unfold ub128Pack
  split
  · rfl
  · rfl

/-- C02.  A `UBInt128` decodes 16 bytes to the number in the first two of them. -/
theorem C02_ubint128 (buff : Bytes) (off : Nat) :
    ub128Unpack buff off = if off + 16 ≤ buff.length then .ok (.ub 16 (.int (beVal (slice buff off (off + 2))))) else .error .unpack := by
  unfold ub128Unpack
  split
  · rename_i h
    have hl : (slice buff off (off + 16)).length = 2 * 8 := by rw [slice_length]; omega
    rw [structUnpack, if_pos hl]
    simp only [chunks, slice, List.take_take, List.drop_take]
    congr 5
    rw [show min 2 (off + 16 - off) = off + 2 - off by omega]
  · rfl

/-- C02.  So the number is lost: 16 bytes that stand for 1 decode to 0. -/
theorem C02_ubint128_counterexample :
    ub128Unpack [0, 0, 0, 0, 0, 0, 0, 0, 0, 0, 0, 0, 0, 0, 0, 1] 0 = .ok (.ub 16 (.int 0)) ∧
    beVal [0, 0, 0, 0, 0, 0, 0, 0, 0, 0, 0, 0, 0, 0, 0, 1] = 1 := by decide +kernel

end Pyof.Props
