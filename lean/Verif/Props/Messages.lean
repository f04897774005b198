import Verif.Lemmas.Libs
import Verif.Lemmas.Window
/-!
# C17–C21, C48: messages

`libs` is the model of the library (`PYOF_VERSION_LIBS`), `pyPack libs v` is `v.pack()` and `pyUnpack libs p` is
`pyof.utils.unpack(p)`.  `Spec.V01.messages` and `Spec.V04.messages` are the wire formats of the OpenFlow
specifications; `msgDen s v = some (x, d)`: `v` is a message of class `s` with transaction id `x` and content `d`.
-/
namespace Pyof.Props
open Pyof.Spec

/-- Checks that a concrete content is acceptable to a decoder. -/
macro "show_ok" : tactic => `(tactic| repeat' (first
  | exact trivial
  | (refine List.forall_mem_cons.mpr ?_)
  | (refine And.intro ?_ ?_)
  | (intro ms h; cases h; done)
  | (intro ms h; cases h; decide +kernel)
  | decide +kernel))

/-! ## Running examples -/

/-- `FlowMod(xid=7, match=Match(in_port=80), actions=[ActionOutput(port=1)], ...)` of OpenFlow 1.0 -/
def exMatch01 : Val := .obj "01.Match"
  [.int 4194302, .int 80, .str "00:00:00:00:00:00".toList, .str "00:00:00:00:00:00".toList, .int 0, .int 0, .pad 1, .int 0,
   .int 0, .int 0, .pad 2, .str "0.0.0.0".toList, .str "0.0.0.0".toList, .int 0, .int 0]
def exFlowMod01 (outPort : Val) (len : Val) : Val := .obj "01.FlowMod"
  [.obj "01.Header" [.ub 1 (.int 1), .enum 14, len, .int 7], exMatch01, .int 0, .enum 0, .int 0, .int 0, .int 0,
   .int 4294967295, outPort, .int 0,
   .list true [.obj "01.ActionOutput" [.enum 0, .int 8, .int 1, .int 0]]]
/-- What it packs to. -/
def exPacket01 : Bytes := [1, 14, 0, 80, 0, 0, 0, 7, 0, 63, 255, 254, 0, 80] ++ List.replicate 50 0 ++
  [255, 255, 255, 255, 255, 255, 0, 0, 0, 0, 0, 8, 0, 1, 0, 0]

example : pyPack libs (exFlowMod01 (.enum 0xffff) (.int 99999)) =
    .ok ([1, 14, 0, 80, 0, 0, 0, 7, 0, 63, 255, 254, 0, 80] ++ List.replicate 50 0 ++
      [255, 255, 255, 255, 255, 255, 0, 0, 0, 0, 0, 8, 0, 1, 0, 0]) := by decide +kernel

/-! ## C17 the header of a packed message -/

/-- C17.  A packed message starts with its version, its type, its total length and its transaction id, whatever the
length attribute was before; it is at least 8 and at most 65535 bytes long. -/
theorem C17_header {s : MsgFmt} (hs : s ∈ messages) {v : Val} {x : Nat} {d : Data} (hv : msgDen s v = some (x, d))
    {p : Bytes} (hp : pyPack libs v = .ok p) :
    p[0]? = some (UInt8.ofNat s.ver) ∧ p[1]? = some (UInt8.ofNat s.code) ∧ beVal (slice p 2 4) = p.length ∧
      beVal (slice p 4 8) = x ∧ 8 ≤ p.length ∧ p.length ≤ 65535 := by
  obtain ⟨l, m, k⟩ := known hs
  obtain ⟨body, _, hb, hx, rfl⟩ := ((k.pack hv).ok p).mp hp
  have p2 : (256 : Nat) ^ 2 = 65536 := by decide
  have p4 : (256 : Nat) ^ 4 = 4294967296 := by decide
  refine ⟨packet_byte0 .., packet_byte1 .., ?_, ?_, ?_, ?_⟩
  · rw [packet_len_field, packet_length, beVal_be_of_lt (by rw [p2]; exact hb)]
  · rw [packet_xid_field, beVal_be_of_lt (by rw [p4]; exact hx)]
  · rw [packet_length]; omega
  · rw [packet_length]; omega

example := C17_header (s := V01.messages[12]'(by decide +kernel)) (List.mem_append_left _ (List.getElem_mem _))
  (v := exFlowMod01 (.enum 0xffff) .none) rfl (p := exPacket01) (by decide +kernel)

/-- C17.  A message too long for the length field is refused with `PackException`. -/
theorem C17_too_long {s : MsgFmt} (hs : s ∈ messages) {v : Val} {x : Nat} {d : Data} (hv : msgDen s v = some (x, d))
    {body : Bytes} (he : s.fmt.enc d = some body) (hb : 65535 < 8 + body.length) : pyPack libs v = .error .pack := by
  obtain ⟨l, m, k⟩ := known hs
  exact (k.pack hv).refuse body he (by omega)

/-- An echo request with 65528 bytes of data. -/
example {data : Bytes} (hd : data.length = 65528) := C17_too_long (s := V01.messages[1]'(by decide +kernel))
  (List.mem_append_left _ (List.getElem_mem _))
  (v := .obj "01.EchoRequest" [.obj "01.Header" [.ub 1 (.int 1), .enum 2, .none, .int 7], .bytes data]) (body := data ++ []) rfl rfl (by simp [hd])

/-- C17.  The length found in the header before packing has no influence. -/
theorem C17_old_length (c h : String) (a t l l' x : Val) (vs : List Val) :
    pyPack libs (.obj c (.obj h [a, t, l, x] :: vs)) = pyPack libs (.obj c (.obj h [a, t, l', x] :: vs)) := by
  simp only [pyPack]
  cases libs.findSome? fun l => l.named c with
  | none => rfl
  | some m =>
    simp only [MsgCls.pack]
    cases m.prep vs with
    | error e => rfl
    | ok vs' =>
      simp only [genericPack, setLength]
      have : sizeAttrs m.fields (.obj h [a, t, l, x] :: vs') = sizeAttrs m.fields (.obj h [a, t, l', x] :: vs') := by
        simp only [MsgCls.fields, sizeAttrs, headerAttr, structAttr, headerFields, ubint]
      rw [this]

/-- A message that was decoded with one length and one that is new. -/
example := C17_old_length "01.Hello" "01.Header" (.ub 1 (.int 1)) (.enum 0) (.ub 2 (.int 999)) .none (.int 5) [.bytes [1, 2, 3]]

/-- C17, any message class that could be declared: if `get_size` is right for every attribute of the body (C08), the
length field of the packet is its length. -/
theorem C17_any_class (m : MsgCls) (hdr : Val) (vs : List Val) (hsz : ∀ q ∈ m.body.zip vs, SizeOK q.1.2 q.2) (p : Bytes)
    (hp : genericPack m hdr vs = .ok p) : beVal (slice p 2 4) = p.length ∧ p.length ≤ 65535 := by
  obtain ⟨a, t, l, x, n, hb, body, rfl, hn, _, hh, hbd, rfl⟩ := genericPack_inv hp
  simp only [headerFields] at hh
  obtain ⟨b0, r0, h0, g0, rfl⟩ := packAttrs_cons.mp hh
  obtain ⟨b1, r1, h1, g1, rfl⟩ := packAttrs_cons.mp g0
  obtain ⟨b2, r2, h2, g2, rfl⟩ := packAttrs_cons.mp g1
  obtain ⟨b3, r3, h3, g3, rfl⟩ := packAttrs_cons.mp g2
  rw [packAttrs_nil] at g3
  subst g3
  simp only [ubint] at h0 h1 h2 h3
  have l0 := ubPack_length h0
  have l1 := ubPack_length h1
  have l3 := ubPack_length h3
  rw [ubPack_num (show numOf (.int (n : Nat)) = some n by simp [numOf])] at h2
  obtain ⟨_, hlt, rfl⟩ := packNum_ok.mp h2
  rw [Int.toNat_natCast] at hlt ⊢
  have hs := sizeAttrs_ok hsz hbd
  simp only [MsgCls.fields, sizeAttrs, headerAttr_size, hs, Except.ok.injEq] at hn
  have hsl : slice (b0 ++ (b1 ++ (be 2 n ++ (b3 ++ []))) ++ body) 2 4 = be 2 n := by
    have := slice_mid (b0 ++ b1) (be 2 n) (b3 ++ body)
    simpa [l0, l1] using this
  have p2 : (256 : Nat) ^ 2 = 65536 := by decide
  rw [hsl, beVal_be_of_lt hlt]
  simp [l0, l1, l3]
  omega

example := C17_any_class V01.barrierRequest (.obj "01.Header" [.ub 1 (.int 1), .enum 18, .none, .int 7]) [] nofun [1, 18, 0, 8, 0, 0, 0, 7]
  (by decide +kernel)

/-- C17.  After packing, the length attribute of the message object is the length of the packet. -/
theorem C17_stored {s : MsgFmt} (hs : s ∈ messages) {v : Val} {x : Nat} {d : Data} (hv : msgDen s v = some (x, d))
    {p : Bytes} (hp : pyPack libs v = .ok p) : msgLength (pyPost libs v) = some p.length := by
  obtain ⟨l, m, k⟩ := known hs
  obtain ⟨hdr, vs, rfl, hh, _⟩ := msgDen_inv hv
  obtain ⟨body, _, hb, hx, rfl⟩ := ((k.pack hv).ok p).mp hp
  rw [k.pyPack_eq] at hp
  rw [k.pyPost_eq]
  simp only [MsgCls.pack, MsgCls.post] at hp ⊢
  cases hpr : m.prep vs with
  | error e => rw [hpr] at hp; cases hp
  | ok vs' =>
    rw [hpr] at hp
    simp only at hp ⊢
    obtain ⟨a, t, l, y, n, hb', body', rfl, hn, _, hpk, _, hp'⟩ := genericPack_inv hp
    rw [hn]
    simp only [setLength, msgLength, packet_length, numOf]
    obtain ⟨a', t', l', x', he, ha, ht, hx'⟩ := hdrDen_inv hh
    simp only [Val.obj.injEq, List.cons.injEq, and_true] at he
    obtain ⟨_, rfl, rfl, rfl, rfl⟩ := he
    have hhp : (headerAttr m.ver m.types m.code).pack (.obj (hdrName m.ver) [a, t, .int (n : Nat), y]) = .ok hb' := by
      simp only [headerAttr, structAttr, if_true]; exact hpk
    rw [← k.ok.ver] at ha
    obtain ⟨_, _, hn2, _, rfl⟩ := (headerAttr_pack ht hx' ha _).mp hhp
    have h24 := congrArg (fun q => slice q 2 4) hp'
    have p2 : (256 : Nat) ^ 2 = 65536 := by decide
    simp only [packet_len_field] at h24
    have : slice (be 1 m.ver ++ be 1 s.code ++ be 2 n ++ be 4 x ++ body') 2 4 = be 2 n := by
      have := slice_mid (be 1 m.ver ++ be 1 s.code) (be 2 n) (be 4 x ++ body')
      simpa using this
    rw [this] at h24
    have := congrArg beVal h24
    rw [beVal_be_of_lt (by rw [p2]; exact hb), beVal_be_of_lt (by rw [p2]; exact hn2)] at this
    simp [this]

example : msgLength (pyPost libs (exFlowMod01 (.enum 0xffff) .none)) = some 80 := by decide +kernel

/-! ## C18 validate_packet -/

/-- C18. -/
theorem C18_validate (v : Val) :
    (validatePacket v = .ok () ↔ ∃ p, v = .bytes p ∧ 8 ≤ p.length ∧ p.length ≤ 65535 ∧ beVal (slice p 2 4) = p.length ∧
      ∃ b, p[0]? = some b ∧ 1 ≤ b.toNat ∧ b.toNat ≤ 127) ∧
    (validatePacket v ≠ .ok () → validatePacket v = .error .unpack) := by
  cases v with
  | bytes p =>
    rw [validate_bytes]
    constructor
    · constructor
      · intro h
        split at h
        · rename_i h2; exact ⟨p, rfl, h2⟩
        · cases h
      · rintro ⟨q, he, h⟩
        cases he
        rw [if_pos h]
    · intro h
      split at h
      · exact absurd rfl h
      · rename_i h2; rw [if_neg h2]
  | _ => simp [validatePacket]

example : validatePacket (.bytes [4, 0, 0, 9, 0, 0, 0, 1, 7]) = .ok () :=
  (C18_validate _).1.2 ⟨_, rfl, by decide, by decide, by decide, 4, rfl, by decide, by decide⟩

/-! ## C19, C20 round trips -/

/-- C19.  Every OpenFlow 1.0 message that packs decodes to a message of the same class, transaction id and content. -/
theorem C19_round_trip {s : MsgFmt} (hs : s ∈ V01.messages) {v : Val} {x : Nat} {d : Data}
    (hv : msgDen s v = some (x, d)) (hok : s.fmt.ok d) {p : Bytes} (hp : pyPack libs v = .ok p) :
    ∃ w, pyUnpack libs (.bytes p) = .ok w ∧ msgDen s w = some (x, d) ∧ msgLength w = some p.length := by
  obtain ⟨m, k⟩ := known_v01 hs
  obtain ⟨body, he, hb, hx, rfl⟩ := ((k.pack hv).ok p).mp hp
  rw [packet_length]
  exact V01.lib_ok.unpack k.vlib k.range.1 k.range.2 hs he hok hb hx

/-- The hypotheses hold for the flow-mod above. -/
example : ∃ s ∈ V01.messages, ∃ d, msgDen s (exFlowMod01 (.enum 0xffff) .none) = some (7, d) ∧ s.fmt.ok d ∧
    (pyPack libs (exFlowMod01 (.enum 0xffff) .none)).isOk = true := by
  refine ⟨V01.messages[12]'(by decide +kernel), List.getElem_mem _, _, rfl, ?_, by decide +kernel⟩
  show_ok

/-- C20.  The same for the 28 OpenFlow 1.3 messages whose type number is right. -/
theorem C20_round_trip {s : MsgFmt} (hs : s ∈ V04.messages) {v : Val} {x : Nat} {d : Data}
    (hv : msgDen s v = some (x, d)) (hok : s.fmt.ok d) {p : Bytes} (hp : pyPack libs v = .ok p) :
    ∃ w, pyUnpack libs (.bytes p) = .ok w ∧ msgDen s w = some (x, d) ∧ msgLength w = some p.length := by
  obtain ⟨m, k⟩ := known_v04 hs
  obtain ⟨body, he, hb, hx, rfl⟩ := ((k.pack hv).ok p).mp hp
  rw [packet_length]
  exact V04.lib_ok.unpack k.vlib k.range.1 k.range.2 hs he hok hb hx

/-- `FlowMod(xid=9, match=Match(oxm_match_fields=[in_port=5]), instructions=[apply [output:CONTROLLER]])` -/
def exFlowMod04 : Val := .obj "04.FlowMod"
  [.obj "04.Header" [.ub 1 (.int 4), .enum 14, .none, .int 9], .int 0, .int 0, .int 0, .enum 0, .int 0, .int 0, .int 0,
   .enum 4294967295, .enum 4294967295, .enum 4294967295, .int 0, .pad 2,
   .obj "04.Match" [.enum 1, .none, .list true [.obj "04.OxmTLV" [.enum 0x8000, .none, .none, .bytes [0, 0, 0, 5], .enum 0, .int 0]]],
   .list true [.obj "04.InstructionApplyAction" [.enum 4, .none, .pad 4, .list true
     [.obj "04.ActionOutput" [.enum 0, .int 16, .enum 0xfffffffd, .enum 0xffff, .pad 6]]]]]

example : ∃ s ∈ V04.messages, ∃ d, msgDen s exFlowMod04 = some (9, d) ∧ s.fmt.ok d ∧
    (pyPack libs exFlowMod04).isOk = true := by
  refine ⟨V04.messages[12]'(by decide +kernel), List.getElem_mem _, _, rfl, ?_, by decide +kernel⟩
  show_ok
  exact .inr (.inr (.inl rfl))

/-! ### Where round trips fail -/

/-- A message packs to `p`, and `pyof.utils.unpack(p)` raises `UnpackException`. -/
def PacksButRefused (v : Val) : Prop := ∃ p, pyPack libs v = .ok p ∧ pyUnpack libs (.bytes p) = .error .unpack

/-- C19.  The hypothesis on enumerated fields cannot be dropped: a flow-mod whose `out_port` is a physical port packs,
but the library's decoder refuses it (the attribute is declared with the enumeration of the reserved ports only). -/
theorem C19_out_port_counterexample : PacksButRefused (exFlowMod01 (.int 1) .none) :=
  ⟨([1, 14, 0, 80, 0, 0, 0, 7, 0, 63, 255, 254, 0, 80] ++ List.replicate 50 0 ++
      [255, 255, 255, 255, 0, 1, 0, 0, 0, 0, 0, 8, 0, 1, 0, 0]), by decide +kernel⟩

/-- The same for a queue configuration request. -/
theorem C19_queue_port_counterexample : PacksButRefused (.obj "01.QueueGetConfigRequest"
    [.obj "01.Header" [.ub 1 (.int 1), .enum 20, .none, .int 7], .int 1, .pad 2]) :=
  ⟨[1, 20, 0, 12, 0, 0, 0, 7, 0, 1, 0, 0], by decide +kernel⟩

/-- C20.  `SetAsync` with both packet-in reasons selected (mask 3) packs but is refused: the masks are declared with
the enumerations of single reasons. -/
theorem C20_async_counterexample : PacksButRefused (.obj "04.SetAsync"
    [.obj "04.Header" [.ub 1 (.int 4), .enum 28, .none, .int 7], .int 3, .int 0, .int 0, .int 0, .int 0, .int 0]) :=
  ⟨[4, 28, 0, 32, 0, 0, 0, 7, 0, 0, 0, 3] ++ List.replicate 20 0, by decide +kernel⟩

/-- C20, C21.  The two queue configuration messages of OpenFlow 1.3 carry the type numbers of the switch configuration
messages: they decode to other classes, and a request loses its content. -/
theorem C20_queue_config_counterexample :
    ∃ p, pyPack libs (.obj "04.QueueGetConfigRequest" [.obj "04.Header" [.ub 1 (.int 4), .enum 7, .none, .int 7], .int 1, .pad 4]) = .ok p ∧
      p[1]? = some 7 ∧ (V04.lib.find 22).map (·.name) = some "04.QueueGetConfigRequest" ∧
      pyUnpack libs (.bytes p) = .ok (.obj "04.GetConfigRequest"
        [.obj "04.Header" [.ub 1 (.int 4), .enum 7, .ub 2 (.int 16), .ub 4 (.int 7)]]) :=
  ⟨[4, 7, 0, 16, 0, 0, 0, 7, 0, 0, 0, 1, 0, 0, 0, 0], by decide +kernel⟩

/-- C17, C20.  A meter-mod with a band: the header length does not count the band, and the packet is refused. -/
theorem C17_meter_mod_counterexample :
    ∃ p, pyPack libs (.obj "04.MeterMod" [.obj "04.Header" [.ub 1 (.int 4), .enum 29, .none, .int 7], .enum 0, .int 1, .int 1,
        .list true [.obj "04.MeterBandDrop" [.enum 1, .int 16, .int 8, .int 9, .pad 4]]]) = .ok p ∧
      p.length = 32 ∧ beVal (slice p 2 4) = 16 ∧ pyUnpack libs (.bytes p) = .error .unpack :=
  ⟨[4, 29, 0, 16, 0, 0, 0, 7, 0, 0, 0, 1, 0, 0, 0, 1, 0, 1, 0, 16, 0, 0, 0, 8, 0, 0, 0, 9, 0, 0, 0, 0], by decide +kernel⟩

/-! ## C21 dispatch -/

/-- C21.  The class of a decoded message is the one its version and type bytes select, and its transaction id and length
are those of the packet. -/
theorem C21_class_of_packet (p : Bytes) (w : Val) (h : pyUnpack libs (.bytes p) = .ok w) :
    ∃ l ∈ libs, ∃ t m vs, p[0]? = some (UInt8.ofNat l.ver) ∧ p[1]? = some (UInt8.ofNat t) ∧ t ∈ l.types ∧
      l.find t = some m ∧ m.unpack (p.drop 8) = .ok vs ∧
      w = .obj m.name (.obj (hdrName m.ver) [.ub 1 (.int m.ver), .enum m.code, .ub 2 (.int p.length),
        .ub 4 (.int (beVal (slice p 4 8)))] :: vs) := by
  obtain ⟨b0, b1, b2, b3, b4, b5, b6, b7, r, l, m, vs, rfl, hl, ht, hm, hu, _, rfl⟩ := pyUnpack_bytes libs p w h
  have hv := List.find?_some hl
  simp only [beq_iff_eq] at hv
  refine ⟨l, List.mem_of_find?_eq_some hl, b1.toNat, m, vs, ?_, ?_, ht, hm, hu, rfl⟩
  · rw [hv]; simp
  · simp

example := C21_class_of_packet [1, 18, 0, 8, 0, 0, 0, 7]
  (.obj "01.BarrierRequest" [.obj "01.Header" [.ub 1 (.int 1), .enum 18, .ub 2 (.int 8), .ub 4 (.int 7)]]) (by decide +kernel)

/-- C21.  A type number that is not a member of the version's `Type` enumeration, or a version other than 1 and 4, is
refused with `UnpackException`. -/
theorem C21_unknown (p : Bytes) (hv : validatePacket (.bytes p) = .ok ()) :
    ((∀ l ∈ libs, p[0]? ≠ some (UInt8.ofNat l.ver)) → pyUnpack libs (.bytes p) = .error .unpack) ∧
    (∀ l ∈ libs, p[0]? = some (UInt8.ofNat l.ver) → (∀ t ∈ l.types, p[1]? ≠ some (UInt8.ofNat t)) →
      pyUnpack libs (.bytes p) = .error .unpack) := by
  have h8 : 8 ≤ p.length := by
    rw [validate_bytes] at hv
    split at hv
    · rename_i h; exact h.1
    · cases hv
  obtain ⟨b0, b1, b2, b3, b4, b5, b6, b7, r, rfl⟩ := eight h8
  have hlt : ∀ l ∈ libs, l.ver < 256 := by simp [libs, V01.lib, V04.lib]
  constructor
  · intro h
    have : libs.find? (fun k => k.ver == b0.toNat) = none := by
      rw [List.find?_eq_none]
      intro l hl he
      refine h l hl ?_
      simp only [beq_iff_eq] at he
      simp [he]
    simp only [pyUnpack, hv, this]
  · intro l hl h0 ht
    simp only [List.getElem?_cons_zero, Option.some.injEq] at h0
    have hb : b0.toNat = l.ver := by
      rw [h0]; have := hlt l hl; simp; omega
    have hf : libs.find? (fun k => k.ver == b0.toNat) = some l := by
      rw [hb]
      simp only [libs, List.mem_cons, List.not_mem_nil, or_false] at hl
      rcases hl with rfl | rfl <;> rfl
    simp only [pyUnpack, hv, hf, unpackMessage_bytes]
    rw [if_neg]
    · rfl
    · intro hm
      exact ht _ hm (by simp)

example := (C21_unknown [2, 18, 0, 8, 0, 0, 0, 7] (by decide +kernel)).1 (by decide +kernel)
example := (C21_unknown [1, 99, 0, 8, 0, 0, 0, 7] (by decide +kernel)).2 V01.lib (by simp [libs]) (by decide +kernel) (by decide +kernel)

/-- C21.  The types of each version are the numbers 0–21 and 0–29, each selects a class, and nothing else does. -/
theorem C21_total :
    (∀ t, t ∈ V01.lib.types ↔ t < 22) ∧ (∀ t, t ∈ V04.lib.types ↔ t < 30) ∧
    (∀ l ∈ libs, ∀ t, t ∈ l.types ↔ ∃ m, l.find t = some m) := by
  have h1 : V01.lib.types = List.range 22 := by decide +kernel
  have h4 : V04.lib.types = List.range 30 := by decide +kernel
  refine ⟨fun t => by rw [h1, List.mem_range], fun t => by rw [h4, List.mem_range], fun l hl t => ?_⟩
  have key : ∀ l : Lib, l.types = l.classes.map (·.1) → (t ∈ l.types ↔ ∃ m, l.find t = some m) := by
    intro l he
    rw [he, Lib.find]
    constructor
    · intro h
      obtain ⟨q, hq, rfl⟩ := List.mem_map.mp h
      cases hf : l.classes.find? (fun p => p.1 == q.1) with
      | none => exact absurd (List.find?_eq_none.mp hf q hq) (by simp)
      | some y => exact ⟨_, rfl⟩
    · rintro ⟨m, h⟩
      rw [Option.map_eq_some_iff] at h
      obtain ⟨q, hq, rfl⟩ := h
      have := List.find?_some hq
      simp only [beq_iff_eq] at this
      exact List.mem_map.mpr ⟨q, List.mem_of_find?_eq_some hq, this⟩
  simp only [libs, List.mem_cons, List.not_mem_nil, or_false] at hl
  rcases hl with rfl | rfl <;> exact key _ (by decide +kernel)

/-- C21.  The type byte of a packed message selects the class of the message (for the messages of the specification tables, that
is all but the two of `C20_queue_config_counterexample`). -/
theorem C21_own_class {s : MsgFmt} (hs : s ∈ messages) {v : Val} {x : Nat} {d : Data} (hv : msgDen s v = some (x, d))
    {p : Bytes} (hp : pyPack libs v = .ok p) :
    ∃ l ∈ libs, ∃ m, p[0]? = some (UInt8.ofNat l.ver) ∧ p[1]? = some (UInt8.ofNat s.code) ∧
      l.find s.code = some m ∧ m.name = s.name ∧ ∃ vs, v = .obj m.name vs := by
  obtain ⟨l, m, k⟩ := known hs
  obtain ⟨h0, h1, _⟩ := C17_header hs hv hp
  obtain ⟨hdr, vs, rfl, _, _⟩ := msgDen_inv hv
  refine ⟨l, List.mem_of_find?_eq_some k.vlib, m, k.ver ▸ h0, h1, k.find, k.ok.name, _, by rw [k.ok.name]⟩

example := C21_own_class (s := V01.messages[12]'(by decide +kernel)) (List.mem_append_left _ (List.getElem_mem _))
  (v := exFlowMod01 (.enum 0xffff) .none) rfl (p := exPacket01) (by decide +kernel)

/-- Every class found under a type number also packs that number, except the two. -/
theorem C21_table (l : Lib) (hl : l ∈ libs) (t : Nat) (m : MsgCls) (h : l.find t = some m) :
    m.code = t ↔ ¬ (l.ver = 4 ∧ (t = 22 ∨ t = 23)) := by
  have key : ∀ l : Lib, l.find t = some m → ∃ q ∈ l.classes, q.1 = t ∧ q.2 = m := by
    intro l h
    simp only [Lib.find, Option.map_eq_some_iff] at h
    obtain ⟨q, hq, rfl⟩ := h
    have := List.find?_some hq
    simp only [beq_iff_eq] at this
    exact ⟨q, List.mem_of_find?_eq_some hq, this, rfl⟩
  obtain ⟨q, hq, rfl, rfl⟩ := key l h
  simp only [libs, List.mem_cons, List.not_mem_nil, or_false] at hl
  rcases hl with rfl | rfl
  · have : V01.lib.classes.all (fun q => q.2.code == q.1) = true := by decide +kernel
    rw [List.all_eq_true] at this
    have := this q hq
    simp only [beq_iff_eq] at this
    simp [this, show V01.lib.ver = 1 from rfl]
  · have : V04.lib.classes.all (fun q => decide (q.2.code = q.1 ↔ ¬ (q.1 = 22 ∨ q.1 = 23))) = true := by decide +kernel
    rw [List.all_eq_true] at this
    have := this q hq
    simp only [decide_eq_true_eq] at this
    simpa [show V04.lib.ver = 4 from rfl] using this

example : V04.flowMod.code = 14 := (C21_table V04.lib (by simp [libs]) 14 V04.flowMod rfl).2 (by decide)

/-! ## C48 transaction ids -/

/-- The `xid` argument of a constructor call. -/
def xidArg : Option Nat → Val
  | some x => .int x
  | none => .none

/-- C48.  A message constructed with a given transaction id, or with the one `randint(0, MAXID)` returned, packs with that
transaction id and decodes with it. -/
theorem C48_xid {s : MsgFmt} (hs : s ∈ messages) :
    ∃ m, libs.findSome? (fun l => l.named s.name) = some m ∧
    ∀ (given : Option Nat) (r : Nat) (vs : List Val) (d : Data) (body : Bytes),
      (∀ x, given = some x → x < 4294967296) → r ≤ maxId →
      s.fmt.den (.obj s.name vs) = some d → s.fmt.ok d → s.fmt.enc d = some body → 8 + body.length ≤ 65535 →
      ∃ p w, pyPack libs (.obj s.name (newHeader m (xidArg given) r :: vs)) = .ok p ∧
        beVal (slice p 4 8) = given.getD r ∧
        pyUnpack libs (.bytes p) = .ok w ∧ msgDen s w = some (given.getD r, d) := by
  obtain ⟨l, m, k⟩ := known hs
  refine ⟨m, k.named, ?_⟩
  intro given r vs d body hg hr hd ho he hb
  have hx : given.getD r < 4294967296 := by
    cases given with
    | none => simp only [Option.getD_none, maxId] at *; omega
    | some x => exact hg x rfl
  have hden : msgDen s (.obj s.name (newHeader m (xidArg given) r :: vs)) =
      some (given.getD r, d) := by
    cases given <;> simp [xidArg, msgDen, newHeader, newXid, hdrDen, k.ok.hdr, k.ok.ver, k.ok.code, numOf, hd]
  obtain ⟨p, hp⟩ : ∃ p, pyPack libs (.obj s.name (newHeader m (xidArg given) r :: vs)) =
      .ok p := ⟨packet s.ver s.code (given.getD r) body, ((k.pack hden).ok _).mpr ⟨body, he, Nat.lt_succ_of_le hb, hx, rfl⟩⟩
  have hp4 := C17_header hs hden hp
  rcases List.mem_append.mp hs with h | h
  · obtain ⟨w, h1, h2, _⟩ := C19_round_trip h hden ho hp
    exact ⟨p, w, hp, hp4.2.2.2.1, h1, h2⟩
  · obtain ⟨w, h1, h2, _⟩ := C20_round_trip h hden ho hp
    exact ⟨p, w, hp, hp4.2.2.2.1, h1, h2⟩

example : ∃ p w, pyPack libs (.obj "01.BarrierRequest" [newHeader V01.barrierRequest (xidArg (some 5)) 9]) = .ok p ∧
    beVal (slice p 4 8) = 5 ∧ pyUnpack libs (.bytes p) = .ok w := by
  obtain ⟨m, hm, h⟩ := C48_xid (s := V01.messages[14]'(by decide +kernel)) (List.mem_append_left _ (List.getElem_mem _))
  obtain rfl : V01.barrierRequest = m := Option.some.inj ((by rfl : libs.findSome? (fun l => l.named "01.BarrierRequest") = _).symm.trans hm)
  obtain ⟨p, w, h1, h2, h3, _⟩ := h (some 5) 9 [] (.record []) [] (by simp) (by decide) rfl trivial rfl (by decide)
  exact ⟨p, w, h1, h2, h3⟩

/-- C48.  A transaction id that does not fit is refused. -/
theorem C48_refused {s : MsgFmt} (hs : s ∈ messages) {v : Val} {x : Nat} {d : Data} (hv : msgDen s v = some (x, d))
    (hx : 4294967296 ≤ x) (p : Bytes) : pyPack libs v ≠ .ok p := by
  obtain ⟨l, m, k⟩ := known hs
  intro h
  obtain ⟨_, _, _, h2, _⟩ := ((k.pack hv).ok p).mp h
  omega

example := C48_refused (s := V01.messages[14]'(by decide +kernel)) (List.mem_append_left _ (List.getElem_mem _))
  (v := .obj "01.BarrierRequest" [.obj "01.Header" [.ub 1 (.int 1), .enum 18, .none, .int 4294967296]]) rfl (by decide)

end Pyof.Props
