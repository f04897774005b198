import Verif.Props.Messages
/-!
# C20: the two messages of OpenFlow 1.3 whose header has the number of another message

`QueueGetConfigRequest` and `QueueGetConfigReply` are missing from `Spec.V04.messages`, because their objects carry the type numbers 7 and 8
instead of 22 and 23.  Here is what does hold for them.
-/
namespace Pyof.Props
open Spec

/-- PortNo of OpenFlow 1.3: OFPP_MAX, IN_PORT, TABLE, NORMAL, FLOOD, ALL, CONTROLLER, LOCAL, ANY. -/
def reservedPorts04 : List Nat :=
  [0xffffff00, 0xfffffff8, 0xfffffff9, 0xfffffffa, 0xfffffffb, 0xfffffffc, 0xfffffffd, 0xfffffffe, 0xffffffff]

private theorem enc_queues : Enc V04.queues (atMostOne Spec.V04.packetQueue) :=
  enc_atMostOne (enc_list V04.enc_packetQueue itemOk_struct)
private theorem dec_queues : Dec V04.queues (atMostOne Spec.V04.packetQueue) true :=
  dec_atMostOne V04.enc_packetQueue V04.dec_packetQueue V04.nonEmpty_packetQueue

/-- Name, number in the protocol, number in the library's header, body. -/
def queueMessages : List (String × Nat × Nat × FieldFmts) :=
  [("04.QueueGetConfigRequest", 22, 7, [("port", uint 4 (some reservedPorts04)), ("pad", pad 4)]),
   ("04.QueueGetConfigReply", 23, 8,
     [("port", uint 4 (some reservedPorts04)), ("pad", pad 4), ("queues", atMostOne Spec.V04.packetQueue)])]

macro_rules | `(tactic| enc1) => `(tactic| exact enc_queues)
macro_rules | `(tactic| dec1) => `(tactic| exact dec_queues)

/-- The class with the right number. -/
private def fixed (m : MsgCls) (code : Nat) : MsgCls := V04.msg m.name code m.body

private theorem fixed_ok : ∀ q ∈ queueMessages, ∃ m, V04.lib.find q.2.1 = some m ∧ libs.findSome? (fun k => k.named q.1) = some m ∧
    m = V04.msg q.1 q.2.2.1 m.body ∧ MsgOk (fixed m q.2.1) (Spec.V04.plain q.1 q.2.1 q.2.2.2) := by
  simp only [queueMessages, List.forall_mem_cons]
  refine ⟨⟨V04.queueGetConfigRequest, rfl, by rfl, rfl, ?_⟩, ⟨V04.queueGetConfigReply, rfl, by rfl, rfl, ?_⟩, by simp⟩
  · unfold V04.queueGetConfigRequest fixed
    refine V04.ok_plain (t := true) ?_ rfl (by decide); simp only [V04.msg]
    impl
  · unfold V04.queueGetConfigReply fixed
    refine V04.ok_plain (t := true) ?_ rfl (by decide); simp only [V04.msg]
    impl

private theorem fixed_pack {m : MsgCls} {n k} (hm : m = V04.msg n k m.body) (code : Nat) {c h hs vs} :
    m.pack (.obj c (.obj h hs :: vs)) = (fixed m code).pack (.obj c (.obj h hs :: vs)) := by
  obtain ⟨b, hb⟩ : ∃ b, m.body = b := ⟨_, rfl⟩
  unfold fixed
  rw [hb] at hm ⊢
  subst hm
  have hs' : sizeAttrs (V04.msg n k b).fields (.obj h hs :: vs) = sizeAttrs (V04.msg n code b).fields (.obj h hs :: vs) := by
    simp only [V04.msg, MsgCls.fields, sizeAttrs, headerAttr, structAttr]
    by_cases hh : h = hdrName 4 <;> simp only [hh, if_true, if_false]
  have hl : ∀ n v, setLength n (.obj h hs) = .ok v → ∃ ws, v = .obj h ws := by
    intro n v hv
    unfold setLength at hv
    split at hv
    · cases hv; rename_i e; cases e; exact ⟨_, rfl⟩
    · cases hv
  show genericPack (V04.msg n k b) (.obj h hs) vs = genericPack (V04.msg n code b) (.obj h hs) vs
  unfold genericPack
  rw [hs']
  split
  · rfl
  · split
    · rfl
    · rename_i e
      obtain ⟨ws, rfl⟩ := hl _ _ e
      simp only [V04.msg, MsgCls.fields, packAttrs, headerAttr, structAttr]
      by_cases hh : h = hdrName 4 <;> simp only [hh, if_true, if_false]

private theorem codes : ∀ q ∈ queueMessages, q.2.1 < 256 ∧ q.2.1 ∈ V04.lib.types := by decide +kernel

/-- C20.  An OpenFlow 1.3 queue configuration message whose `header.message_type` the caller has set to the number of the protocol
(22 or 23) is packed to the packet of its content, and refused with `PackException` only when its length or transaction id do not fit. -/
theorem C20_queue_messages_pack {q} (hq : q ∈ queueMessages) {v : Val} {x : Nat} {d : Data}
    (hv : msgDen (Spec.V04.plain q.1 q.2.1 q.2.2.2) v = some (x, d)) :
    PackOk (Spec.V04.plain q.1 q.2.1 q.2.2.2) x d (pyPack libs v) := by
  obtain ⟨m, hf, hn, hm, ok⟩ := fixed_ok q hq
  have h := ok.pack v x d hv
  obtain ⟨hdr, vs, rfl, h1, h2⟩ := msgDen_inv hv
  obtain ⟨h', hs, rfl⟩ : ∃ h' hs, hdr = .obj h' hs := by
    cases hdr <;> first | exact ⟨_, _, rfl⟩ | simp [hdrDen] at h1
  rw [← fixed_pack hm] at h
  have e : pyPack libs (.obj (Spec.V04.plain q.1 q.2.1 q.2.2.2).name (.obj h' hs :: vs)) =
      m.pack (.obj (Spec.V04.plain q.1 q.2.1 q.2.2.2).name (.obj h' hs :: vs)) := by
    have hn' : libs.findSome? (fun k => k.named (Spec.V04.plain q.1 q.2.1 q.2.2.2).name) = some m := hn
    simp only [pyPack, hn']
  rw [e]; exact h

example := C20_queue_messages_pack (q := queueMessages[1]'(by decide +kernel)) (List.getElem_mem _)
  (v := .obj "04.QueueGetConfigReply" [.obj "04.Header" [.ub 1 (.int 4), .enum 23, .none, .int 7], .int 0xfffffffe, .pad 4,
    .list true [.obj "04.PacketQueue" [.int 1, .int 5, .int 16, .pad 6, .list true []]]]) rfl

/-- C20.  Decoding such a packet, from a peer that follows the protocol or from the previous theorem, gives an object of the right
class with the content of the packet and its transaction id and length; but the header of that object says 7 or 8, the number
the class would send. -/
theorem C20_queue_messages_unpack {q} (hq : q ∈ queueMessages) {x : Nat} {d : Data} {body : Bytes}
    (he : (Spec.struct q.1 q.2.2.2).enc d = some body) (ho : (Spec.struct q.1 q.2.2.2).ok d) (hb : 8 + body.length < 65536)
    (hx : x < 4294967296) :
    ∃ vs, pyUnpack libs (.bytes (packet 4 q.2.1 x body)) = .ok (.obj q.1 (.obj "04.Header"
        [.ub 1 (.int 4), .enum q.2.2.1, .ub 2 (.int (8 + body.length : Nat)), .ub 4 (.int x)] :: vs)) ∧
      (Spec.struct q.1 q.2.2.2).den (.obj q.1 vs) = some d := by
  obtain ⟨m, hf, hn, hm, ok⟩ := fixed_ok q hq
  obtain ⟨hc, ht⟩ := codes q hq
  obtain ⟨vs, hvs, hden⟩ := ok.unpack d body he ho
  have hvs' : m.unpack body = .ok vs := by rw [hm]; exact hvs
  refine ⟨vs, ?_, hden⟩
  have hl : libs.find? (fun k => k.ver == 4) = some V04.lib := rfl
  simp only [pyUnpack, packet_valid (ver := 4) (code := q.2.1) (x := x) (by decide) (by decide) hb]
  rw [packet_head]
  have hvv : (UInt8.ofNat 4).toNat = 4 := rfl
  simp only [hvv, hl]
  rw [← packet_head]
  simp only [unpackMessage, take8_packet, drop8_packet,
    header_unpack (lver := V04.lib.ver) (ver := 4) (by decide) hc hb hx ht, Int.toNat_natCast, hf, hvs', rewrap]
  rw [hm]; rfl

/-- A corrected reply about the local port with one queue: it is packed, and the packet decodes with type 8 in the header. -/
example : ∃ p, pyPack libs (.obj "04.QueueGetConfigReply" [.obj "04.Header" [.ub 1 (.int 4), .enum 23, .none, .int 7], .int 0xfffffffe, .pad 4,
      .list true [.obj "04.PacketQueue" [.int 1, .int 5, .int 16, .pad 6, .list true []]]]) = .ok p ∧ p[1]? = some 23 ∧ p.length = 32 ∧
    (pyUnpack libs (.bytes p)).toOption.bind (fun v => match v with
      | .obj c (.obj _ [_, t, _, _] :: _) => some (c, t)
      | _ => none) = some ("04.QueueGetConfigReply", .enum 8) :=
  ⟨packet 4 23 7 [255, 255, 255, 254, 0, 0, 0, 0, 0, 0, 0, 1, 0, 0, 0, 5, 0, 16, 0, 0, 0, 0, 0, 0], by decide +kernel⟩

/-- C20.  About a port that is not one of the nine reserved numbers they cannot be decoded at all, the field being declared with the
enumeration `PortNo`: the corrected request about port 5 packs, and its packet is refused. -/
theorem C20_queue_port_counterexample : PacksButRefused (.obj "04.QueueGetConfigRequest"
    [.obj "04.Header" [.ub 1 (.int 4), .enum 22, .none, .int 7], .int 5, .pad 4]) :=
  ⟨packet 4 22 7 [0, 0, 0, 5, 0, 0, 0, 0], by decide +kernel⟩

end Pyof.Props
