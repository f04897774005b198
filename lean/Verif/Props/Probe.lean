import Verif.Model.NetNew
import Verif.Props.Ctor
import Verif.Props.Ethernet
import Verif.Props.Lldp
/-!
# C65: network packets from their constructors into messages and back
-/
namespace Pyof.Props
open Pyof.Spec Pyof.Net

/-- The constructors of the network packets. -/
def networkCtors : List Ctor := [New.arp, New.vlan, New.ethernet, New.genericTLV, New.tlvWithSubType, New.lldp]

private theorem net_plain : networkCtors.all isPlain = true := by decide +kernel

/-- C65.  Every attribute of a new network packet holds the argument passed for the parameter of its name, or the default, or, if it has
no parameter, its fixed value. -/
theorem C65_attributes {c : Ctor} (hc : c ∈ networkCtors) {pos : List Val} {kw : List (String × Val)} (hk : (kw.map (·.1)).Nodup)
    {cls : String} {vs : List Val} (h : c.new pos kw = .ok (.obj cls vs)) {n : String} {v : Val}
    (hs : Stored c (Passed (c.params.map (·.name)) pos kw) n v) : attrOf (c.attrs.map (·.1)) vs n = some v := by
  have hp := plain_of (List.all_eq_true.mp net_plain c hc)
  have hauto : c.auto = none := by
    simp only [networkCtors, List.mem_cons, List.not_mem_nil, or_false] at hc
    rcases hc with rfl | rfl | rfl | rfl | rfl | rfl <;> rfl
  simp only [Ctor.new, hauto] at h
  split at h
  · cases h
  · rename_i vals hb
    cases h
    exact fill_holds hp (fun i p hi => bind_get hb (List.nodup_cons.mp hp.params).2 hk hi) hs

example := C65_attributes (c := New.arp) (by simp [networkCtors]) (pos := []) (kw := [("oper", .int 2)]) (by simp)
  (vs := [.int 1, .enum 0x0800, .int 6, .int 4, .int 2, .str "00:00:00:00:00:00".toList, .str "0.0.0.0".toList,
    .str "00:00:00:00:00:00".toList, .str "0.0.0.0".toList]) (cls := "net.ARP") (by decide +kernel) (n := "oper") (v := .int 2)
  (.given (p := New.arp.params.find? (·.name == "oper") |>.getD ⟨"oper", .none, .given⟩) (by simp [New.arp]) rfl (.inl (by simp)) (.inl rfl))

/-- What is stored for an omitted argument: a request between Ethernet and IPv4 addresses that are all zero; no VLAN tag; a frame without
addresses, tags, type and payload; the largest TLV type (reserved for organizations) and no value; a chassis id (1) assigned locally (7). -/
def networkDefaults : List (String × String × Val) :=
  [("net.ARP", "htype", .int 1), ("net.ARP", "ptype", .enum 0x0800), ("net.ARP", "hlen", .int 6), ("net.ARP", "plen", .int 4),
   ("net.ARP", "oper", .int 1), ("net.ARP", "sha", .str (colonHex [0, 0, 0, 0, 0, 0])), ("net.ARP", "spa", .str (dotted [0, 0, 0, 0])),
   ("net.ARP", "tha", .str (colonHex [0, 0, 0, 0, 0, 0])), ("net.ARP", "tpa", .str (dotted [0, 0, 0, 0])),
   ("net.VLAN", "pcp", .none), ("net.VLAN", "cfi", .none), ("net.VLAN", "vid", .none),
   ("net.Ethernet", "destination", .none), ("net.Ethernet", "source", .none), ("net.Ethernet", "vlans", .list true []),
   ("net.Ethernet", "ether_type", .none), ("net.Ethernet", "data", .bytes []),
   ("net.GenericTLV", "tlv_type", .int 127), ("net.GenericTLV", "value", .bin .none),
   ("net.TLVWithSubType", "tlv_type", .int 1), ("net.TLVWithSubType", "sub_type", .int 7), ("net.TLVWithSubType", "sub_value", .bin .none)]

/-- C65.  For an omitted argument the value of this table is stored, and the arguments of each class are those of the table, in its order. -/
theorem C65_defaults : ∀ c ∈ networkCtors,
    c.params.map (fun p => (c.cls, p.name, p.init.apply p.dflt)) = networkDefaults.filter (fun t => t.1 == c.cls) := by
  decide +kernel

/-- What a new packet holds in the attributes for which its constructor has no argument: the type of a VLAN tag, and an empty number of two
bytes for the rest of the tag; a chassis id (TLV 1) and a port id (TLV 2), assigned locally (7) and empty, 120 seconds (TLV 3) and the end (TLV 0). -/
def networkFixed : List (String × String × Val) :=
  [("net.VLAN", "tpid", .enum 0x8100), ("net.VLAN", "_tci", .ub 2 .none),
   ("net.LLDP", "chassis_id", .obj "net.TLVWithSubType" [.int 1, .int 7, .bin .none]),
   ("net.LLDP", "port_id", .obj "net.TLVWithSubType" [.int 2, .int 7, .bin .none]),
   ("net.LLDP", "ttl", .obj "net.GenericTLV" [.int 3, .ub 2 (.int 120)]), ("net.LLDP", "end", .obj "net.GenericTLV" [.int 0, .bin .none])]

/-- C65.  These, and no others, are the attributes that are not given by an argument. -/
theorem C65_fixed : ∀ c ∈ networkCtors,
    c.attrs.filterMap (fun a => a.2.map fun v => (c.cls, a.1, v)) = networkFixed.filter (fun t => t.1 == c.cls) := by
  decide +kernel

/-- C65.  An ARP packet made with an operation and addresses is a packet for Ethernet (type 1, addresses of 6 bytes) and IPv4 (type 0x0800,
addresses of 4 bytes) with that operation and these addresses. -/
theorem C65_arp {op sha spa tha tpa : Val} {n : Nat} {b1 b2 b3 b4 : Bytes} (hop : number op = some (n : Int)) (hn : n < 65536)
    (h1 : hwAttr.pack sha = .ok b1) (h2 : (ipAttr).pack spa = .ok b2) (h3 : hwAttr.pack tha = .ok b3) (h4 : (ipAttr).pack tpa = .ok b4) :
    ∃ vs, New.arp.new [] [("oper", op), ("sha", sha), ("spa", spa), ("tha", tha), ("tpa", tpa)] = .ok (.obj "net.ARP" vs) ∧
      arpPack vs = .ok ([0, 1, 8, 0, 6, 4] ++ be 2 n ++ b1 ++ b2 ++ b3 ++ b4) := by
  refine ⟨[.int 1, .enum 0x0800, .int 6, .int 4, op, sha, spa, tha, tpa], rfl, ?_⟩
  have hv : arpIsValid [.int 1, .enum 0x0800, .int 6, .int 4, op, sha, spa, tha, tpa] = .ok true := by rfl
  have ho : (ubint 2).pack op = .ok (be 2 n) := by
    show ubPack 2 .none op = _
    rw [ubPack_number]
    have hne : op ≠ .none := by rintro rfl; cases hop
    split
    · rename_i i hi
      split at hi
      · exact absurd rfl hne
      · cases hop.symm.trans hi
        exact packNum_fit (by simpa using hn)
    · rename_i hi
      split at hi
      · exact absurd rfl hne
      · exact absurd (hi.symm.trans hop) (by simp)
  simp only [arpPack, hv]
  refine Pyof.packAttrs_cons.mpr ⟨[0, 1], _, by rfl, Pyof.packAttrs_cons.mpr ⟨[8, 0], _, by rfl, Pyof.packAttrs_cons.mpr ⟨[6], _, by rfl,
    Pyof.packAttrs_cons.mpr ⟨[4], _, by rfl, Pyof.packAttrs_cons.mpr ⟨_, _, ho, Pyof.packAttrs_cons.mpr ⟨_, _, h1, Pyof.packAttrs_cons.mpr ⟨_, _, h2,
    Pyof.packAttrs_cons.mpr ⟨_, _, h3, Pyof.packAttrs_cons.mpr ⟨_, _, h4, rfl, rfl⟩, rfl⟩, rfl⟩, rfl⟩, rfl⟩, rfl⟩, rfl⟩, rfl⟩, ?_⟩
  simp

example := C65_arp (op := .enum 2) (sha := .str "0a:00:00:00:00:01".toList) (spa := .str "10.0.0.1".toList) (tha := .hw (.str "0a:00:00:00:00:02".toList))
  (tpa := .str "10.0.0.2".toList) (n := 2) (b1 := [10, 0, 0, 0, 0, 1]) (b2 := [10, 0, 0, 1]) (b3 := [10, 0, 0, 0, 0, 2]) (b4 := [10, 0, 0, 2]) rfl (by decide)
  (by decide +kernel) (by decide +kernel) (by decide +kernel) (by decide +kernel)

/-- The payload of a probe: an LLDP packet with chassis id, port id, a time to live of 120 seconds and the end mark. -/
def probePayload (chassis port : Bytes) : Bytes :=
  tlv 1 (be 1 7 ++ chassis) ++ tlv 2 (be 1 7 ++ port) ++ tlv 3 (be 2 120) ++ tlv 0 []

/-- A program that builds a probe:

    lldp = LLDP()
    lldp.chassis_id = TLVWithSubType(tlv_type=1, sub_value=chassis)
    lldp.port_id = TLVWithSubType(tlv_type=2, sub_value=port)
    Ethernet(destination, source, ether_type=0x88cc, data=lldp.pack()).pack() -/
def buildProbe (dst src chassis port : Val) : Res Bytes := do
  let c ← New.tlvWithSubType.new [] [("tlv_type", .int 1), ("sub_value", chassis)]
  let p ← New.tlvWithSubType.new [] [("tlv_type", .int 2), ("sub_value", port)]
  match ← New.lldp.new [] [] with
  | .obj _ [_, _, ttl, fin] =>
    let payload ← packAttrs lldpFields [c, p, ttl, fin]
    match ← New.ethernet.new [dst, src] [("ether_type", .enum 0x88cc), ("data", .bytes payload)] with
    | .obj _ vs => ethernetPack vs
    | _ => .error .unmodelled
  | _ => .error .unmodelled

/-- A program that reads one:

    frame = Ethernet(); frame.unpack(b)
    if frame.ether_type.value == 0x88cc:
        lldp = LLDP(); lldp.unpack(frame.data.value)
        lldp.chassis_id.sub_value.value, lldp.port_id.sub_value.value -/
def readProbe (b : Bytes) : Res (Option (Bytes × Bytes)) := do
  match ← ethernetUnpack b 0 with
  | [_, _, _, et, .bin (.bytes payload)] =>
    if number et = some 0x88cc then
      match ← unpackAttrs lldpFields payload 0 with
      | ([.obj _ [_, _, .bin (.bytes c)], .obj _ [_, _, .bin (.bytes p)], _, _], _) => .ok (some (c, p))
      | _ => .error .unmodelled
    else .ok none
  | _ => .error .unmodelled

/-- C65.  The frame of a probe is that of the addresses, type 0x88cc and the LLDP packet; reading it gives the chassis and port ids that
were put in. -/
theorem C65_probe {dst src chassis port : Val} {bd bs bc bp : Bytes} (hd : hwAttr.pack dst = .ok bd) (hs : hwAttr.pack src = .ok bs)
    (hc : gpack chassis = .ok bc) (hp : gpack port = .ok bp) (lc : bc.length ≤ 510) (lp : bp.length ≤ 510) :
    buildProbe dst src chassis port = .ok (frame bd bs [] 0x88cc (probePayload bc bp)) ∧
    readProbe (frame bd bs [] 0x88cc (probePayload bc bp)) = .ok (some (bc, bp)) := by
  have hl := C39_lldp (c := .obj "net.TLVWithSubType" [.int 1, .int 7, chassis]) (p := .obj "net.TLVWithSubType" [.int 2, .int 7, port])
    (l := .obj "net.GenericTLV" [.int 3, .ub 2 (.int 120)]) (e := .obj "net.GenericTLV" [.int 0, .bin .none])
    (t1 := 1) (s1 := 7) (t2 := 2) (s2 := 7) (t3 := 3) (t4 := 0) (b3 := be 2 120) (b4 := [])
    ⟨_, _, _, rfl, .inl rfl, .inl rfl, hc⟩ ⟨_, _, _, rfl, .inl rfl, .inl rfl, hp⟩ ⟨_, _, rfl, .inl rfl, by rfl⟩ ⟨_, _, rfl, .inl rfl, by rfl⟩
    (by decide) (by decide) ⟨lc, lp, by decide, by decide⟩
  obtain ⟨h1, h2, -⟩ := hl
  have h2 := h2 [] []
  rw [List.nil_append, List.append_nil] at h2
  change packAttrs lldpFields _ = .ok (probePayload bc bp) at h1
  change unpackAttrs lldpFields (probePayload bc bp) 0 = _ at h2
  constructor
  · have hn1 : New.tlvWithSubType.new [] [("tlv_type", .int 1), ("sub_value", chassis)] =
        .ok (.obj "net.TLVWithSubType" [.int 1, .int 7, chassis]) := by
      have hne : chassis ≠ .none := by rintro rfl; cases hc
      simp [Ctor.new, New.tlvWithSubType, bindArgs, Ctor.fill, Init.apply, List.lookup, hne]
    have hn2 : New.tlvWithSubType.new [] [("tlv_type", .int 2), ("sub_value", port)] =
        .ok (.obj "net.TLVWithSubType" [.int 2, .int 7, port]) := by
      have hne : port ≠ .none := by rintro rfl; cases hp
      simp [Ctor.new, New.tlvWithSubType, bindArgs, Ctor.fill, Init.apply, List.lookup, hne]
    have hn3 : ∃ a b, New.lldp.new [] [] = .ok (.obj "net.LLDP" [a, b, .obj "net.GenericTLV" [.int 3, .ub 2 (.int 120)],
        .obj "net.GenericTLV" [.int 0, .bin .none]]) := ⟨_, _, rfl⟩
    have hn4 : ∀ p, New.ethernet.new [dst, src] [("ether_type", .enum 0x88cc), ("data", .bytes p)] =
        .ok (.obj "net.Ethernet" [dst, src, .list true [], .enum 0x88cc, .bytes p]) := fun p => rfl
    obtain ⟨a, b, hn3⟩ := hn3
    have hf := C36_pack (et := .enum 0x88cc) (n := 0x88cc) (data := .bytes (probePayload bc bp)) (xs := []) true hd hs (by simp) rfl (by decide) rfl
    simp only [buildProbe, hn1, hn2, hn3, hn4, h1, bind, Except.bind]
    exact hf
  · have hu := (C36_roundtrip (tags := []) (probePayload bc bp) (hwPack_length hd) (hwPack_length hs) (by simp) (n := 0x88cc) (by decide) (by decide)
      (by decide)).1
    have hn : number (.ub 2 (.int ((0x88cc : Nat) : Int))) = some 0x88cc := rfl
    simp only [readProbe, hu, bind, Except.bind, frameObject, hn, if_true, h2, lldpObject]

example := C65_probe (dst := .str "01:80:c2:00:00:0e".toList) (src := .str "0a:00:00:00:00:01".toList) (chassis := .dpid (.str "00:00:00:00:00:00:00:2a".toList))
  (port := .ub 2 (.int 3)) (bd := [1, 128, 194, 0, 0, 14]) (bs := [10, 0, 0, 0, 0, 1]) (bc := [0, 0, 0, 0, 0, 0, 0, 42]) (bp := [0, 3])
  (by decide +kernel) (by decide +kernel) (by decide +kernel) (by decide +kernel) (by decide) (by decide)

/-- The messages that carry a packet of the network. -/
def carriers : List String := ["01.PacketIn", "01.PacketOut", "04.PacketIn", "04.PacketOut"]

private theorem carrier_cases {s : MsgFmt} (hs : s ∈ messages) (hn : s.name ∈ carriers) :
    s = Spec.V01.plain "01.PacketIn" 10 [("buffer_id", Spec.V01.u32), ("total_len", Spec.V01.u16), ("in_port", Spec.V01.u16),
      ("reason", uint 1 (some [0, 1])), ("pad", pad 1), ("data", rest)] ∨
    s = ⟨"01.PacketOut", 1, 13, "01.Header", Spec.V01.packetOut⟩ ∨
    s = Spec.V04.plain "04.PacketIn" 10 [("buffer_id", Spec.V04.u32), ("total_len", Spec.V04.u16), ("reason", uint 1 (some [0, 1, 2])),
      ("table_id", Spec.V04.u8), ("cookie", Spec.V04.u64), ("match", Spec.V04.«match»), ("pad", pad 2), ("data", rest)] ∨
    s = ⟨"04.PacketOut", 4, 13, "04.Header", Spec.V04.packetOut⟩ := by
  have h : s ∈ messages.filter (fun s => decide (s.name ∈ carriers)) := List.mem_filter.mpr ⟨hs, by simpa using hn⟩
  have e : messages.filter (fun s => decide (s.name ∈ carriers)) = [
    Spec.V01.plain "01.PacketIn" 10 [("buffer_id", Spec.V01.u32), ("total_len", Spec.V01.u16), ("in_port", Spec.V01.u16),
      ("reason", uint 1 (some [0, 1])), ("pad", pad 1), ("data", rest)],
    ⟨"01.PacketOut", 1, 13, "01.Header", Spec.V01.packetOut⟩,
    Spec.V04.plain "04.PacketIn" 10 [("buffer_id", Spec.V04.u32), ("total_len", Spec.V04.u16), ("reason", uint 1 (some [0, 1, 2])),
      ("table_id", Spec.V04.u8), ("cookie", Spec.V04.u64), ("match", Spec.V04.«match»), ("pad", pad 2), ("data", rest)],
    ⟨"04.PacketOut", 4, 13, "04.Header", Spec.V04.packetOut⟩] := by rfl
  rw [e] at h
  simpa using h

private theorem struct_last {cls : String} {fs : FieldFmts} {us : List Val} {d : Data}
    (h : (struct cls (fs ++ [("data", rest)])).den (.obj cls us) = some d) :
    ∃ vs w ds e, us = vs ++ [w] ∧ d = .record (ds ++ [e]) ∧ rest.den w = some e := by
  simp only [struct, if_true, Option.map_eq_some_iff] at h
  obtain ⟨es, h, rfl⟩ := h
  obtain ⟨vs, ws, ds, gs, rfl, rfl, -, h2⟩ := denAll_append_inv h
  obtain ⟨w, r, e, t, rfl, h3, h4, rfl⟩ := denAll_cons_inv h2
  obtain ⟨rfl, rfl⟩ := denAll_nil_inv h4
  exact ⟨vs, w, ds, e, rfl, rfl, h3⟩

private theorem den_last {s : MsgFmt} (hs : s ∈ messages) (hn : s.name ∈ carriers) {us : List Val} {d : Data}
    (h : s.fmt.den (.obj s.name us) = some d) :
    ∃ vs w ds e, us = vs ++ [w] ∧ d = .record (ds ++ [e]) ∧ rest.den w = some e := by
  rcases carrier_cases hs hn with rfl | rfl | rfl | rfl
  · exact struct_last (fs := [("buffer_id", Spec.V01.u32), ("total_len", Spec.V01.u16), ("in_port", Spec.V01.u16),
      ("reason", uint 1 (some [0, 1])), ("pad", pad 1)]) h
  · obtain ⟨b, p, l, acts, data, bn, pn, as, dd, h1, -, -, -, h2, rfl⟩ := V01.packetOut_den_inv h
    cases h1
    exact ⟨[b, p, l, acts], data, [_, _, _], dd, rfl, rfl, h2⟩
  · exact struct_last (fs := [("buffer_id", Spec.V04.u32), ("total_len", Spec.V04.u16), ("reason", uint 1 (some [0, 1, 2])),
      ("table_id", Spec.V04.u8), ("cookie", Spec.V04.u64), ("match", Spec.V04.«match»), ("pad", pad 2)]) h
  · obtain ⟨b, p, l, pd, acts, data, bn, pn, as, dd, h1, -, -, -, h2, rfl⟩ := V04.packetOut_den_inv h
    cases h1
    exact ⟨[b, p, l, pd, acts], data, [_, _, _], dd, rfl, rfl, h2⟩

/-- `data` as decoding leaves it. -/
private def IsData (v : Val) : Prop := v = .bin .none ∨ ∃ b, v = .bin (.bytes b)

private theorem unpackAttrs_last {fs : Fields} {b : Bytes} {o : Nat} {us : List Val} {k : Nat}
    (h : unpackAttrs (fs ++ [("data", binAttr)]) b o = .ok (us, k)) : ∃ vs w, us = vs ++ [w] ∧ IsData w := by
  induction fs generalizing o us k with
  | nil =>
    simp only [List.nil_append, unpackAttrs] at h
    split at h
    · cases h
    · rename_i v n hv
      cases h
      refine ⟨[], v, rfl, ?_⟩
      simp only [unpackAttr, binAttr] at hv
      split at hv
      · cases hv; exact .inl rfl
      · revert hv
        split <;> intro hv <;> cases hv
        exact .inr ⟨_, rfl⟩
  | cons f fs ih =>
    simp only [List.cons_append, unpackAttrs] at h
    split at h
    · cases h
    · split at h
      · cases h
      · rename_i hr
        cases h
        obtain ⟨vs, w, rfl, hw⟩ := ih hr
        exact ⟨_ :: vs, w, rfl, hw⟩

private theorem unpack_last {s : MsgFmt} (hs : s ∈ messages) (hn : s.name ∈ carriers) {l : Lib} {m : MsgCls} (k : Known s l m) {r : Bytes}
    {us : List Val} (h : m.unpack r = .ok us) : ∃ vs w, us = vs ++ [w] ∧ IsData w := by
  have hm := k.named
  rcases carrier_cases hs hn with rfl | rfl | rfl | rfl
  · cases (show libs.findSome? (fun k => k.named "01.PacketIn") = some V01.packetIn from rfl).symm.trans hm
    simp only [V01.packetIn, V01.msg] at h
    split at h
    · rename_i hu
      cases h
      exact unpackAttrs_last (fs := V01.packetIn.body.dropLast) hu
    · cases h
  · cases (show libs.findSome? (fun k => k.named "01.PacketOut") = some V01.packetOut from rfl).symm.trans hm
    simp only [V01.packetOut, V01.packetOutUnpack] at h
    repeat (split at h; · cases h)
    cases h
    rename_i hd
    cases hd
    exact ⟨[_, _, _, _], _, rfl, .inr ⟨_, rfl⟩⟩
  · cases (show libs.findSome? (fun k => k.named "04.PacketIn") = some V04.packetIn from rfl).symm.trans hm
    simp only [V04.packetIn, V04.msg] at h
    split at h
    · rename_i hu
      cases h
      exact unpackAttrs_last (fs := V04.packetIn.body.dropLast) hu
    · cases h
  · cases (show libs.findSome? (fun k => k.named "04.PacketOut") = some V04.packetOut from rfl).symm.trans hm
    simp only [V04.packetOut, V04.packetOutUnpack] at h
    repeat (split at h; · cases h)
    cases h
    rename_i hd
    cases hd
    exact ⟨[_, _, _, _, _], _, rfl, .inr ⟨_, rfl⟩⟩

/-- C65.  The bytes given as `data` to a packet-in or packet-out of either version are, after packing and unpacking the message, the bytes
in the `data` of the result. -/
theorem C65_carried {s : MsgFmt} (hs : s ∈ messages) (hn : s.name ∈ carriers) {hdr data : Val} {vs : List Val} {x : Nat} {d : Data}
    (hv : msgDen s (.obj s.name (hdr :: (vs ++ [data]))) = some (x, d)) (hok : s.fmt.ok d) {f : Bytes} (hf : f ≠ [])
    (hdata : rest.den data = some (.raw f)) {p : Bytes} (hp : pyPack libs (.obj s.name (hdr :: (vs ++ [data]))) = .ok p) :
    ∃ hdr' vs', pyUnpack libs (.bytes p) = .ok (.obj s.name (hdr' :: (vs' ++ [.bin (.bytes f)]))) := by
  obtain ⟨l, m, k⟩ := known hs
  obtain ⟨hdr0, us0, he0, -, hden⟩ := msgDen_inv hv
  cases he0
  obtain ⟨vs1, w1, ds, e, hvs, rfl, hw1⟩ := den_last hs hn hden
  obtain ⟨-, h1⟩ := List.append_inj' hvs rfl
  cases h1
  cases hdata.symm.trans hw1
  have hrt : ∃ w, pyUnpack libs (.bytes p) = .ok w ∧ msgDen s w = some (x, .record (ds ++ [.raw f])) := by
    rcases List.mem_append.mp hs with h | h
    · obtain ⟨w, h1, h2, -⟩ := C19_round_trip h hv hok hp; exact ⟨w, h1, h2⟩
    · obtain ⟨w, h1, h2, -⟩ := C20_round_trip h hv hok hp; exact ⟨w, h1, h2⟩
  obtain ⟨w, hw, hwd⟩ := hrt
  obtain ⟨hdr', us, rfl, -, hden'⟩ := msgDen_inv hwd
  obtain ⟨vs', w', ds', e', rfl, hd', hr'⟩ := den_last hs hn hden'
  obtain ⟨-, h1⟩ := List.append_inj' (Data.record.inj hd') rfl
  cases h1
  refine ⟨hdr', vs', ?_⟩
  have hdat : IsData w' := by
    obtain ⟨b0, b1, b2, b3, b4, b5, b6, b7, r, l', m', zs, hpe, hl, -, hm, hu, -, hobj⟩ := pyUnpack_bytes libs p _ hw
    obtain ⟨body, -, -, -, hpk⟩ := ((k.pack hv).ok p).mp hp
    have e0 : b0 = UInt8.ofNat s.ver := by
      have := packet_byte0 s.ver s.code x body
      rw [← hpk, hpe] at this
      exact Option.some.inj this
    have e1 : b1 = UInt8.ofNat s.code := by
      have := packet_byte1 s.ver s.code x body
      rw [← hpk, hpe] at this
      exact Option.some.inj this
    have n0 : b0.toNat = l.ver := by
      rw [e0, k.ver]
      exact UInt8.toNat_ofNat_of_lt' (by have := k.range.2; simp [UInt8.size]; omega)
    have n1 : b1.toNat = s.code := by
      rw [e1]
      exact UInt8.toNat_ofNat_of_lt' (by have := k.code.1; simp [UInt8.size]; omega)
    rw [n0] at hl
    cases k.vlib.symm.trans hl
    rw [n1] at hm
    cases k.find.symm.trans hm
    obtain ⟨ys, y, rfl, hy⟩ := unpack_last hs hn k hu
    have h2 := (List.cons.inj (Val.obj.inj hobj).2).2
    obtain ⟨-, h3⟩ := List.append_inj' h2 rfl
    cases h3
    exact hy
  rcases hdat with rfl | ⟨b, rfl⟩
  · simp only [rest, Option.some.injEq, Data.raw.injEq] at hr'
    exact absurd hr'.symm hf
  · simp only [rest, Option.some.injEq, Data.raw.injEq] at hr'
    rw [hr'] at hw
    exact hw

/-- C65 (end to end).  A switch with datapath id `bc` sends a probe out of port `n`: the probe goes to it in a packet-out, or comes back in a
packet-in, of either version.  Whoever unpacks the message, the frame in its `data` and the LLDP packet in the frame, and decodes the
chassis id as `DPID` and the port id as an unsigned integer, gets that datapath id and that port. -/
theorem C65_discovery {s : MsgFmt} (hs : s ∈ messages) (hn : s.name ∈ carriers) {hdr : Val} {vs : List Val} {x : Nat} {d : Data}
    {dst src : Val} {bd bs bc f : Bytes} {w n : Nat} (hd : hwAttr.pack dst = .ok bd) (hs' : hwAttr.pack src = .ok bs) (hc : bc.length = 8)
    (hw : w ≤ 8) (hp : n < 256 ^ w) (hf : buildProbe dst src (.dpid (.str (colonHex bc))) (.ub w (.int n)) = .ok f)
    (hv : msgDen s (.obj s.name (hdr :: (vs ++ [.bytes f]))) = some (x, d)) (hok : s.fmt.ok d) {p : Bytes}
    (hpk : pyPack libs (.obj s.name (hdr :: (vs ++ [.bytes f]))) = .ok p) :
    ∃ hdr' vs' f' c q, pyUnpack libs (.bytes p) = .ok (.obj s.name (hdr' :: (vs' ++ [.bin (.bytes f')]))) ∧
      readProbe f' = .ok (some (c, q)) ∧ dpidAttr.unpack c 0 = .ok (.dpid (.str (colonHex bc))) ∧
      (ubint w).unpack q 0 = .ok (.ub w (.int n)) := by
  have h1 : gpack (.dpid (.str (colonHex bc))) = .ok bc := dpidPackRaw_colonHex hc
  have h2 : gpack (.ub w (.int n)) = .ok (be w n) := by
    show ubPack w (.int n) .none = _
    rw [ubPack_number]
    exact packNum_fit hp
  obtain ⟨hb, hr⟩ := C65_probe hd hs' h1 h2 (by omega) (by rw [be_length]; omega)
  cases hb.symm.trans hf
  obtain ⟨hdr', vs', hu⟩ := C65_carried hs hn hv hok (by simp [frame, be]) rfl hpk
  refine ⟨hdr', vs', _, bc, be w n, hu, hr, ?_, ?_⟩
  · have := ((C06_dpid_pack _ _ (show dpidAttr.pack (.dpid (.str (colonHex bc))) = .ok bc from dpidPackRaw_colonHex hc)).2 [] []).1
    simpa using this
  · have hb : beVal (be w n) = n := beVal_be_of_lt hp
    have := unpackFrom_mid (pre := []) (be w n) []
    rw [List.nil_append, List.append_nil, be_length, hb] at this
    simp only [ubint, ubUnpack, List.length_nil] at this ⊢
    rw [this]
    rfl

/-- A packet-out of OpenFlow 1.0 from the controller, without actions, carrying a probe of the switch 00:00:00:00:00:00:00:2a and port 3; the
message packs, and its format is one of those of the theorem. -/
def exProbe : Res Bytes :=
  buildProbe (.str "01:80:c2:00:00:0e".toList) (.str "0a:00:00:00:00:01".toList) (.dpid (.str (colonHex [0, 0, 0, 0, 0, 0, 0, 42])))
    (.ub 2 (.int 3))

def exCarrier (f : Bytes) : Val :=
  .obj "01.PacketOut" [.obj "01.Header" [.ub 1 (.int 1), .enum 13, .none, .int 7], .int 0xffffffff, .enum 0xfffd, .none, .list false [],
    .bytes f]

def exFrame : Bytes :=
  [1, 128, 194, 0, 0, 14, 10, 0, 0, 0, 0, 1, 136, 204, 2, 9, 7, 0, 0, 0, 0, 0, 0, 0, 42, 4, 3, 7, 0, 3, 6, 2, 0, 120, 0, 0]

example : exProbe = .ok exFrame ∧ hwAttr.pack (.str "01:80:c2:00:00:0e".toList) = .ok [1, 128, 194, 0, 0, 14] ∧
    pyPack libs (exCarrier exFrame) = .ok ([1, 13, 0, 52, 0, 0, 0, 7, 255, 255, 255, 255, 255, 253, 0, 0] ++ exFrame) ∧
    "01.PacketOut" ∈ carriers ∧ readProbe exFrame = .ok (some ([0, 0, 0, 0, 0, 0, 0, 42], [0, 3])) := by decide +kernel

example : ∃ d, msgDen ⟨"01.PacketOut", 1, 13, "01.Header", Spec.V01.packetOut⟩ (exCarrier exFrame) = some (7, d) ∧ Spec.V01.packetOut.ok d :=
  ⟨_, rfl, fun _ h => by cases h⟩

/-- C65.  Frames with the same addresses, tags, type and payload have the same hash, in whatever form these are given. -/
theorem C65_hash {dst src et data : Val} {bd bs d : Bytes} {n : Nat} {xs : List (Val × Tag)} (k : Bool)
    (hd : hwAttr.pack dst = .ok bd) (hs : hwAttr.pack src = .ok bs) (hx : ∀ p ∈ xs, IsTag p.1 p.2 ∧ p.2.fits)
    (he : operand et = some (n : Int)) (hn : n < 65536) (hb : (binAttr).pack data = .ok d) (hash : Bytes → Int) :
    ethernetHash hash [dst, src, .list k (xs.map (·.1)), et, data] = .ok (hash (frame bd bs (xs.map (·.2)) n d)) := by
  simp only [ethernetHash, C36_pack k hd hs hx he hn hb]

example := C65_hash (dst := .str "01:02:03:04:05:06".toList) (src := .hw (.str "0a:0:0:0:0:1".toList)) (et := .int 0x0800) (data := .bytes [0xca])
  (bd := [1, 2, 3, 4, 5, 6]) (bs := [10, 0, 0, 0, 0, 1]) (d := [0xca]) (n := 0x0800) (xs := []) true
  (by decide +kernel) (by decide +kernel) nofun rfl (by decide) (by decide +kernel)

/-- C65.  The hash of a received frame is the hash of its bytes. -/
theorem C65_hash_received {buff : Bytes} {vs : List Val} (h : ethernetUnpack buff 0 = .ok vs) (hash : Bytes → Int) :
    ethernetHash hash vs = .ok (hash buff) := by
  have hl : IsFrame buff := by
    refine Classical.byContradiction fun hl => ?_
    rw [C36_short buff hl] at h
    cases h
  obtain ⟨ws, h1, h2⟩ := C36_decode buff hl
  cases h1.symm.trans h
  simp only [ethernetHash, h2]

example : ethernetUnpack exFrame 0 = .ok (frameObject [1, 128, 194, 0, 0, 14] [10, 0, 0, 0, 0, 1] [] 0x88cc (exFrame.drop 14)) ∧
    ethernetHash (fun b => b.length) (frameObject [1, 128, 194, 0, 0, 14] [10, 0, 0, 0, 0, 1] [] 0x88cc (exFrame.drop 14)) = .ok 36 := by
  decide +kernel

/-- `ARP(oper=2, sha="0a:00:00:00:00:01", spa="10.0.0.1")`, and a VLAN tag, a frame and a TLV with and without arguments. -/
example :
    New.arp.new [] [("oper", .int 2), ("sha", .str "0a:00:00:00:00:01".toList), ("spa", .str "10.0.0.1".toList)] =
      .ok (.obj "net.ARP" [.int 1, .enum 0x0800, .int 6, .int 4, .int 2, .str "0a:00:00:00:00:01".toList, .str "10.0.0.1".toList,
        .str "00:00:00:00:00:00".toList, .str "0.0.0.0".toList]) ∧
    New.vlan.new [.int 1] [("vid", .int 5)] = .ok (.obj "net.VLAN" [.enum 0x8100, .ub 2 .none, .int 1, .none, .int 5]) ∧
    New.ethernet.new [] [("vlan", .none)] = .error .type ∧
    New.genericTLV.new [] [] = .ok (.obj "net.GenericTLV" [.int 127, .bin .none]) := by decide +kernel

example := C65_carried (s := V01.messages[19]'(by decide +kernel)) (List.mem_append_left _ (List.getElem_mem _)) (by decide +kernel)
  (hdr := .obj "01.Header" [.ub 1 (.int 1), .enum 13, .none, .int 7]) (vs := [.int 0xffffffff, .enum 0xfffd, .none, .list false []])
  (data := .bytes exFrame) rfl (by intro _ h; cases h) (f := exFrame) (by decide) rfl
  (p := [1, 13, 0, 52, 0, 0, 0, 7, 255, 255, 255, 255, 255, 253, 0, 0] ++ exFrame) (by decide +kernel)

end Pyof.Props
