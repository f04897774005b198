import Verif.Props.Ethernet
import Verif.Props.Network
import Verif.Props.Ip
import Verif.Props.Probe
/-!
# C74 Packets of the network that a controller receives, changes and sends on
-/
namespace Pyof.Props
open Pyof Net Spec

/-- A program that changes frames of a certain type and passes them on:

    frame = Ethernet(); frame.unpack(b)
    if frame.ether_type.value == etherType:
        frame.data = ...                      # change: new data from frame.data.value
        ...                                   # route: assign frame.destination, frame.source, frame.vlans
        return frame.pack() -/
def passFrame (etherType : Nat) (change : Bytes → Res Bytes) (route : Val × Val × Val → Val × Val × Val) (b : Bytes) : Res (Option Bytes) := do
  match ← ethernetUnpack b 0 with
  | [dst, src, vlans, et, .bin (.bytes payload)] =>
    if number et = some (etherType : Int) then
      let out ← change payload
      let to := route (dst, src, vlans)
      let f ← ethernetPack [to.1, to.2.1, to.2.2, et, .bytes out]
      .ok (some f)
    else .ok none
  | _ => .error .unmodelled

/-- A program that passes an IPv4 packet on; `change` is

    packet = IPv4(); packet.unpack(frame.data.value)
    ...                                       # edit: assign attributes of packet
    frame.data = packet.pack() -/
def passOn (edit : IPv4 → IPv4) : (Val × Val × Val → Val × Val × Val) → Bytes → Res (Option Bytes) :=
  passFrame 0x0800 fun payload => do
    let packet ← IPv4.unpack payload 0
    let out ← (edit packet).pack
    .ok out.1

private theorem passFrame_eq {dst src : Bytes} {tags : List Tag} {E : Nat} {change : Bytes → Res Bytes} {route : Val × Val × Val → Val × Val × Val}
    {payload out : Bytes} (hdst : dst.length = 6) (hsrc : src.length = 6) (htags : ∀ t ∈ tags, t.fits) (hE : E < 65536) (h1 : E ≠ 0x8100) (h2 : E ≠ 0x88a8)
    (hc : change payload = .ok out) {to from_ : Val} {k : Bool} {xs : List (Val × Tag)} {bt bf : Bytes}
    (hr : route (.hw (.str (colonHex dst)), .hw (.str (colonHex src)), .list true (tags.map Tag.value)) = (to, from_, .list k (xs.map (·.1))))
    (ht : hwAttr.pack to = .ok bt) (hfr : hwAttr.pack from_ = .ok bf) (hx : ∀ q ∈ xs, IsTag q.1 q.2 ∧ q.2.fits) :
    passFrame E change route (frame dst src tags E payload) = .ok (some (frame bt bf (xs.map (·.2)) E out)) := by
  have hu := (C36_roundtrip payload hdst hsrc htags hE h1 h2).1
  have hn : number (.ub 2 (.int (E : Int))) = some (E : Int) := rfl
  have hpk := C36_pack (et := .ub 2 (.int (E : Int))) (n := E) (data := .bytes out) k ht hfr hx rfl hE rfl
  unfold passFrame
  simp only [hu, frameObject, bind, Except.bind, hn, if_true, hc, hr, hpk]

/-- What the header is read as. -/
def ipv4Object (v ds e len ident f o ttl proto chk : Nat) (s d data : Bytes) : IPv4 :=
  { version := v, ihl := 5, dscp := ds, ecn := e, length := len, identification := ident, flags := f, offset := o, ttl := ttl,
    protocol := proto, checksum := chk, source := dotted s, destination := dotted d, options := [], data := data }

/-- C74, IPv4.  A frame with any VLAN tags and an IPv4 packet without options in it is received; attributes of the packet and the addresses and tags of the
frame are changed in any way (to values that can be sent).  What is sent is the frame with the new addresses and tags around a packet with the new
values, with the length of its new data and a valid checksum, whatever length and checksum were received.

Partial: not for a packet with options (`C37_reencode`) or with padding behind it (`C74_padding_counterexample`). -/
theorem C74_ipv4_partial {dst src : Bytes} {tags : List Tag} {v ds e len ident f o ttl proto chk : Nat} {s d : Bytes} (data : Bytes)
    (hdst : dst.length = 6) (hsrc : src.length = 6) (htags : ∀ t ∈ tags, t.fits)
    (h1 : v < 16) (h3 : ds < 64) (h4 : e < 4) (h5 : len < 65536) (h6 : ident < 65536) (h7 : f < 8) (h8 : o < 8192)
    (h9 : ttl < 256) (h10 : proto < 256) (h11 : chk < 65536) (hs : s.length = 4) (hd : d.length = 4)
    {edit : IPv4 → IPv4} {route : Val × Val × Val → Val × Val × Val} {p : IPv4} {ps pd : Bytes}
    (he : edit (ipv4Object v ds e len ident f o ttl proto chk s d data) = p) (hf : IPv4Fits p) (hi : p.ihl = 5) (ho : p.options = [])
    (hps : (ipAttr).pack (.str p.source) = .ok ps) (hpd : (ipAttr).pack (.str p.destination) = .ok pd)
    (ns : '/' ∉ p.source) (nd : '/' ∉ p.destination) (hl : 20 + p.data.length < 65536)
    {to from_ : Val} {k : Bool} {xs : List (Val × Tag)} {bt bf : Bytes}
    (hr : route (.hw (.str (colonHex dst)), .hw (.str (colonHex src)), .list true (tags.map Tag.value)) = (to, from_, .list k (xs.map (·.1))))
    (ht : hwAttr.pack to = .ok bt) (hfr : hwAttr.pack from_ = .ok bf) (hx : ∀ q ∈ xs, IsTag q.1 q.2 ∧ q.2.fits) :
    ∃ chk', chk' < 65535 ∧
      let head := ipv4Header p.version 5 p.dscp p.ecn (20 + p.data.length) p.identification p.flags p.offset p.ttl p.protocol chk' ps pd
      onesSum head = 0xffff ∧
      passOn edit route (frame dst src tags 0x0800 (ipv4Header v 5 ds e len ident f o ttl proto chk s d ++ data)) =
        .ok (some (frame bt bf (xs.map (·.2)) 0x0800 (head ++ p.data))) := by
  obtain ⟨chk', hc, hsum, _, hp⟩ := C37_pack hf hi (by rw [ho]; rfl) (by rw [ho]; decide) hps hpd ns nd (by rw [ho]; simpa using hl)
  simp only [ho, List.length_nil, Nat.zero_div, Nat.add_zero, List.append_nil] at hsum hp
  refine ⟨chk', hc, hsum, ?_⟩
  have hip := C37_unpack (i := 5) data h1 (by decide) h3 h4 h5 h6 h7 h8 h9 h10 h11 hs hd []
  simp only [List.nil_append, List.length_nil, Nat.sub_self, Nat.zero_mul, List.take_zero, List.drop_zero] at hip
  refine passFrame_eq hdst hsrc htags (by decide) (by decide) (by decide) ?_ hr ht hfr hx
  simp only [bind, Except.bind, hip]
  have he' := he
  unfold ipv4Object at he'
  rw [he', hp]

private theorem bind_ok {α β : Type} {x : Res α} {a : α} {f : α → Res β} (h : x = .ok a) : (x >>= f) = f a := by rw [h]; rfl

private theorem value_isTag {t : Tag} (h : t.fits) : IsTag t.value t := by
  refine ⟨_, _, _, _, _, rfl, rfl, rfl, rfl, rfl, ?_⟩
  rintro ⟨h, _⟩
  cases h

private theorem dotted_pack {s : Bytes} (hs : s.length = 4) : (ipAttr).pack (.str (dotted s)) = .ok s := ipPackRaw_dotted hs

private theorem dotted_slash {s : Bytes} (hs : s.length = 4) : '/' ∉ dotted s := by
  have h2 := ipText_no_slash hs
  rwa [dotted_eq hs] at h2

private theorem mac_pack {m : Bytes} (h : m.length = 6) : hwAttr.pack (.hw (.str (colonHex m))) = .ok m := hwPackRaw_colonHex h

private theorem ip_pack {m : Bytes} (h : m.length = 4) : (ipAttr).pack (.ip (.str (dotted m)) 32) = .ok m := ipPackRaw_dotted h

private theorem arp_new (op sha spa tha tpa : Val) : New.arp.new [] [("oper", op), ("sha", sha), ("spa", spa), ("tha", tha), ("tpa", tpa)] =
    .ok (.obj "net.ARP" [.int 1, .enum 0x0800, .int 6, .int 4, op, sha, spa, tha, tpa]) := rfl


/-- C74, IPv4.  If nothing is changed, a packet with the right length and checksum goes out as it came in. -/
theorem C74_ipv4_unchanged_partial {dst src : Bytes} {tags : List Tag} {v ds e ident f o ttl proto chk : Nat} {s d : Bytes} (data : Bytes)
    (hdst : dst.length = 6) (hsrc : src.length = 6) (htags : ∀ t ∈ tags, t.fits)
    (h1 : v < 16) (h3 : ds < 64) (h4 : e < 4) (h5 : 20 + data.length < 65536) (h6 : ident < 65536) (h7 : f < 8) (h8 : o < 8192)
    (h9 : ttl < 256) (h10 : proto < 256) (h11 : chk < 65535) (hs : s.length = 4) (hd : d.length = 4)
    (hsum : onesSum (ipv4Header v 5 ds e (20 + data.length) ident f o ttl proto chk s d) = 0xffff) :
    let b := frame dst src tags 0x0800 (ipv4Header v 5 ds e (20 + data.length) ident f o ttl proto chk s d ++ data)
    passOn id id b = .ok (some b) := by
  obtain ⟨chk', hc, hsum', hp⟩ := C74_ipv4_partial (edit := id) (route := id) (xs := tags.map fun t => (t.value, t)) (k := true) data hdst hsrc htags h1 h3 h4 h5
    h6 h7 h8 h9 h10 (show chk < 65536 by omega) hs hd rfl ⟨h1, h3, h4, h6, h7, h8, h9, h10⟩ rfl rfl (dotted_pack hs) (dotted_pack hd)
    (dotted_slash hs) (dotted_slash hd) h5 (to := .hw (.str (colonHex dst))) (from_ := .hw (.str (colonHex src)))
    (by simp only [id, List.map_map, Function.comp_def]) (mac_pack hdst) (mac_pack hsrc)
    (by intro q hq; obtain ⟨t, ht, rfl⟩ := List.mem_map.1 hq; exact ⟨value_isTag (htags t ht), htags t ht⟩)
  have : chk = chk' := checksum_unique h1 (by decide) h3 h4 h5 h6 h7 h8 h9 h10 hs hd h11 hc hsum hsum'
  subst this
  simpa [ipv4Object, List.map_map, Function.comp_def] using hp

/-- C74, IPv4: what a router does.  The time to live is one less, the frame gets new addresses and no tag; everything else is as it was received. -/
theorem C74_ipv4_routed {dst src dst' src' : Bytes} {tags : List Tag} {v ds e ident f o ttl proto chk : Nat} {s d : Bytes} (data : Bytes)
    (hdst : dst.length = 6) (hsrc : src.length = 6) (hdst' : dst'.length = 6) (hsrc' : src'.length = 6) (htags : ∀ t ∈ tags, t.fits)
    (h1 : v < 16) (h3 : ds < 64) (h4 : e < 4) (h5 : 20 + data.length < 65536) (h6 : ident < 65536) (h7 : f < 8) (h8 : o < 8192)
    (h9 : ttl < 256) (h10 : proto < 256) (h11 : chk < 65536) (hs : s.length = 4) (hd : d.length = 4) :
    ∃ chk', chk' < 65535 ∧
      let head := ipv4Header v 5 ds e (20 + data.length) ident f o (ttl - 1) proto chk' s d
      onesSum head = 0xffff ∧
      passOn (fun p => { p with ttl := p.ttl - 1 }) (fun _ => (.str (colonHex dst'), .str (colonHex src'), .list true []))
        (frame dst src tags 0x0800 (ipv4Header v 5 ds e (20 + data.length) ident f o ttl proto chk s d ++ data)) =
        .ok (some (frame dst' src' [] 0x0800 (head ++ data))) := by
  have := C74_ipv4_partial (xs := []) (k := true) data hdst hsrc htags h1 h3 h4 h5 h6 h7 h8 h9 h10 h11 hs hd (edit := fun p => { p with ttl := p.ttl - 1 })
    (p := ipv4Object v ds e (20 + data.length) ident f o (ttl - 1) proto chk s d data) (route := fun _ => (.str (colonHex dst'), .str (colonHex src'), .list true [])) rfl
    ⟨h1, h3, h4, h6, h7, h8, Nat.lt_of_le_of_lt (Nat.sub_le _ _) h9, h10⟩ rfl rfl (dotted_pack hs) (dotted_pack hd) (dotted_slash hs) (dotted_slash hd) h5 rfl
    (hwPackRaw_colonHex hdst') (hwPackRaw_colonHex hsrc') nofun
  simpa only [ipv4Object, List.map_nil] using this

/-! ## IPv6 -/

/-- The same for IPv6. -/
def passOn6 (edit : IPv6 → IPv6) : (Val × Val × Val → Val × Val × Val) → Bytes → Res (Option Bytes) :=
  passFrame 0x86dd fun payload => do
    let packet ← IPv6.unpack payload 0
    let out ← (edit packet).pack
    .ok out.1

/-- What the header is read as. -/
def ipv6Object (v c f len nh hl : Nat) (s d data : Bytes) : IPv6 :=
  { version := v, tclass := c, flabel := f, length := len, nextHeader := nh, hopLimit := hl, source := .str (ip6Text s),
    destination := .str (ip6Text d), data := data }

/-- C74, IPv6.  As `C74_ipv4_partial`. -/
theorem C74_ipv6_partial {dst src : Bytes} {tags : List Tag} {v c f len nh hl : Nat} {s d : Bytes} (data : Bytes)
    (hdst : dst.length = 6) (hsrc : src.length = 6) (htags : ∀ t ∈ tags, t.fits)
    (h1 : v < 16) (h2 : c < 256) (h3 : f < 2 ^ 20) (h4 : len < 65536) (h5 : nh < 256) (h6 : hl < 256) (hs : s.length = 16) (hd : d.length = 16)
    {edit : IPv6 → IPv6} {route : Val × Val × Val → Val × Val × Val} {p : IPv6} {ps pd : Bytes}
    (he : edit (ipv6Object v c f len nh hl s d data) = p) (f1 : p.version < 16) (f2 : p.tclass < 256) (f3 : p.flabel < 2 ^ 20)
    (f4 : p.nextHeader < 256) (f5 : p.hopLimit < 256) (hps : ip6Attr.pack p.source = .ok ps) (hpd : ip6Attr.pack p.destination = .ok pd)
    (hln : p.data.length < 65536) {to from_ : Val} {k : Bool} {xs : List (Val × Tag)} {bt bf : Bytes}
    (hr : route (.hw (.str (colonHex dst)), .hw (.str (colonHex src)), .list true (tags.map Tag.value)) = (to, from_, .list k (xs.map (·.1))))
    (ht : hwAttr.pack to = .ok bt) (hfr : hwAttr.pack from_ = .ok bf) (hx : ∀ q ∈ xs, IsTag q.1 q.2 ∧ q.2.fits) :
    passOn6 edit route (frame dst src tags 0x86dd (ipv6Header v c f len nh hl s d ++ data)) =
      .ok (some (frame bt bf (xs.map (·.2)) 0x86dd
        (ipv6Header p.version p.tclass p.flabel p.data.length p.nextHeader p.hopLimit ps pd ++ p.data))) := by
  have hp := C38_pack f1 f2 f3 f4 f5 hps hpd hln
  have hip := C38_unpack data h1 h2 h3 h4 h5 h6 hs hd []
  simp only [List.nil_append, List.length_nil] at hip
  unfold passOn6
  refine passFrame_eq hdst hsrc htags (by omega) (by omega) (by omega) ?_ hr ht hfr hx
  unfold ipv6Object at he
  refine (bind_ok hip).trans ?_
  rw [he]
  exact bind_ok hp

/-! ## ARP -/

/-- A program that answers ARP requests with the address `mac`:

    frame = Ethernet(); frame.unpack(b)
    if frame.ether_type.value == 0x0806:
        arp = ARP(); arp.unpack(frame.data.value)
        if arp.oper.value == 1:
            reply = ARP(oper=2, sha=mac, spa=arp.tpa, tha=arp.sha, tpa=arp.spa)
            return Ethernet(frame.source, mac, ether_type=0x0806, data=reply.pack()).pack() -/
def answer (mac : Val) (b : Bytes) : Res (Option Bytes) := do
  match ← ethernetUnpack b 0 with
  | [_, src, _, et, .bin (.bytes payload)] =>
    if number et = some 0x0806 then
      match ← arpUnpack payload 0 with
      | [_, _, _, _, oper, sha, spa, _, tpa] =>
        if number oper = some 1 then
          match ← New.arp.new [] [("oper", .int 2), ("sha", mac), ("spa", tpa), ("tha", sha), ("tpa", spa)] with
          | .obj _ vs =>
            let body ← arpPack vs
            match ← New.ethernet.new [src, mac] [("ether_type", .enum 0x0806), ("data", .bytes body)] with
            | .obj _ ws => return some (← ethernetPack ws)
            | _ => .error .unmodelled
          | _ => .error .unmodelled
        else .ok none
      | _ => .error .unmodelled
    else .ok none
  | _ => .error .unmodelled

/-- The bytes of an ARP packet for Ethernet and IPv4 (RFC 826). -/
def arpBytes (oper : Nat) (sha spa tha tpa : Bytes) : Bytes := [0, 1, 8, 0, 6, 4] ++ be 2 oper ++ sha ++ spa ++ tha ++ tpa

/-- C74, ARP.  The answer to a request (in a frame with any tags, with any padding behind it) goes to the sender of the frame, says that the
address asked for belongs to `mac`, and names the one that asked; other ARP packets are not answered. -/
theorem C74_arp {dst src : Bytes} {tags : List Tag} {n : Nat} {sha spa tha tpa : Bytes} (padding : Bytes) {mac : Val} {m : Bytes}
    (hdst : dst.length = 6) (hsrc : src.length = 6) (htags : ∀ t ∈ tags, t.fits) (hn : n < 65536)
    (h1 : sha.length = 6) (h2 : spa.length = 4) (h3 : tha.length = 6) (h4 : tpa.length = 4) (hm : hwAttr.pack mac = .ok m) :
    answer mac (frame dst src tags 0x0806 (arpBytes n sha spa tha tpa ++ padding)) =
      .ok (if n = 1 then some (frame src m [] 0x0806 (arpBytes 2 m tpa sha spa)) else none) := by
  have hu := (C36_roundtrip (arpBytes n sha spa tha tpa ++ padding) hdst hsrc htags (n := 0x0806) (by decide) (by decide) (by decide)).1
  have harp : arpUnpack (arpBytes n sha spa tha tpa ++ padding) 0 = .ok (arpObject 6 4 n sha spa tha tpa) := by
    obtain ⟨vs, e, hp⟩ := C65_arp (op := .int n) (n := n) rfl hn (mac_pack h1) (ip_pack h2) (mac_pack h3) (ip_pack h4)
    rw [arp_new] at e
    cases e
    obtain ⟨a, b, c, d1, d2, d3, d4, _, _, _, _, _, e1, e2, e3, e4, e5, e6, e7, hr, _⟩ := C40_roundtrip hp
    rw [mac_pack h1] at e4
    rw [mac_pack h3] at e6
    rw [(ip_pack h2)] at e5
    rw [(ip_pack h4)] at e7
    cases e4; cases e5; cases e6; cases e7
    have a6 : a = 6 := by have : some (6 : Int) = some (a : Int) := e1; simp at this; omega
    have b4 : b = 4 := by have : some (4 : Int) = some (b : Int) := e2; simp at this; omega
    have cn : c = n := by have : some (n : Int) = some (c : Int) := e3; simp at this; omega
    subst a6 b4 cn
    exact hr [] padding
  obtain ⟨ws, e, hp⟩ := C65_arp (op := .int 2) (n := 2) rfl (by decide) hm (ip_pack h4) (mac_pack h1) (ip_pack h2)
  have hpk := C36_pack (xs := []) (et := .enum 0x0806) (n := 0x0806) (data := .bytes (arpBytes 2 m tpa sha spa)) true (mac_pack hsrc) hm nofun rfl (by decide) rfl
  have hnew : New.ethernet.new [.hw (.str (colonHex src)), mac] [("ether_type", .enum 0x0806), ("data", .bytes (arpBytes 2 m tpa sha spa))] =
      .ok (.obj "net.Ethernet" [.hw (.str (colonHex src)), mac, .list true [], .enum 0x0806, .bytes (arpBytes 2 m tpa sha spa)]) := rfl
  have hn1 : number (.ub 2 (.int ((0x0806 : Nat) : Int))) = some 0x0806 := rfl
  have hn2 : number (.ub 2 (.int (n : Int))) = some (n : Int) := rfl
  unfold answer
  simp only [hu, frameObject, bind, Except.bind, hn1, if_true, harp, arpObject, hn2]
  by_cases h : n = 1
  · subst h
    have hb : arpPack ws = .ok (arpBytes 2 m tpa sha spa) := hp
    simp only [e, hb, hnew]
    rw [if_pos (show some ((1 : Nat) : Int) = some 1 from rfl)]
    simp only [List.map_nil] at hpk
    rw [hpk]
    rfl
  · rw [if_neg h, if_neg (by simp; omega)]

/-! ## The controller -/

/-- A controller that gets a message, works on the packet in it, and sends what comes out in another message:

    message = unpack(p)
    g = work(message.data.value)
    return make(g).pack() -/
def controller (work : Bytes → Res (Option Bytes)) (make : Bytes → Val) (p : Bytes) : Res (Option Bytes) := do
  match ← pyUnpack libs (.bytes p) with
  | .obj _ vs =>
    match vs.getLast? with
    | some (.bin (.bytes f)) =>
      match ← work f with
      | some g => return some (← pyPack libs (make g))
      | none => .ok none
    | _ => .error .unmodelled
  | _ => .error .unmodelled

/-- C74.  The controller works on the packet that was put in the message it gets, and what comes out is the packet in the message it sends; with
`work` one of the programs above this is the whole way from a switch to a switch. -/
theorem C74_controller {s t : MsgFmt} (hs : s ∈ messages) (hsn : s.name ∈ carriers) (ht : t ∈ messages) (htn : t.name ∈ carriers)
    {hdr data hdr2 : Val} {vs vs2 : List Val} {x x2 : Nat} {d d2 : Data}
    (hv : msgDen s (.obj s.name (hdr :: (vs ++ [data]))) = some (x, d)) (hok : s.fmt.ok d) {f g p q : Bytes} (hf : f ≠ [])
    (hdata : rest.den data = some (.raw f)) (hp : pyPack libs (.obj s.name (hdr :: (vs ++ [data]))) = .ok p)
    {work : Bytes → Res (Option Bytes)} (hw : work f = .ok (some g)) (hg : g ≠ [])
    (hv2 : msgDen t (.obj t.name (hdr2 :: (vs2 ++ [.bytes g]))) = some (x2, d2)) (hok2 : t.fmt.ok d2)
    (hq : pyPack libs (.obj t.name (hdr2 :: (vs2 ++ [.bytes g]))) = .ok q) :
    controller work (fun g => .obj t.name (hdr2 :: (vs2 ++ [.bytes g]))) p = .ok (some q) ∧
    ∃ hdr' vs', pyUnpack libs (.bytes q) = .ok (.obj t.name (hdr' :: (vs' ++ [.bin (.bytes g)]))) := by
  obtain ⟨hdr', vs', hu⟩ := C65_carried hs hsn hv hok hf hdata hp
  refine ⟨?_, C65_carried ht htn hv2 hok2 hg rfl hq⟩
  have hl : (hdr' :: (vs' ++ [Val.bin (.bytes f)])).getLast? = some (.bin (.bytes f)) := by
    rw [← List.cons_append, List.getLast?_concat]
  unfold controller
  simp only [hu, bind, Except.bind, hl, hw, hq]
  rfl

/-! ## Cases -/

/-- A ping from 10.0.0.1 to 10.0.0.2 on VLAN 5, in 28 bytes. -/
def fwPing : Bytes := frame [1, 2, 3, 4, 5, 6] [7, 8, 9, 10, 11, 12] [⟨0x8100, 0, 0, 5⟩] 0x0800
  (ipv4Header 4 5 0 0 28 7 0 0 64 1 0x66d8 [10, 0, 0, 1] [10, 0, 0, 2] ++ [8, 0, 0xf7, 0xff, 0, 0, 0, 0])

/-- It goes through unchanged ... -/
example : passOn id id fwPing = .ok (some fwPing) :=
  C74_ipv4_unchanged_partial [8, 0, 0xf7, 0xff, 0, 0, 0, 0] rfl rfl (by intro t ht; cases ht with | head => exact ⟨.inl rfl, by decide, by decide, by decide⟩ | tail _ h => cases h)
    (by decide) (by decide) (by decide) (by decide) (by decide) (by decide) (by decide) (by decide) (by decide) (by decide) rfl rfl (by decide +kernel)

/-- ... and is routed: the time to live is 63 and the checksum is one that fits. -/
example : passOn (fun p => { p with ttl := p.ttl - 1 }) (fun _ => (.str (colonHex [2, 0, 0, 0, 0, 2]), .str (colonHex [2, 0, 0, 0, 0, 1]), .list true [])) fwPing =
    .ok (some (frame [2, 0, 0, 0, 0, 2] [2, 0, 0, 0, 0, 1] [] 0x0800
      (ipv4Header 4 5 0 0 28 7 0 0 63 1 0x67d8 [10, 0, 0, 1] [10, 0, 0, 2] ++ [8, 0, 0xf7, 0xff, 0, 0, 0, 0]))) := by
  decide +kernel

example := C74_ipv4_routed (dst := [1, 2, 3, 4, 5, 6]) (src := [7, 8, 9, 10, 11, 12]) (dst' := [2, 0, 0, 0, 0, 2]) (src' := [2, 0, 0, 0, 0, 1]) (tags := [⟨0x8100, 0, 0, 5⟩])
  (v := 4) (ds := 0) (e := 0) (ident := 7) (f := 0) (o := 0) (ttl := 64) (proto := 1) (chk := 0x66d8) (s := [10, 0, 0, 1]) (d := [10, 0, 0, 2])
  [8, 0, 0xf7, 0xff, 0, 0, 0, 0] rfl rfl rfl rfl (by intro t ht; cases ht with | head => exact ⟨.inl rfl, by decide, by decide, by decide⟩ | tail _ h => cases h)
  (by decide) (by decide) (by decide) (by decide) (by decide) (by decide) (by decide) (by decide) (by decide) (by decide) rfl rfl

/-- Its whole way: it comes in a packet-in of OpenFlow 1.0 and goes out of port 3 in a packet-out. -/
def fwOut (g : Bytes) : Val :=
  .obj "01.PacketOut" [.obj "01.Header" [.ub 1 (.int 1), .enum 13, .none, .int 8], .int 0xffffffff, .enum 0xfffd, .none,
    .list true [.obj "01.ActionOutput" [.enum 0, .int 8, .int 3, .int 0]], .bytes g]

def fwIn : Val :=
  .obj "01.PacketIn" [.obj "01.Header" [.ub 1 (.int 1), .enum 10, .none, .int 7], .int 0xffffffff, .int 46, .int 3, .enum 0, .pad 1, .bytes fwPing]

example {p q : Bytes} (hp : pyPack libs fwIn = .ok p) (hq : pyPack libs (fwOut fwPing) = .ok q) : controller (passOn id id) fwOut p = .ok (some q) := by
  let s := Spec.V01.plain "01.PacketIn" 10 [("buffer_id", Spec.V01.u32), ("total_len", Spec.V01.u16), ("in_port", Spec.V01.u16),
      ("reason", uint 1 (some [0, 1])), ("pad", pad 1), ("data", rest)]
  have h1 : ∃ d, msgDen s fwIn = some (7, d) ∧ s.fmt.ok d := by
    refine ⟨_, rfl, ?_⟩
    simp [s, Spec.V01.plain, struct, okAll, uint, Spec.V01.u32, Spec.V01.u16, pad, rest]
  have h2 : ∃ d, msgDen ⟨"01.PacketOut", 1, 13, "01.Header", Spec.V01.packetOut⟩ (fwOut fwPing) = some (8, d) ∧ Spec.V01.packetOut.ok d := by
    refine ⟨_, rfl, ?_⟩
    intro x hx
    simp at hx
    subst hx
    show okAll _ _
    simp [okAll, uint, Spec.V01.u16, Spec.V01.actionTail]
  obtain ⟨d1, e1, k1⟩ := h1
  obtain ⟨d2, e2, k2⟩ := h2
  exact (C74_controller (List.mem_of_getElem? (i := 9) rfl) (by decide +kernel) (List.mem_of_getElem? (i := 19) rfl)
    (by decide +kernel) (vs := [.int 0xffffffff, .int 46, .int 3, .enum 0, .pad 1])
    (vs2 := [.int 0xffffffff, .enum 0xfffd, .none, .list true [.obj "01.ActionOutput" [.enum 0, .int 8, .int 3, .int 0]]]) e1 k1 (by decide) rfl hp
    (work := passOn id id) (by decide +kernel) (by decide) e2 k2 hq).1

example : (pyPack libs fwIn).isOk = true ∧ (pyPack libs (fwOut fwPing)).isOk = true := by decide +kernel

/-- An IPv6 packet to ::1 gets another hop limit. -/
example := C74_ipv6_partial (dst := [1, 2, 3, 4, 5, 6]) (src := [7, 8, 9, 10, 11, 12]) (tags := []) (v := 6) (c := 0) (f := 3) (len := 2) (nh := 17) (hl := 64)
  (s := List.replicate 16 0) (d := List.replicate 15 0 ++ [1]) [0xca, 0xfe] rfl rfl nofun (by decide) (by decide) (by decide) (by decide) (by decide) (by decide)
  rfl rfl (edit := fun p => { p with hopLimit := p.hopLimit - 1 }) (route := id) (p := { ipv6Object 6 0 3 2 17 64 (List.replicate 16 0) (List.replicate 15 0 ++ [1]) [0xca, 0xfe] with hopLimit := 63 })
  (ps := List.replicate 16 0) (pd := List.replicate 15 0 ++ [1]) rfl (by decide) (by decide) (by decide) (by decide) (by decide) (by decide +kernel) (by decide +kernel)
  (by decide) (xs := []) rfl (mac_pack rfl) (mac_pack rfl) nofun

/-- A request is answered, with the padding of a short frame behind it. -/
example := C74_arp (dst := [255, 255, 255, 255, 255, 255]) (src := [7, 8, 9, 10, 11, 12]) (tags := []) (n := 1) (sha := [7, 8, 9, 10, 11, 12]) (spa := [10, 0, 0, 1])
  (tha := [0, 0, 0, 0, 0, 0]) (tpa := [10, 0, 0, 2]) (List.replicate 18 0) (mac := .str "0a:00:00:00:00:01".toList) (m := [10, 0, 0, 0, 0, 1]) rfl rfl nofun (by decide)
  rfl rfl rfl rfl (by decide +kernel)

/-! ## What does not hold -/

/-- The ping without the tag is in a frame of 60 bytes, 18 of them padding.  The padding is taken for data: what is sent announces a packet
of 46 bytes and not 28. -/
theorem C74_padding_counterexample :
    let ping := frame [1, 2, 3, 4, 5, 6] [7, 8, 9, 10, 11, 12] [] 0x0800
      (ipv4Header 4 5 0 0 28 7 0 0 64 1 0x66d8 [10, 0, 0, 1] [10, 0, 0, 2] ++ [8, 0, 0xf7, 0xff, 0, 0, 0, 0] ++ List.replicate 18 0)
    ping.length = 60 ∧ slice ping 16 18 = be 2 28 ∧
    ((passOn id id ping).map fun o => o.map fun b => (b.length, beVal (slice b 16 18))) = .ok (some (60, 46)) := by
  decide +kernel

end Pyof.Props
