import Verif.Lemmas.ReuseNet
import Verif.Props.Reuse
/-!
# C67: decoding into a used object, for the OpenFlow 1.3 match and the network packets
-/
namespace Pyof.Props
open Pyof.Meth Net

/-- `p` is `unpack(...)` of a class with the class attributes `fields`, whose objects have the attributes `more` besides; `r` is the outcome
on a new object, with the values of all of them.  Whatever has been assigned to the object before, `unpack` ends in the same way, and if
it returns all attributes are those of a new object: the class attributes as `pack` and `get_size` find them, the others by name.  As
`unpack` itself, whether it returns or not, amounts to assignments, the history may contain any decodings. -/
def AsNew (fields : Fields) (more : List String) (p : Meth Unit) (r : Res (List Val)) : Prop :=
  ∀ ops, let out := p.run (runSets (newInstance fields) ops)
    out.1 = r.map (fun _ => ()) ∧
    (∀ vs, r = .ok vs → (attrsOf fields out.2).map some ++ more.map (fun n => out.2.lookup n) = vs.map some) ∧
    ∃ ops', out.2 = runSets (newInstance fields) (ops ++ ops')

private theorem attrs_lookup {fields : Fields} (hn : (fields.map (·.1)).Nodup) (ops : List (String × Val)) :
    (attrsOf fields (runSets (newInstance fields) ops)).map some =
      (fields.map (·.1)).map (fun n => (runSets (newInstance fields) ops).lookup n) := by
  have e := runSets_attrs fields ops hn
  unfold attrsOf
  rw [e, List.map_map, List.map_map]
  apply List.map_congr_left
  intro p hp
  simp only [Function.comp]
  refine (lookup_runSets _ _ _ (.inr ?_)).symm
  rw [newInstance_eq fields hn]
  refine lookup_self (p := (p.1, p.2.proto)) ?_ (List.mem_map.2 ⟨p, hp, rfl⟩)
  rw [List.map_map]; exact hn

private theorem asNew {fields : Fields} (hn : (fields.map (·.1)).Nodup) {more names : List String} {p : Meth Unit} {r : Res (List Val)}
    (hs : Sees (fields.map (·.1) ++ more) p r) (ho : OnlySets names p) : AsNew fields more p r := by
  intro ops
  obtain ⟨h1, h2⟩ := hs (runSets (newInstance fields) ops)
  obtain ⟨ops', -, e⟩ := ho (runSets (newInstance fields) ops)
  refine ⟨h1, fun vs hv => ?_, ops', by rw [e, runSets_append]⟩
  have := h2 vs hv
  rw [e, ← runSets_append] at this ⊢
  rw [attrs_lookup hn, ← this, List.map_append]

/-- C67.  An `OxmTLV`, at any offset. -/
theorem C67_oxm (junk : Val) (buff : Bytes) (off : Nat) :
    AsNew V04.oxmFields ["oxm_field", "oxm_hasmask"] (oxmInto junk buff off) ((V04.oxm.unpack buff off).map Val.parts) :=
  asNew (by decide) (oxm_sees junk buff off) (oxm_sets junk buff off)

/-- C67.  A v0x04 `Match`: in particular none of the fields it held before stays. -/
theorem C67_match (junk : Val) (buff : Bytes) (off : Nat) :
    AsNew V04.matchFields [] (matchInto junk buff off) ((V04.«match».unpack buff off).map Val.parts) :=
  asNew (by decide) (by rw [List.append_nil]; exact match_sees junk buff off) (match_sets junk buff off)

/-- C67.  ARP packets, VLAN tags and Ethernet frames. -/
theorem C67_frames (junk : Val) (buff : Bytes) (off : Nat) :
    AsNew arpFields [] (arpInto junk buff off) (arpUnpack buff off) ∧
    AsNew vlanFields ["pcp", "cfi", "vid"] (vlanInto junk buff off) ((vlan.unpack buff off).map Val.parts) ∧
    AsNew ethernetFields [] (ethernetInto buff off) (ethernetUnpack buff off) :=
  ⟨asNew (by decide) (by rw [List.append_nil]; exact arp_sees junk buff off) (arp_sets junk buff off),
   asNew (by decide) (vlan_sees junk buff off) (vlan_sets junk buff off),
   asNew (by decide) (by rw [List.append_nil]; exact ethernet_sees buff off) (ethernet_sets buff off)⟩

/-- C67.  The TLVs of LLDP (which have no class attributes). -/
theorem C67_tlvs (buff : Bytes) (off : Nat) :
    AsNew [] ["tlv_type", "_value"] (tlvInto buff off) ((tlvUnpack buff off).map Val.parts) ∧
    AsNew [] ["tlv_type", "sub_type", "sub_value"] (subTlvInto buff off) ((subTlvUnpack buff off).map Val.parts) :=
  ⟨asNew (by decide) (tlv_sees buff off) (tlv_sets buff off), asNew (by decide) (subTlv_sees buff off) (subTlv_sets buff off)⟩

/-- The attributes of an IPv4 object by name. -/
def ipv4Attributes (p : IPv4) : List (String × Val) :=
  [("version", .int p.version), ("ihl", .int p.ihl), ("dscp", .int p.dscp), ("ecn", .int p.ecn), ("length", .int p.length),
   ("identification", .int p.identification), ("flags", .int p.flags), ("offset", .int p.offset), ("ttl", .int p.ttl),
   ("protocol", .int p.protocol), ("checksum", .int p.checksum), ("source", .str p.source), ("destination", .str p.destination),
   ("options", .bytes p.options), ("data", .bytes p.data)]

/-- The attributes of an IPv6 object by name. -/
def ipv6Attributes (p : IPv6) : List (String × Val) :=
  [("version", .int p.version), ("tclass", .int p.tclass), ("flabel", .int p.flabel), ("length", .int p.length),
   ("next_header", .int p.nextHeader), ("hop_limit", .int p.hopLimit), ("source", p.source), ("destination", p.destination),
   ("data", .bytes p.data)]

private theorem pointwise {d : Dict} : ∀ {l : List (String × Val)}, (l.map (·.1)).map (fun n => d.lookup n) = (l.map (·.2)).map some →
    ∀ a ∈ l, d.lookup a.1 = some a.2 := by
  intro l h a ha
  rw [List.map_map, List.map_map] at h
  exact (List.map_inj_left.mp h) a ha

/-- C67.  IPv4 packets, whatever the object holds: options and data of an earlier packet do not stay, nor what a failed decoding left. -/
theorem C67_ipv4 (junk : Val) (buff : Bytes) (off : Nat) (d : Dict) :
    ((ipv4Into junk buff off).run d).1 = (IPv4.unpack buff off).map (fun _ => ()) ∧
    ∀ p, IPv4.unpack buff off = .ok p → ∀ a ∈ ipv4Attributes p, ((ipv4Into junk buff off).run d).2.lookup a.1 = some a.2 := by
  obtain ⟨h1, h2⟩ := ipv4_sees junk buff off d
  refine ⟨?_, fun p hp => ?_⟩
  · rw [h1]; cases IPv4.unpack buff off <;> rfl
  · rw [hp] at h2
    exact pointwise (h2 _ rfl)

/-- C67.  IPv6 packets. -/
theorem C67_ipv6 (junk : Val) (buff : Bytes) (off : Nat) (d : Dict) :
    ((ipv6Into junk buff off).run d).1 = (IPv6.unpack buff off).map (fun _ => ()) ∧
    ∀ p, IPv6.unpack buff off = .ok p → ∀ a ∈ ipv6Attributes p, ((ipv6Into junk buff off).run d).2.lookup a.1 = some a.2 := by
  obtain ⟨h1, h2⟩ := ipv6_sees junk buff off d
  refine ⟨?_, fun p hp => ?_⟩
  · rw [h1]; cases IPv6.unpack buff off <;> rfl
  · rw [hp] at h2
    exact pointwise (h2 _ rfl)

/-- A match that held two fields, decoded from a packet with one (in_port = 5): it has the new field only. -/
example : (fun out : Res Unit × Dict => (out.1, attrsOf V04.matchFields out.2))
      ((matchInto .none [0, 1, 0, 12, 0x80, 0, 0, 4, 0, 0, 0, 5, 0, 0, 0, 0] 0).run
        (runSets (newInstance V04.matchFields) [("oxm_match_fields", .list true [.int 1, .int 2]), ("note", .int 3)])) =
    (.ok (), [.ub 2 (.enum 1), .ub 2 (.int 12),
      .list true [.obj "04.OxmTLV" [.ub 2 (.enum 0x8000), .ub 1 (.int 0), .ub 1 (.int 4), .bytes [0, 0, 0, 5], .enum 0, .int 0]]]) := by
  decide +kernel

/-- An IPv4 object with options left from an earlier packet, decoded from a packet of 20 bytes without any and two bytes of data. -/
example : (((ipv4Into .none ([0x45, 0, 0, 22, 0, 1, 0, 0, 64, 17, 0, 0, 10, 0, 0, 1, 10, 0, 0, 2] ++ [7, 8]) 0).run
      (runSets (newInstance ipv4Fields) [("options", .bytes [1, 2, 3, 4]), ("ihl", .int 6)])).2.lookup "options",
    (IPv4.unpack ([0x45, 0, 0, 22, 0, 1, 0, 0, 64, 17, 0, 0, 10, 0, 0, 1, 10, 0, 0, 2] ++ [7, 8]) 0).toOption.map (·.data)) =
    (some (.bytes []), some [7, 8]) := by decide +kernel

end Pyof.Props
