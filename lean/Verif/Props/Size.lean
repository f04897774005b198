import Verif.Lemmas.SizeMsg
import Verif.Model.Network
/-!
# C08 and C17 for every object of every message class

Nothing is assumed about the values of the attributes but `honest` (`Verif/Spec/Size.lean`), which leaves out the listed
exceptions.
-/
namespace Pyof.Props
open Pyof.Spec

/-! ## C08 `get_size()` is the number of bytes -/

/-- C08, messages.  For every object of every message class of both versions, whatever its attributes hold: if it packs,
`get_size()` (asked before packing) is the number of bytes. -/
theorem C08_messages (v : Val) (hv : honest v = true) (p : Bytes) (hp : pyPack libs v = .ok p) : pySize libs v = .ok p.length := by
  cases v with
  | obj c us =>
    simp only [pyPack] at hp
    split at hp
    · rename_i m hm
      cases us with
      | nil => simp [MsgCls.pack] at hp
      | cons hdr vs =>
        simp only [MsgCls.pack] at hp
        split at hp
        · cases hp
        · rename_i vs' hprep
          obtain ⟨rfl, hs⟩ := lib_named hm
          obtain ⟨a, t, l, x, n, hb, body, rfl, _, _, hh, hbd, rfl⟩ := genericPack_inv hp
          have h1 := (hs _ _ _ _ hv hprep hbd).1
          simp only [pySize, hm, headerAttr_size, h1, List.length_append, header_length hh]
    · cases hp
  | _ => simp [pyPack] at hp

/-- C08, the structures that may be the body of a statistics or multipart message, asked directly. -/
theorem C08_bodies (c : String) (a : Attr) (hc : (c, a) ∈ V01.statsClasses ++ V04.bodyClasses) (vs : List Val)
    (hv : honest (.obj c vs) = true) (b : Bytes) (hb : a.pack (.obj c vs) = .ok b) : a.usize (.obj c vs) = .ok b.length := by
  rcases List.mem_append.mp hc with h | h
  · exact V01.stats_sized _ h _ hv (by simp [isObj]) _ hb
  · exact V04.bodies_sized _ h _ hv (by simp [isObj]) _ hb

example := C08_bodies "04.PortStatsRequest" V04.portStatsRequest (by simp [V04.bodyClasses]) [.int 1, .pad 4] (by decide +kernel) [0, 0, 0, 1, 0, 0, 0, 0]
  (by decide +kernel)

/-- C08, actions, instructions, meter bands, table feature properties, buckets and match fields, asked directly. -/
theorem C08_variants (v : Val) (hv : honest v = true) (b : Bytes) :
    (isSub V01.actionSubs v = true → V01.action.pack v = .ok b → V01.action.usize v = .ok b.length) ∧
    (isSub V04.actionSubs v = true → V04.action.pack v = .ok b → V04.action.usize v = .ok b.length) ∧
    (isSub V04.instructionSubs v = true → V04.instruction.pack v = .ok b → V04.instruction.usize v = .ok b.length) ∧
    (isSub V04.bandSubs v = true → V04.band.pack v = .ok b → V04.band.usize v = .ok b.length) ∧
    (isSub V04.propertySubs v = true → V04.property.pack v = .ok b → V04.property.usize v = .ok b.length) ∧
    (isObj "04.Bucket" v = true → V04.bucket.pack v = .ok b → V04.bucket.usize v = .ok b.length) ∧
    (isObj "04.OxmTLV" v = true → V04.oxm.pack v = .ok b → V04.oxm.usize v = .ok b.length) :=
  ⟨fun hi => V01.sizedItem_action v hv hi b, fun hi => V04.sizedItem_action v hv hi b, fun hi => V04.sizedItem_instruction v hv hi b,
   fun hi => V04.sizedItem_band v hv hi b, fun hi => V04.sizedItem_property v hv hi b, fun hi => V04.bucket_sized v hv hi b,
   fun hi => V04.sizedItem_oxm v hv hi b⟩

/-- A header, its length not yet known. -/
def sizeHdr (code : Nat) : Val := .obj "04.Header" [.ub 1 (.int 4), .enum code, .none, .int 7]

/-- A flow-mod with a match and two instructions. -/
def sizeFlowMod : Val := .obj "04.FlowMod" [sizeHdr 14, .int 1, .int 0, .int 0, .enum 0, .int 0, .int 0, .int 5, .int 0xffffffff,
  .int 1, .int 2, .enum 0, .pad 2,
  .obj "04.Match" [.enum 1, .int 99, .list true [.obj "04.OxmTLV" [.enum 0x8000, .none, .none, .bytes [0, 0, 0, 1], .enum 0, .int 0]]],
  .list true [.obj "04.InstructionApplyAction" [.enum 4, .none, .pad 4, .list true [.obj "04.ActionOutput" [.enum 0, .int 16, .int 3, .int 4, .pad 6],
    .obj "04.ActionSetField" [.enum 25, .none, .obj "04.OxmTLV" [.enum 0x8000, .none, .none, .bytes [9], .enum 10, .int 0]]]]]]

example : honest sizeFlowMod = true ∧ (pyPack libs sizeFlowMod).isOk = true ∧ pySize libs sizeFlowMod = .ok 104 := by decide +kernel

/-- A multipart reply with two tables. -/
def sizeTables : Val := .obj "04.MultipartReply" [sizeHdr 19, .enum 3, .int 0, .pad 4,
  .list true [.obj "04.TableStats" [.int 1, .pad 3, .int 2, .int 3, .int 4], .obj "04.TableStats" [.int 2, .pad 3, .int 2, .int 3, .int 4]]]

example : honest sizeTables = true ∧ (pyPack libs sizeTables).isOk = true ∧ pySize libs sizeTables = .ok 64 := by decide +kernel

example : V04.bucket.pack (.obj "04.Bucket" [.int 32, .int 1, .int 2, .int 3, .pad 4, .list true [.obj "04.ActionOutput"
      [.enum 0, .int 16, .int 3, .int 4, .pad 6]]]) = .ok [0, 32, 0, 1, 0, 0, 0, 2, 0, 0, 0, 3, 0, 0, 0, 0, 0, 0, 0, 16, 0, 0, 0, 3,
      0, 4, 0, 0, 0, 0, 0, 0] ∧
    honest (.obj "04.Bucket" [.int 32, .int 1, .int 2, .int 3, .pad 4, .list true [.obj "04.ActionOutput"
      [.enum 0, .int 16, .int 3, .int 4, .pad 6]]]) = true := by decide +kernel

/-- C08, where the code violates it: a bare action header, an experimenter action with an unaligned body, a bucket with a
wrong `length`, a group description with buckets, and a meter-mod with bands: the number of bytes and `get_size()`. -/
theorem C08_library_counterexamples :
    ((V04.action.pack (.obj "04.ActionHeader" [.enum 0, .int 4])).map List.length = .ok 4 ∧
      V04.action.usize (.obj "04.ActionHeader" [.enum 0, .int 4]) = .ok 8) ∧
    ((V04.action.pack (.obj "04.ActionExperimenter" [.enum 0xffff, .int 16, .int 1, .bytes [1]])).map List.length = .ok 9 ∧
      V04.action.usize (.obj "04.ActionExperimenter" [.enum 0xffff, .int 16, .int 1, .bytes [1]]) = .ok 16) ∧
    ((V04.bucket.pack (.obj "04.Bucket" [.int 99, .int 1, .int 2, .int 3, .pad 4, .list true []])).map List.length = .ok 16 ∧
      V04.bucket.usize (.obj "04.Bucket" [.int 99, .int 1, .int 2, .int 3, .pad 4, .list true []]) = .ok 99) ∧
    ((V04.groupDescStats.pack (.obj "04.GroupDescStats" [.int 24, .int 0, .pad 1, .int 1,
        .list true [.obj "04.Bucket" [.int 16, .int 1, .int 2, .int 3, .pad 4, .list true []]]])).map List.length = .ok 24 ∧
      V04.groupDescStats.usize (.obj "04.GroupDescStats" [.int 24, .int 0, .pad 1, .int 1,
        .list true [.obj "04.Bucket" [.int 16, .int 1, .int 2, .int 3, .pad 4, .list true []]]]) = .ok 8) ∧
    ((pyPack libs (.obj "04.MeterMod" [sizeHdr 29, .enum 0, .int 1, .int 1,
        .list true [.obj "04.MeterBandDrop" [.enum 1, .int 16, .int 8, .int 9, .pad 4]]])).map List.length = .ok 32 ∧
      pySize libs (.obj "04.MeterMod" [sizeHdr 29, .enum 0, .int 1, .int 1,
        .list true [.obj "04.MeterBandDrop" [.enum 1, .int 16, .int 8, .int 9, .pad 4]]]) = .ok 16) := by decide +kernel

/-- C08, where the code violates it: a multipart message whose body is a plain Python list packs, but `get_size()` raises
`ValueError`. -/
theorem C08_plain_list_counterexample :
    (pyPack libs (.obj "04.MultipartReply" [sizeHdr 19, .enum 3, .int 0, .pad 4,
      .list false [.obj "04.TableStats" [.int 1, .pad 3, .int 2, .int 3, .int 4]]])).map List.length = .ok 40 ∧
    pySize libs (.obj "04.MultipartReply" [sizeHdr 19, .enum 3, .int 0, .pad 4,
      .list false [.obj "04.TableStats" [.int 1, .pad 3, .int 2, .int 3, .int 4]]]) = .error .value := by decide +kernel

/-! ## C08, network packets -/

open Pyof.Net in
/-- The tag has at least one of `pcp`, `cfi` and `vid`. -/
def tagged : Val → Prop
  | .obj _ [_, _, pcp, cfi, vid] => ¬ (pcp = .none ∧ cfi = .none ∧ vid = .none)
  | _ => False

open Pyof.Net in
/-- C08, ARP, VLAN tags and Ethernet frames, whatever their attributes hold; a VLAN without `pcp`, `cfi` and `vid` packs to nothing
(`C08_vlan_counterexample`). -/
theorem C08_frames :
    (∀ vs b, arpPack vs = .ok b → arpSize vs = .ok b.length) ∧
    (∀ v b, tagged v → vlan.pack v = .ok b → vlan.usize v = .ok b.length) ∧
    (∀ dst src tags n data b, (∀ t ∈ flat tags, tagged t) → HonestBin data → ethernetPack [dst, src, tags, n, data] = .ok b →
      ethernetSize [dst, src, tags, n, data] = .ok b.length) := by
  have hvlan : ∀ v b, tagged v → vlan.pack v = .ok b → vlan.usize v = .ok b.length := by
    intro v b ht hb
    simp only [vlan] at hb ⊢
    split at hb
    · rename_i tpid _ pcp cfi vid
      simp only [vlanPack] at hb
      split at hb
      · simp [tagged] at ht
      · split at hb
        · cases hb
        · have := sizeAttrs_ok (cs := vlanFields) (fun p hp => by
            simp only [vlanFields, List.zip_cons_cons, List.zip_nil_left, List.mem_cons, List.not_mem_nil, or_false] at hp
            rcases hp with rfl | rfl
            · exact (sizeOK_uint ..).1
            · exact (sizeOK_uint ..).1) hb
          rw [← this]
          rfl
    · cases hb
  refine ⟨?_, hvlan, ?_⟩
  · intro vs b hb
    simp only [arpPack] at hb
    split at hb
    · cases hb
    · cases hb
    · refine sizeAttrs_ok (fun p hp => ?_) hb
      have hm := (List.of_mem_zip (show (p.1, p.2) ∈ _ from hp)).1
      obtain ⟨⟨nm, c⟩, v⟩ := p
      simp only [arpFields, List.mem_cons, List.not_mem_nil, or_false, Prod.mk.injEq] at hm
      rcases hm with ⟨-, rfl⟩ | ⟨-, rfl⟩ | ⟨-, rfl⟩ | ⟨-, rfl⟩ | ⟨-, rfl⟩ | ⟨-, rfl⟩ | ⟨-, rfl⟩ | ⟨-, rfl⟩ | ⟨-, rfl⟩ <;>
        first | exact (sizeOK_uint ..).1 | exact (sizeOK_hw ..).1 | exact (sizeOK_ip ..).1
  · intro dst src tags n data b ht hd hb
    refine sizeAttrs_ok (fun p hp => ?_) hb
    simp only [ethernetFields, List.zip_cons_cons, List.zip_nil_left, List.mem_cons, List.not_mem_nil, or_false] at hp
    rcases hp with rfl | rfl | rfl | rfl | rfl
    · exact (sizeOK_hw ..).1
    · exact (sizeOK_hw ..).1
    · intro b hb
      simp only [vlans, listAttr] at hb ⊢
      split at hb
      · cases hb; rfl
      · split at hb
        · cases hb
        · rename_i ys hy
          obtain ⟨h1, h2⟩ := addItems_flats _ _ hy
          simp only [hy]
          exact sizeItems_of_pack (fun y hm b hb => hvlan y b (ht y (by simpa [flat] using h1 ▸ hm)) hb) hb
      · cases hb; rfl
      · cases hb; rfl
      · cases hb
      · cases hb
      · cases hb
    · exact (sizeOK_uint ..).1
    · exact (sizeOK_bin hd).1

open Pyof.Net in
/-- C08, TLVs, LLDP, IPv4 and IPv6: `get_size()` before packing is the number of bytes. -/
theorem C08_packets :
    (∀ v b, tlvPack v = .ok b → tlvSize v = .ok b.length) ∧
    (∀ vs b, packAttrs lldpFields vs = .ok b → sizeAttrs lldpFields vs = .ok b.length) ∧
    (∀ (p : IPv4) b p', p.pack = .ok (b, p') → p.size = .ok b.length ∧ p'.size = .ok b.length) ∧
    (∀ (p : IPv6) b p', p.pack = .ok (b, p') → p.size = .ok b.length ∧ p'.size = .ok b.length) := by
  have htlv : ∀ v b, tlvPack v = .ok b → tlvSize v = .ok b.length := by
    intro v b hb
    simp only [tlvPack] at hb
    split at hb
    · cases hb
    · split at hb
      · cases hb
      · rename_i x hx
        simp only [tlvBytes] at hb
        cases hu : ubPack 2 .none (.ub 2 (.int (tlvHeader _ x.length))) with
        | error e => rw [hu] at hb; simp [Except.map] at hb
        | ok h =>
          rw [hu] at hb
          simp only [Except.map] at hb
          cases hb
          simp only [tlvSize, hx, List.length_append, ubPack_length hu]
  refine ⟨htlv, ?_, ?_, ?_⟩
  · intro vs b hb
    refine sizeAttrs_ok (fun p hp => ?_) hb
    have hm := (List.of_mem_zip (show (p.1, p.2) ∈ _ from hp)).1
    obtain ⟨⟨nm, c⟩, v⟩ := p
    have hsub : ∀ d, SizeOK (subTlvAttr d) v := by
      intro d b hb
      simp only [subTlvAttr] at hb ⊢
      split at hb
      · simpa [isSubTlv] using htlv _ _ hb
      · split at hb
        · rename_i h; simp only [h, if_true]; exact htlv _ _ hb
        · cases hb
    have hgen : ∀ d, SizeOK (tlvAttr d) v := by
      intro d b hb
      simp only [tlvAttr] at hb ⊢
      split at hb
      · simpa [isTlv, isSubTlv] using htlv _ _ hb
      · split at hb
        · rename_i h; simp only [h, if_true]; exact htlv _ _ hb
        · cases hb
    simp only [lldpFields, List.mem_cons, List.not_mem_nil, or_false, Prod.mk.injEq] at hm
    rcases hm with ⟨-, rfl⟩ | ⟨-, rfl⟩ | ⟨-, rfl⟩ | ⟨-, rfl⟩ <;> first | exact hsub _ | exact hgen _
  · intro p b p' hb
    simp only [IPv4.pack] at hb
    split at hb
    · cases hb
    · rename_i chk _
      generalize hq : packAttrs ipv4Fields _ = r at hb
      cases r with
      | error e => simp [Except.map] at hb
      | ok q =>
        simp only [Except.map, Except.ok.injEq, Prod.mk.injEq] at hb
        obtain ⟨rfl, rfl⟩ := hb
        have h := sizeAttrs_ok (cs := ipv4Fields) (fun p hp => by
          simp only [ipv4Fields, List.zip_cons_cons, List.zip_nil_left, List.mem_cons, List.not_mem_nil, or_false] at hp
          rcases hp with rfl | rfl | rfl | rfl | rfl | rfl | rfl | rfl | rfl | rfl | rfl | rfl <;>
            first | exact (sizeOK_uint ..).1 | exact (sizeOK_ip ..).1 | exact (sizeOK_bin (by trivial)).1) hq
        exact ⟨h, h⟩
  · intro p b p' hb
    simp only [IPv6.pack] at hb
    generalize hq : packAttrs ipv6Fields _ = r at hb
    cases r with
    | error e => simp [Except.map] at hb
    | ok q =>
      simp only [Except.map, Except.ok.injEq, Prod.mk.injEq] at hb
      obtain ⟨rfl, rfl⟩ := hb
      have h := sizeAttrs_ok (cs := ipv6Fields) (fun p hp => by
        simp only [ipv6Fields, List.zip_cons_cons, List.zip_nil_left, List.mem_cons, List.not_mem_nil, or_false] at hp
        rcases hp with rfl | rfl | rfl | rfl | rfl | rfl | rfl <;>
          first | exact (sizeOK_uint ..).1 | exact (sizeOK_ip6 ..).1 | exact (sizeOK_bin (by trivial)).1) hq
      exact ⟨h, h⟩

open Pyof.Net in
example : (ethernetPack [.str "ff:ff:ff:ff:ff:ff".toList, .str "00:00:00:00:00:01".toList,
      .list false [.obj "net.VLAN" [.enum 0x8100, .ub 2 .none, .none, .none, .int 5]], .int 0x800, .bytes [1, 2, 3]]).map List.length = .ok 21 ∧
    ((({ data := [1, 2], options := [1, 2, 3, 4] } : IPv4).pack).map (·.1.length)) = .ok 26 ∧
    tlvPack (.obj "net.TLVWithSubType" [.int 1, .int 7, .bin (.bytes [5])]) = .ok [2, 2, 7, 5] := by decide +kernel

/-! ## C17 the length field -/

/-- C17, any object of any message class: the length field of the packet is its length, whatever the attributes hold. -/
theorem C17_any_object (v : Val) (hv : honest v = true) (p : Bytes) (hp : pyPack libs v = .ok p) :
    beVal (slice p 2 4) = p.length ∧ p.length ≤ 65535 := by
  cases v with
  | obj c us =>
    simp only [pyPack] at hp
    split at hp
    · rename_i m hm
      cases us with
      | nil => simp [MsgCls.pack] at hp
      | cons hdr vs =>
        simp only [MsgCls.pack] at hp
        split at hp
        · cases hp
        · rename_i vs' hprep
          obtain ⟨rfl, hs⟩ := lib_named hm
          exact genericPack_length hp (fun b hb => (hs _ _ _ _ hv hprep hb).2)
    · cases hp
  | _ => simp [pyPack] at hp

example : honest sizeFlowMod = true ∧ (pyPack libs sizeFlowMod).map (slice · 0 8) = .ok [4, 14, 0, 104, 0, 0, 0, 7] := by
  decide +kernel

/-- The classes that pack their last attribute before they compute the length. -/
def packsBody : List String := ["01.StatsRequest", "01.StatsReply", "01.ErrorMsg", "04.MultipartRequest", "04.MultipartReply"]

/-- C17 for these classes: the length field is right even if `get_size()` is wrong for what is in the body. -/
theorem C17_packed_bodies (c : String) (hc : c ∈ packsBody) (hdr : Val) (us : List Val) (body : Val) (hb : HonestBin body)
    (p : Bytes) (hp : pyPack libs (.obj c (hdr :: (us ++ [body]))) = .ok p) : beVal (slice p 2 4) = p.length ∧ p.length ≤ 65535 := by
  have key : ∀ {m : MsgCls} {fs : Fields} {nm : String}, Front fs → m.body = fs ++ [(nm, binAttr)] →
      (∀ vs', m.prep (us ++ [body]) = .ok vs' → us.length = fs.length ∧ ∃ q, vs' = us ++ [q] ∧ HonestBin q) →
      m.pack (.obj c (hdr :: (us ++ [body]))) = .ok p → beVal (slice p 2 4) = p.length ∧ p.length ≤ 65535 := by
    intro m fs nm hf hbody hprep hpack
    simp only [MsgCls.pack] at hpack
    split at hpack
    · cases hpack
    · rename_i vs' hv
      obtain ⟨hl, q, rfl, hq⟩ := hprep _ hv
      refine genericPack_length hpack (fun b hb => ?_)
      rw [hbody] at hb ⊢
      exact bytes_body_sized hf hl hq hb
  have one : ∀ {xs ys : List Val} {x y : Val}, xs ++ [x] = ys ++ [y] → xs = ys ∧ x = y := by
    intro xs ys x y h
    have := List.append_inj' h rfl
    exact ⟨this.1, by simpa using this.2⟩
  simp only [packsBody, List.mem_cons, List.not_mem_nil, or_false] at hc
  rcases hc with rfl | rfl | rfl | rfl | rfl
  · refine key (m := V01.statsRequest) (fs := [("body_type", ubint 2 (.enum V01.statsTypes)), ("flags", ubint 2)])
      (front_uint _ _ _ _ _ (front_uint _ _ _ _ _ .nil)) rfl ?_ hp
    intro vs' hv
    simp only [V01.statsRequest, V01.statsRequestPrep] at hv
    split at hv
    · rename_i t f b heq
      obtain ⟨rfl, rfl⟩ := one (xs := us) (ys := [t, f]) heq
      refine ⟨rfl, ?_⟩
      split at hv <;> cases hv
      · exact ⟨_, rfl, hb⟩
      · exact ⟨.bytes _, rfl, trivial⟩
    · cases hv
  · refine key (m := V01.statsReply) (fs := [("body_type", ubint 2 (.enum V01.statsTypes)), ("flags", ubint 2)])
      (front_uint _ _ _ _ _ (front_uint _ _ _ _ _ .nil)) rfl ?_ hp
    intro vs' hv
    simp only [V01.statsReply, V01.statsReplyPrep] at hv
    split at hv
    · rename_i t f b heq
      obtain ⟨rfl, rfl⟩ := one (xs := us) (ys := [t, f]) heq
      refine ⟨rfl, ?_⟩
      split at hv
      · split at hv <;> cases hv
        · exact ⟨_, rfl, hb⟩
        · exact ⟨.bin (.bytes _), rfl, trivial⟩
      · cases hv; exact ⟨_, rfl, hb⟩
    · cases hv
  · refine key (m := V01.errorMsg) (fs := [("error_type", ubint 2 (.enum (V01.errorCodes.map (·.1)))), ("code", ubint 2)])
      (front_uint _ _ _ _ _ (front_uint _ _ _ _ _ .nil)) rfl ?_ hp
    intro vs' hv
    simp only [V01.errorMsg, V01.errorPrep] at hv
    split at hv
    · rename_i t f heq
      obtain ⟨rfl, rfl⟩ := one (xs := us) (ys := [t, f]) heq
      cases hv
      exact ⟨rfl, _, rfl, hb⟩
    · rename_i t f b heq
      obtain ⟨rfl, rfl⟩ := one (xs := us) (ys := [t, f]) heq
      cases hv
      exact ⟨rfl, _, rfl, hb⟩
    · rename_i t f b _ _ heq
      obtain ⟨rfl, rfl⟩ := one (xs := us) (ys := [t, f]) heq
      refine ⟨rfl, ?_⟩
      split at hv <;> cases hv
      exact ⟨.bytes _, rfl, trivial⟩
    · cases hv
  · refine key (m := V04.multipartRequest)
      (fs := [("multipart_type", ubint 2 (.enum V04.multipartTypes)), ("flags", ubint 2 (.enum [0, 1])), ("pad", padAttr 4)])
      (front_uint _ _ _ _ _ (front_uint _ _ _ _ _ (front_pad _ _ _ .nil))) rfl ?_ hp
    intro vs' hv
    obtain ⟨t, f, pad, b, q, h1, h2, h3⟩ := V04.multipartPrep_shape (vs := us ++ [body]) hv
    obtain ⟨rfl, rfl⟩ := one (xs := us) (ys := [t, f, pad]) h1
    subst h2
    rcases h3 with rfl | ⟨b, rfl⟩
    · exact ⟨rfl, _, rfl, hb⟩
    · exact ⟨rfl, _, rfl, trivial⟩
  · refine key (m := V04.multipartReply)
      (fs := [("multipart_type", ubint 2 (.enum V04.multipartTypes)), ("flags", ubint 2), ("pad", padAttr 4)])
      (front_uint _ _ _ _ _ (front_uint _ _ _ _ _ (front_pad _ _ _ .nil))) rfl ?_ hp
    intro vs' hv
    obtain ⟨t, f, pad, b, q, h1, h2, h3⟩ := V04.multipartPrep_shape (vs := us ++ [body]) hv
    obtain ⟨rfl, rfl⟩ := one (xs := us) (ys := [t, f, pad]) h1
    subst h2
    rcases h3 with rfl | ⟨b, rfl⟩
    · exact ⟨rfl, _, rfl, hb⟩
    · exact ⟨rfl, _, rfl, trivial⟩

example : (pyPack libs (.obj "04.MultipartReply" (sizeHdr 19 :: ([.enum 7, .int 0, .pad 4] ++
    [.list true [.obj "04.GroupDescStats" [.int 24, .int 0, .pad 1, .int 1,
        .list true [.obj "04.Bucket" [.int 99, .int 1, .int 2, .int 3, .pad 4, .list true []]]]]])))).map
    (fun p => (slice p 0 4, p.length)) = .ok ([4, 19, 0, 40], 40) := by decide +kernel

/-- C17, where the code violates it: a group-mod whose bucket has a wrong `length`, and a packet-out with a bare action header:
length field and length. -/
theorem C17_wrong_length_counterexamples :
    (pyPack libs (.obj "04.GroupMod" [sizeHdr 15, .enum 0, .int 0, .pad 1, .int 1,
        .list true [.obj "04.Bucket" [.int 99, .int 1, .int 2, .int 3, .pad 4, .list true []]]])).map
      (fun p => (beVal (slice p 2 4), p.length)) = .ok (115, 32) ∧
    (pyPack libs (.obj "04.PacketOut" [sizeHdr 13, .int 1, .int 1, .none, .pad 6,
        .list true [.obj "04.ActionHeader" [.enum 0, .int 4]], .none])).map
      (fun p => (beVal (slice p 2 4), p.length)) = .ok (32, 28) := by decide +kernel

example := C08_messages sizeFlowMod (by decide +kernel)

end Pyof.Props
