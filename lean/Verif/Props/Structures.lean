import Verif.Lemmas.Extra
import Verif.Props.Bodies
import Verif.Props.Lists
/-!
# C54: the structures of the library on their own; C55: queue properties in queues; C56: experimenter errors
-/
namespace Pyof.Props
open Pyof.Spec

/-- A structure or list class: the attribute an instance of it is, its wire format, and whether it runs to the end of its buffer. -/
structure Entry where
  name : String
  attr : Attr
  fmt : Fmt
  tail : Bool

/-- The structure and list classes of the two versions. -/
def structures : List Entry :=
  [⟨"01.match", V01.«match», Spec.V01.match, false⟩,
   ⟨"01.phyPort", V01.phyPort, Spec.V01.phyPort, false⟩,
   ⟨"01.phyPorts", V01.phyPorts, (Spec.list Spec.V01.phyPort), true⟩,
   ⟨"01.queueProp", V01.queuePropHeader, Spec.V01.queuePropHeader, false⟩,
   ⟨"01.queueProps", V01.queueProps, (Spec.list Spec.V01.queuePropHeader), true⟩,
   ⟨"01.packetQueue", V01.packetQueue, Spec.V01.packetQueue, true⟩,
   ⟨"01.action", V01.action, Spec.V01.action, false⟩,
   ⟨"01.actions", V01.actions, Spec.V01.actions, true⟩,
   ⟨"01.queues", V01.queues, (Spec.atMostOne Spec.V01.packetQueue), true⟩,
   ⟨"01.flowStatsRequest", V01.flowStatsRequest, Spec.V01.flowStatsRequest, false⟩,
   ⟨"01.aggregateStatsRequest", V01.aggregateStatsRequest, Spec.V01.aggregateStatsRequest, false⟩,
   ⟨"01.portStatsRequest", V01.portStatsRequest, Spec.V01.portStatsRequest, false⟩,
   ⟨"01.queueStatsRequest", V01.queueStatsRequest, Spec.V01.queueStatsRequest, false⟩,
   ⟨"01.vendorStatsRequest", V01.vendorStatsRequest, Spec.V01.vendorStatsRequest, true⟩,
   ⟨"01.vendorStats", V01.vendorStats, Spec.V01.vendorStats, true⟩,
   ⟨"01.descStats", V01.descStats, Spec.V01.descStats, false⟩,
   ⟨"01.aggregateStatsReply", V01.aggregateStatsReply, Spec.V01.aggregateStatsReply, false⟩,
   ⟨"01.tableStats", V01.tableStats, Spec.V01.tableStats, false⟩,
   ⟨"01.portStats", V01.portStats, Spec.V01.portStats, false⟩,
   ⟨"01.queueStats", V01.queueStats, Spec.V01.queueStats, false⟩,
   ⟨"01.flowStats", V01.flowStats, Spec.V01.flowStats, false⟩,
   ⟨"04.oxm", V04.oxm, Spec.V04.oxm, false⟩,
   ⟨"04.oxms", V04.oxms, Spec.V04.oxms, true⟩,
   ⟨"04.match", V04.«match», Spec.V04.match, false⟩,
   ⟨"04.action", V04.action, Spec.V04.action, false⟩,
   ⟨"04.actions", V04.actions, Spec.V04.actions, true⟩,
   ⟨"04.instruction", V04.instruction, Spec.V04.instruction, false⟩,
   ⟨"04.instructions", V04.instructions, Spec.V04.instructions, true⟩,
   ⟨"04.property", V04.property, Spec.V04.property, false⟩,
   ⟨"04.properties", V04.properties, (Spec.list Spec.V04.property), true⟩,
   ⟨"04.tableFeatures", V04.tableFeatures, Spec.V04.tableFeatures, false⟩,
   ⟨"04.helloElem", V04.helloElem, Spec.V04.helloElem, false⟩,
   ⟨"04.helloElems", V04.helloElems, (Spec.list Spec.V04.helloElem), true⟩,
   ⟨"04.bandStats", V04.bandStats, Spec.V04.bandStats, false⟩,
   ⟨"04.bandStatsList", V04.bandStatsList, (Spec.list Spec.V04.bandStats), true⟩,
   ⟨"04.meterStats", V04.meterStats, Spec.V04.meterStats, false⟩,
   ⟨"04.bucket", V04.bucket, Spec.V04.bucket, false⟩,
   ⟨"04.buckets", V04.buckets, (Spec.list Spec.V04.bucket), true⟩,
   ⟨"04.bucketCounter", V04.bucketCounter, Spec.V04.bucketCounter, false⟩,
   ⟨"04.bucketCounters", V04.bucketCounters, (Spec.list Spec.V04.bucketCounter), true⟩,
   ⟨"04.band", V04.band, Spec.V04.band, false⟩,
   ⟨"04.bands", V04.bands, (Spec.list Spec.V04.band), true⟩,
   ⟨"04.port", V04.port, Spec.V04.port, false⟩,
   ⟨"04.experimenterMultipart", V04.experimenterMultipart, Spec.V04.experimenterMultipart, false⟩,
   ⟨"04.flowStatsRequest", V04.flowStatsRequest, Spec.V04.flowStatsRequest, false⟩,
   ⟨"04.aggregateStatsRequest", V04.aggregateStatsRequest, Spec.V04.aggregateStatsRequest, false⟩,
   ⟨"04.portStatsRequest", V04.portStatsRequest, Spec.V04.portStatsRequest, false⟩,
   ⟨"04.queueProp", V04.queuePropHeader, Spec.V04.queuePropHeader, false⟩,
   ⟨"04.queueProps", V04.queueProps, (Spec.list Spec.V04.queuePropHeader), true⟩,
   ⟨"04.packetQueue", V04.packetQueue, Spec.V04.packetQueue, true⟩,
   ⟨"04.queueStatsRequest", V04.queueStatsRequest, Spec.V04.queueStatsRequest, false⟩,
   ⟨"04.groupStatsRequest", V04.groupStatsRequest, Spec.V04.groupStatsRequest, false⟩,
   ⟨"04.meterMultipartRequest", V04.meterMultipartRequest, Spec.V04.meterMultipartRequest, false⟩,
   ⟨"04.aggregateStatsReply", V04.aggregateStatsReply, Spec.V04.aggregateStatsReply, false⟩,
   ⟨"04.desc", V04.desc, Spec.V04.desc, false⟩,
   ⟨"04.portStats", V04.portStats, Spec.V04.portStats, false⟩,
   ⟨"04.queueStats", V04.queueStats, Spec.V04.queueStats, false⟩,
   ⟨"04.groupDescStats", V04.groupDescStats, Spec.V04.groupDescStats, true⟩,
   ⟨"04.groupFeatures", V04.groupFeatures, Spec.V04.groupFeatures, false⟩,
   ⟨"04.groupStats", V04.groupStats, Spec.V04.groupStats, true⟩,
   ⟨"04.meterConfig", V04.meterConfig, Spec.V04.meterConfig, true⟩,
   ⟨"04.meterFeatures", V04.meterFeatures, Spec.V04.meterFeatures, false⟩,
   ⟨"04.tableStats", V04.tableStats, Spec.V04.tableStats, false⟩,
   ⟨"04.flowStats", V04.flowStats, Spec.V04.flowStats, false⟩,
   ⟨"04.ports", V04.ports, (Spec.list Spec.V04.port), true⟩,
   ⟨"01.queuePropMinRate", V01.queuePropMinRate, Spec.V01.queuePropMinRate, false⟩,
   ⟨"04.queuePropMinRate", V04.queuePropMinRate, Spec.V04.queuePropMinRate, false⟩,
   ⟨"04.queuePropMaxRate", V04.queuePropMaxRate, Spec.V04.queuePropMaxRate, false⟩,
   ⟨"04.queuePropExperimenter", V04.queuePropExperimenter, Spec.V04.queuePropExperimenter, true⟩,
   ⟨"04.oxmExperimenter", V04.oxmExperimenter, Spec.V04.oxmExperimenter, false⟩]

private def Good (e : Entry) : Prop := Enc e.attr e.fmt ∧ Dec e.attr e.fmt e.tail
private theorem all_nil : ∀ e ∈ ([] : List Entry), Good e := by intro e h; cases h
private theorem all_cons {e l} (h : Good e) (t : ∀ x ∈ l, Good x) : ∀ x ∈ e :: l, Good x := List.forall_mem_cons.mpr ⟨h, t⟩
theorem structures_good : ∀ e ∈ structures, Good e :=
  all_cons ⟨V01.enc_match, V01.dec_match⟩ <|
  all_cons ⟨V01.enc_phyPort, V01.dec_phyPort⟩ <|
  all_cons ⟨V01.enc_phyPorts, V01.dec_phyPorts⟩ <|
  all_cons ⟨V01.enc_queueProp, V01.dec_queueProp⟩ <|
  all_cons ⟨V01.enc_queueProps, V01.dec_queueProps⟩ <|
  all_cons ⟨V01.enc_packetQueue, V01.dec_packetQueue⟩ <|
  all_cons ⟨V01.enc_action, V01.dec_action⟩ <|
  all_cons ⟨V01.enc_actions, V01.dec_actions⟩ <|
  all_cons ⟨V01.enc_queues, V01.dec_queues⟩ <|
  all_cons ⟨V01.enc_flowStatsRequest, V01.dec_flowStatsRequest⟩ <|
  all_cons ⟨V01.enc_aggregateStatsRequest, V01.dec_aggregateStatsRequest⟩ <|
  all_cons ⟨V01.enc_portStatsRequest, V01.dec_portStatsRequest⟩ <|
  all_cons ⟨V01.enc_queueStatsRequest, V01.dec_queueStatsRequest⟩ <|
  all_cons ⟨V01.enc_vendorStatsRequest, V01.dec_vendorStatsRequest⟩ <|
  all_cons ⟨V01.enc_vendorStats, V01.dec_vendorStats⟩ <|
  all_cons ⟨V01.enc_descStats, V01.dec_descStats⟩ <|
  all_cons ⟨V01.enc_aggregateStatsReply, V01.dec_aggregateStatsReply⟩ <|
  all_cons ⟨V01.enc_tableStats, V01.dec_tableStats⟩ <|
  all_cons ⟨V01.enc_portStats, V01.dec_portStats⟩ <|
  all_cons ⟨V01.enc_queueStats, V01.dec_queueStats⟩ <|
  all_cons ⟨V01.enc_flowStats, V01.dec_flowStats⟩ <|
  all_cons ⟨V04.enc_oxm, V04.dec_oxm⟩ <|
  all_cons ⟨V04.enc_oxms, V04.dec_oxms⟩ <|
  all_cons ⟨V04.enc_match, V04.dec_match⟩ <|
  all_cons ⟨V04.enc_action, V04.dec_action⟩ <|
  all_cons ⟨V04.enc_actions, V04.dec_actions⟩ <|
  all_cons ⟨V04.enc_instruction, V04.dec_instruction⟩ <|
  all_cons ⟨V04.enc_instructions, V04.dec_instructions⟩ <|
  all_cons ⟨V04.enc_property, V04.dec_property⟩ <|
  all_cons ⟨V04.enc_properties, V04.dec_properties⟩ <|
  all_cons ⟨V04.enc_tableFeatures, V04.dec_tableFeatures⟩ <|
  all_cons ⟨V04.enc_helloElem, V04.dec_helloElem⟩ <|
  all_cons ⟨V04.enc_helloElems, V04.dec_helloElems⟩ <|
  all_cons ⟨V04.enc_bandStats, V04.dec_bandStats⟩ <|
  all_cons ⟨V04.enc_bandStatsList, V04.dec_bandStatsList⟩ <|
  all_cons ⟨V04.enc_meterStats, V04.dec_meterStats⟩ <|
  all_cons ⟨V04.enc_bucket, V04.dec_bucket⟩ <|
  all_cons ⟨V04.enc_buckets, V04.dec_buckets⟩ <|
  all_cons ⟨V04.enc_bucketCounter, V04.dec_bucketCounter⟩ <|
  all_cons ⟨V04.enc_bucketCounters, V04.dec_bucketCounters⟩ <|
  all_cons ⟨V04.enc_band, V04.dec_band⟩ <|
  all_cons ⟨V04.enc_bands, V04.dec_bands⟩ <|
  all_cons ⟨V04.enc_port, V04.dec_port⟩ <|
  all_cons ⟨V04.enc_experimenterMultipart, V04.dec_experimenterMultipart⟩ <|
  all_cons ⟨V04.enc_flowStatsRequest, V04.dec_flowStatsRequest⟩ <|
  all_cons ⟨V04.enc_aggregateStatsRequest, V04.dec_aggregateStatsRequest⟩ <|
  all_cons ⟨V04.enc_portStatsRequest, V04.dec_portStatsRequest⟩ <|
  all_cons ⟨V04.enc_queueProp, V04.dec_queueProp⟩ <|
  all_cons ⟨V04.enc_queueProps, V04.dec_queueProps⟩ <|
  all_cons ⟨V04.enc_packetQueue, V04.dec_packetQueue⟩ <|
  all_cons ⟨V04.enc_queueStatsRequest, V04.dec_queueStatsRequest⟩ <|
  all_cons ⟨V04.enc_groupStatsRequest, V04.dec_groupStatsRequest⟩ <|
  all_cons ⟨V04.enc_meterMultipartRequest, V04.dec_meterMultipartRequest⟩ <|
  all_cons ⟨V04.enc_aggregateStatsReply, V04.dec_aggregateStatsReply⟩ <|
  all_cons ⟨V04.enc_desc, V04.dec_desc⟩ <|
  all_cons ⟨V04.enc_portStats, V04.dec_portStats⟩ <|
  all_cons ⟨V04.enc_queueStats, V04.dec_queueStats⟩ <|
  all_cons ⟨V04.enc_groupDescStats, V04.dec_groupDescStats⟩ <|
  all_cons ⟨V04.enc_groupFeatures, V04.dec_groupFeatures⟩ <|
  all_cons ⟨V04.enc_groupStats, V04.dec_groupStats⟩ <|
  all_cons ⟨V04.enc_meterConfig, V04.dec_meterConfig⟩ <|
  all_cons ⟨V04.enc_meterFeatures, V04.dec_meterFeatures⟩ <|
  all_cons ⟨V04.enc_tableStats, V04.dec_tableStats⟩ <|
  all_cons ⟨V04.enc_flowStats, V04.dec_flowStats⟩ <|
  all_cons ⟨V04.enc_ports, V04.dec_ports⟩ <|
  all_cons ⟨V01.enc_queuePropMinRate, V01.dec_queuePropMinRate⟩ <|
  all_cons ⟨V04.enc_queuePropMinRate, V04.dec_queuePropMinRate⟩ <|
  all_cons ⟨V04.enc_queuePropMaxRate, V04.dec_queuePropMaxRate⟩ <|
  all_cons ⟨V04.enc_queuePropExperimenter, V04.dec_queuePropExperimenter⟩ <|
  all_cons ⟨V04.enc_oxmExperimenter, V04.dec_oxmExperimenter⟩ <|
  all_nil

/-- C54.  An instance packs to exactly the bytes of its content, `get_size` is their number, and decoding them at any place of any
buffer gives an instance with the same content. -/
theorem C54_round_trip {e : Entry} (he : e ∈ structures) {v : Val} {d : Data} {b : Bytes} (hv : e.fmt.den v = some d)
    (hok : e.fmt.ok d) (hb : e.attr.pack v = .ok b) :
    e.fmt.enc d = some b ∧ e.attr.size v = .ok b.length ∧
    ∀ pre post : Bytes, (e.tail = true → post = []) → pre ++ b ++ post ≠ [] →
      ∃ u, e.attr.unpack (pre ++ b ++ post) pre.length = .ok u ∧ e.fmt.den u = some d ∧ e.attr.pack u = .ok b := by
  obtain ⟨h1, h2⟩ := structures_good e he
  have hb' := (h1.pack v d hv b).mp hb
  refine ⟨hb', h1.size v d b hv hb', fun pre post ht hne => ?_⟩
  obtain ⟨u, hu, hd, _⟩ := h2.unpack d b pre post hb' hok ht hne
  exact ⟨u, hu, hd, (h1.pack u d hd b).mpr hb'⟩

/-- C54, C45.  Two instances of one class pack to the same bytes exactly when they have the same content. -/
theorem C45_structures {e : Entry} (he : e ∈ structures) {v v' : Val} {d d' : Data} {b b' : Bytes} (hv : e.fmt.den v = some d)
    (hv' : e.fmt.den v' = some d') (hok : e.fmt.ok d) (hok' : e.fmt.ok d') (hb : e.attr.pack v = .ok b)
    (hb' : e.attr.pack v' = .ok b') : b = b' ↔ d = d' := by
  obtain ⟨h1, h2⟩ := structures_good e he
  have e1 := (h1.pack v d hv b).mp hb
  have e2 := (h1.pack v' d' hv' b').mp hb'
  constructor
  · rintro rfl
    by_cases hn : b = []
    · subst hn
      exact Option.some.inj ((h2.empty d e1).symm.trans (h2.empty d' e2))
    · obtain ⟨u, hu, hd, _⟩ := h2.unpack d b [] [] e1 hok (fun _ => rfl) (by simpa using hn)
      obtain ⟨u', hu', hd', _⟩ := h2.unpack d' b [] [] e2 hok' (fun _ => rfl) (by simpa using hn)
      cases hu.symm.trans hu'
      exact Option.some.inj (hd.symm.trans hd')
  · rintro rfl
    exact Option.some.inj (e1.symm.trans e2)

/-- One value of each of several classes. -/
example : Spec.V04.queuePropMinRate.den (.obj "04.QueuePropMinRate" [.obj "04.QueuePropHeader" [.enum 1, .int 16, .pad 4], .int 500, .pad 6]) =
      some (.record [.record [.num 1, .num 16, .unit], .num 500, .unit]) ∧
    V04.queuePropMinRate.pack (.obj "04.QueuePropMinRate" [.obj "04.QueuePropHeader" [.enum 1, .int 16, .pad 4], .int 500, .pad 6]) =
      .ok [0, 1, 0, 16, 0, 0, 0, 0, 1, 244, 0, 0, 0, 0, 0, 0] ∧
    V04.oxmExperimenter.pack (.obj "04.OxmExperimenterHeader" [.ub 4 (.enum 0xffff), .int 7]) = .ok [0, 0, 255, 255, 0, 0, 0, 7] :=
  ⟨rfl, by decide +kernel, by decide +kernel⟩

/-! ## C55 -/

/-- C15.  A struct's list attribute refuses to pack a list in which something, at any depth, is not an instance of the item class. -/
theorem C15_pack_foreign (isItem : Val → Bool) (it : Attr) {f : Bool} {xs : List Val} {x y : Val} (hx : x ∈ xs) (hy : y ∈ flat x)
    (hn : isItem y = false) : (listAttr isItem it).pack (.list f xs) = .error .wrongItem := by
  have h := (C15_offender_raises isItem []).2.1 xs x hx ⟨y, hy, hn⟩
  simp only [listAttr, C15_container_agrees]
  rcases hf : fixExtend isItem [] xs with ⟨ys, o⟩
  rw [hf] at h
  cases h
  rfl

example := C15_pack_foreign (fun v => v == .int 1) (ubint 1) (f := false) (xs := [.int 1, .list false [.int 1, .int 2]]) (.tail _ (.head _))
  (y := .int 2) (by decide +kernel) (by decide +kernel)

/-- C55, violated: the classes for queue properties are not subclasses of `QueuePropHeader`, so no queue with a rate can be packed. -/
theorem C55_v01_pack {q l p : Val} {f : Bool} {xs vs : List Val} (hx : .obj "01.QueuePropMinRate" vs ∈ xs) :
    V01.queueProps.pack (.list f xs) = .error .wrongItem ∧
    ∀ b, V01.packetQueue.pack (.obj "01.PacketQueue" [q, l, p, .list f xs]) ≠ .ok b := by
  have h : V01.queueProps.pack (.list f xs) = .error .wrongItem :=
    C15_pack_foreign _ _ hx (by simp [flat] : Val.obj "01.QueuePropMinRate" vs ∈ flat _) rfl
  refine ⟨h, fun b hb => ?_⟩
  simp only [V01.packetQueue, V01.packetQueueFields, structAttr, if_true] at hb
  obtain ⟨_, _, _, hb, _⟩ := packAttrs_cons.mp hb
  obtain ⟨_, _, _, hb, _⟩ := packAttrs_cons.mp hb
  obtain ⟨_, _, _, hb, _⟩ := packAttrs_cons.mp hb
  obtain ⟨_, _, hb, _⟩ := packAttrs_cons.mp hb
  rw [h] at hb
  cases hb

example := C55_v01_pack (q := .int 1) (l := .int 24) (p := .pad 2) (f := true)
  (xs := [.obj "01.QueuePropMinRate" [.obj "01.QueuePropHeader" [.enum 1, .int 16, .pad 4], .int 500, .pad 6]]) (.head _)

/-- C55, violated in OpenFlow 1.3 in the same way. -/
theorem C55_v04_pack {q o l p : Val} {f : Bool} {xs vs : List Val} {c : String}
    (hc : c ∈ ["04.QueuePropMinRate", "04.QueuePropMaxRate", "04.QueuePropExperimenter"]) (hx : .obj c vs ∈ xs) :
    V04.queueProps.pack (.list f xs) = .error .wrongItem ∧
    ∀ b, V04.packetQueue.pack (.obj "04.PacketQueue" [q, o, l, p, .list f xs]) ≠ .ok b := by
  have h : V04.queueProps.pack (.list f xs) = .error .wrongItem := by
    refine C15_pack_foreign _ _ hx (by simp [flat] : Val.obj c vs ∈ flat _) ?_
    simp only [List.mem_cons, List.not_mem_nil, or_false] at hc
    rcases hc with rfl | rfl | rfl <;> rfl
  refine ⟨h, fun b hb => ?_⟩
  simp only [V04.packetQueue, V04.packetQueueFields, structAttr, if_true] at hb
  obtain ⟨_, _, _, hb, _⟩ := packAttrs_cons.mp hb
  obtain ⟨_, _, _, hb, _⟩ := packAttrs_cons.mp hb
  obtain ⟨_, _, _, hb, _⟩ := packAttrs_cons.mp hb
  obtain ⟨_, _, _, hb, _⟩ := packAttrs_cons.mp hb
  obtain ⟨_, _, hb, _⟩ := packAttrs_cons.mp hb
  rw [h] at hb
  cases hb

example := C55_v04_pack (q := .int 1) (o := .int 2) (l := .int 24) (p := .pad 6) (f := true)
  (xs := [.obj "04.QueuePropMinRate" [.obj "04.QueuePropHeader" [.enum 1, .int 16, .pad 4], .int 500, .pad 6]]) (by simp) (.head _)

private theorem ub_cases (w ref buff off) : ubUnpack w ref buff off = .error .unpack ∨ ∃ x, ubUnpack w ref buff off = .ok (.ub w x) := by
  unfold ubUnpack
  split
  · exact .inl rfl
  · split
    · exact .inl rfl
    · exact .inr ⟨_, rfl⟩

/-- A numeric attribute either fails or is followed by the next one. -/
private theorem attrs_ub {n w ref dv fs buff off} (hn : buff ≠ []) (h : unpackAttrs fs buff (off + w) = .error .unpack) :
    unpackAttrs ((n, ubint w ref dv) :: fs) buff off = .error .unpack := by
  rcases ub_cases w ref buff off with e | ⟨x, e⟩ <;> simp [unpackAttrs, unpackAttr, hn, ubint, e, h]
private theorem attrs_pad {n k fs buff off} (hn : buff ≠ []) (h : unpackAttrs fs buff (off + k) = .error .unpack) :
    unpackAttrs ((n, padAttr k) :: fs) buff off = .error .unpack := by
  simp [unpackAttrs, unpackAttr, hn, padAttr, h]
private theorem attrs_list {n g it buff off} (hn : buff ≠ []) (h : unpackItems it buff off = .error .unpack) :
    unpackAttrs [(n, listAttr g it)] buff off = .error .unpack := by
  simp [unpackAttrs, unpackAttr, hn, listAttr, h]
private theorem items_first {c fs init buff off} (hl : off < buff.length) (h : unpackAttrs fs buff off = .error .unpack) :
    unpackItems (structAttr c fs init) buff off = .error .unpack := by
  rw [unpackItems]
  simp [hl, structAttr, h]
/-- An eight-byte property header either fails or is followed by another. -/
private theorem items_second {c ms init buff off} (hl : off < buff.length) (hn : buff ≠ [])
    (h : unpackItems (structAttr c [("queue_property", ubint 2 (.enum ms)), ("length", ubint 2), ("pad", padAttr 4)] init) buff (off + 8) =
      .error .unpack) :
    unpackItems (structAttr c [("queue_property", ubint 2 (.enum ms)), ("length", ubint 2), ("pad", padAttr 4)] init) buff off =
      .error .unpack := by
  rw [unpackItems, if_pos hl]
  generalize hit : structAttr c [("queue_property", ubint 2 (.enum ms)), ("length", ubint 2), ("pad", padAttr 4)] init = it at h ⊢
  have : it.unpack buff off = .error .unpack ∨ ∃ u, it.unpack buff off = .ok u ∧ it.usize u = .ok 8 := by
    subst hit
    rcases ub_cases 2 (.enum ms) buff off with e | ⟨x, e⟩
    · simp [structAttr, unpackAttrs, unpackAttr, hn, ubint, e]
    · rcases ub_cases 2 .none buff (off + 2) with e2 | ⟨y, e2⟩ <;>
        simp [structAttr, unpackAttrs, unpackAttr, hn, ubint, padAttr, e, e2, sizeAttrs]
  rcases this with e | ⟨u, e, e2⟩
  · simp [e]
  · simp [e, e2, h]

/-- The bytes of a rate property: kind, length 16, four bytes of padding, the rate, six bytes of padding. -/
def rateBytes (kind rate : Nat) : Bytes :=
  be 2 kind ++ be 2 16 ++ List.replicate 4 0 ++ be 2 rate ++ List.replicate 6 0

/-- The body of an OpenFlow 1.0 queue configuration reply with one queue that has one rate property. -/
def queueReply01 (port queue len kind rate : Nat) : Bytes :=
  be 2 port ++ List.replicate 6 0 ++ be 4 queue ++ be 2 len ++ List.replicate 2 0 ++ rateBytes kind rate

/-- The same in OpenFlow 1.3. -/
def queueReply04 (port queue qport len kind rate : Nat) : Bytes :=
  be 4 port ++ List.replicate 4 0 ++ be 4 queue ++ be 4 qport ++ be 2 len ++ List.replicate 6 0 ++ rateBytes kind rate

/-- C55, violated when decoding: only the header of a property is read, and its second half is taken for another header.  A queue
configuration reply in which a queue has a rate is rejected, unless the rate happens to be a property number. -/
theorem C55_v01_decode {x port queue len kind rate : Nat} (hx : x < 4294967296) (hr : rate < 65536) (h : rate ≠ 0 ∧ rate ≠ 1) :
    pyUnpack libs (.bytes (packet 1 21 x (queueReply01 port queue len kind rate))) = .error .unpack := by
  generalize hb : queueReply01 port queue len kind rate = buff
  have hl : buff.length = 32 := by subst hb; simp [queueReply01, rateBytes]
  have hn : buff ≠ [] := by intro h; simp [h] at hl
  have u24 : ubUnpack 2 (.enum [0, 1]) buff 24 = .error .unpack := by
    rw [show buff = (be 2 port ++ List.replicate 6 0 ++ be 4 queue ++ be 2 len ++ List.replicate 2 0 ++
      (be 2 kind ++ be 2 16 ++ List.replicate 4 0)) ++ be 2 rate ++ List.replicate 6 0 by simp [← hb, queueReply01, rateBytes],
      ubUnpack_be _ _ _ hr (by simp)]
    simp only [refApply, List.mem_cons, List.not_mem_nil, or_false, h.1, h.2, or_self, if_false]
  have h1 : unpackAttrs V01.queueGetConfigReply.body buff 0 = .error .unpack := by
    refine attrs_ub hn (attrs_pad hn (attrs_list hn (items_first (by omega) (attrs_ub hn (attrs_ub hn (attrs_pad hn (attrs_list hn
      (items_second (by omega) hn (items_first (by omega) ?_)))))))))
    simp only [unpackAttrs, unpackAttr, hn, if_false, ubint, u24]
  have h2 : V01.queueGetConfigReply.unpack buff = .error .unpack := by
    simp only [V01.queueGetConfigReply, V01.msg] at h1 ⊢
    rw [h1]
  have := pyUnpack_class (l := V01.lib) (code := 21) (x := x) (body := buff) rfl (by decide) (by decide) (by decide) (by decide) rfl
    (by omega) hx
  refine Eq.trans this ?_
  rw [h2]
  rfl

example := C55_v01_decode (x := 7) (port := 0xfff8) (queue := 3) (len := 24) (kind := 1) (rate := 500) (by decide) (by decide) (by decide)

/-- C55, violated when decoding OpenFlow 1.3 replies. -/
theorem C55_v04_decode {x port queue qport len kind rate : Nat} (hx : x < 4294967296) (hr : rate < 65536)
    (h : rate ≠ 1 ∧ rate ≠ 2 ∧ rate ≠ 0xffff) :
    pyUnpack libs (.bytes (packet 4 23 x (queueReply04 port queue qport len kind rate))) = .error .unpack := by
  generalize hb : queueReply04 port queue qport len kind rate = buff
  have hl : buff.length = 40 := by subst hb; simp [queueReply04, rateBytes]
  have hn : buff ≠ [] := by intro h; simp [h] at hl
  have u32 : ubUnpack 2 (.enum [1, 2, 0xffff]) buff 32 = .error .unpack := by
    rw [show buff = (be 4 port ++ List.replicate 4 0 ++ be 4 queue ++ be 4 qport ++ be 2 len ++ List.replicate 6 0 ++
      (be 2 kind ++ be 2 16 ++ List.replicate 4 0)) ++ be 2 rate ++ List.replicate 6 0 by simp [← hb, queueReply04, rateBytes],
      ubUnpack_be _ _ _ hr (by simp)]
    simp only [refApply, List.mem_cons, List.not_mem_nil, or_false, h.1, h.2.1, h.2.2, or_self, if_false]
  have h1 : unpackAttrs V04.queueGetConfigReply.body buff 0 = .error .unpack := by
    refine attrs_ub hn (attrs_pad hn (attrs_list hn (items_first (by omega) (attrs_ub hn (attrs_ub hn (attrs_ub hn (attrs_pad hn
      (attrs_list hn (items_second (by omega) hn (items_first (by omega) ?_))))))))))
    simp only [unpackAttrs, unpackAttr, hn, if_false, ubint, u32]
  have h2 : V04.queueGetConfigReply.unpack buff = .error .unpack := by
    simp only [V04.queueGetConfigReply, V04.msg] at h1 ⊢
    rw [h1]
  have := pyUnpack_class (l := V04.lib) (code := 23) (x := x) (body := buff) rfl (by decide) (by decide) (by decide) (by decide) rfl
    (by omega) hx
  refine Eq.trans this ?_
  rw [h2]
  rfl

/-- A queue with a minimum rate of 50 %, on port 65528, as a switch describes it. -/
example : packet 1 21 7 (queueReply01 0xfff8 3 24 1 500) =
    [1, 21, 0, 40, 0, 0, 0, 7, 255, 248, 0, 0, 0, 0, 0, 0, 0, 0, 0, 3, 0, 24, 0, 0, 0, 1, 0, 16, 0, 0, 0, 0, 1, 244, 0, 0, 0, 0, 0, 0] := by
  decide +kernel

/-- The properties of a queue that have no body, as the constructor makes them and as bytes. -/
def headers (cls : String) (ds : List (Nat × Nat)) : List Val := ds.map fun d => .obj cls [.enum d.1, .int d.2, .pad 4]
def headerBytes (ds : List (Nat × Nat)) : Bytes := ds.flatMap fun d => be 2 d.1 ++ be 2 d.2 ++ List.replicate 4 0
def headerData (ds : List (Nat × Nat)) : Data := .arr (ds.map fun d => .record [.num d.1, .num d.2, .unit])

private theorem headers_spec {cls : String} {ms : List Nat} {ds : List (Nat × Nat)} (hd : ∀ d ∈ ds, d.1 ∈ ms ∧ d.1 < 65536 ∧ d.2 < 65536) :
    let f := Spec.list (struct cls [("queue_property", uint 2 (some ms)), ("length", uint 2), ("pad", pad 4)])
    f.den (.list false (headers cls ds)) = some (headerData ds) ∧ f.enc (headerData ds) = some (headerBytes ds) ∧ f.ok (headerData ds) := by
  intro f
  induction ds with
  | nil => exact ⟨rfl, rfl, by simp [f, headerData, Spec.list]⟩
  | cons d ds ih =>
    obtain ⟨i1, i2, i3⟩ := ih fun e he => hd e (by simp [he])
    obtain ⟨h1, h2, h3⟩ := hd d (by simp)
    simp only [f, Spec.list, headers, headerData, headerBytes, Option.map_eq_some_iff] at i1 i2 i3
    obtain ⟨a, ha, hb⟩ := i1
    cases hb
    generalize hg : struct cls [("queue_property", uint 2 (some ms)), ("length", uint 2), ("pad", pad 4)] = g at ha i2 i3
    have g1 : g.den (.obj cls [.enum d.1, .int d.2, .pad 4]) = some (.record [.num d.1, .num d.2, .unit]) := by
      simp [← hg, struct, denAll, uint, numOf, pad]
    have g2 : g.enc (.record [.num d.1, .num d.2, .unit]) = some (be 2 d.1 ++ (be 2 d.2 ++ List.replicate 4 0)) := by
      simp [← hg, struct, encAll, uint, pad, h2, h3]
    have g3 : g.ok (.record [.num d.1, .num d.2, .unit]) := by simp [← hg, struct, okAll, uint, pad, h1]
    refine ⟨?_, ?_, ?_⟩
    · simp only [f, hg, Spec.list, headers, headerData, List.map_cons, optMap, g1, ha, Option.map_some]
    · simp only [f, hg, Spec.list, headerData, headerBytes, List.map_cons, List.flatMap_cons, encList, g2, i2, List.append_assoc]
    · simp only [f, hg, Spec.list, headerData, List.map_cons, List.mem_cons, forall_eq_or_imp]
      exact ⟨g3, i3⟩

/-- C55, what holds: any number of properties without a body are packed in order and decoded.  Missing: the properties with a rate or
experimenter data. -/
theorem C55_v01_headers_partial {ds : List (Nat × Nat)} (hd : ∀ d ∈ ds, d.1 ∈ [0, 1] ∧ d.2 < 65536) {pre : Bytes} (hne : pre ≠ []) :
    V01.queueProps.pack (.list false (headers "01.QueuePropHeader" ds)) = .ok (headerBytes ds) ∧
    ∃ u, V01.queueProps.unpack (pre ++ headerBytes ds) pre.length = .ok u ∧
      (Spec.list Spec.V01.queuePropHeader).den u = some (headerData ds) := by
  obtain ⟨h1, h2, h3⟩ := headers_spec (cls := "01.QueuePropHeader") (ms := [0, 1]) (ds := ds) fun d h => by
    have := hd d h; simp at this; simp; omega
  have hp := (V01.enc_queueProps.pack _ _ h1 _).mpr h2
  obtain ⟨u, hu, hd, _⟩ := V01.dec_queueProps.unpack _ _ pre [] h2 h3 (fun _ => rfl) (by simp [hne])
  exact ⟨hp, u, by simpa using hu, hd⟩

example := C55_v01_headers_partial (ds := [(1, 16), (0, 8)]) (by decide) (pre := [9]) (by decide)

theorem C55_v04_headers_partial {ds : List (Nat × Nat)} (hd : ∀ d ∈ ds, d.1 ∈ [1, 2, 0xffff] ∧ d.2 < 65536) {pre : Bytes}
    (hne : pre ≠ []) :
    V04.queueProps.pack (.list false (headers "04.QueuePropHeader" ds)) = .ok (headerBytes ds) ∧
    ∃ u, V04.queueProps.unpack (pre ++ headerBytes ds) pre.length = .ok u ∧
      (Spec.list Spec.V04.queuePropHeader).den u = some (headerData ds) := by
  obtain ⟨h1, h2, h3⟩ := headers_spec (cls := "04.QueuePropHeader") (ms := [1, 2, 0xffff]) (ds := ds) fun d h => by
    have := hd d h; simp at this; simp; omega
  have hp := (V04.enc_queueProps.pack _ _ h1 _).mpr h2
  obtain ⟨u, hu, hd, _⟩ := V04.dec_queueProps.unpack _ _ pre [] h2 h3 (fun _ => rfl) (by simp [hne])
  exact ⟨hp, u, by simpa using hu, hd⟩

example := C55_v04_headers_partial (ds := [(1, 16), (0xffff, 8)]) (by decide) (pre := [9]) (by decide)

/-- C55.  A rate that happens to be a property number (here 1, i.e. 0.1 %) is decoded as a second property. -/
theorem C55_misread {pre : Bytes} (hne : pre ≠ []) : ∃ u, V01.queueProps.unpack (pre ++ rateBytes 1 1) pre.length = .ok u ∧
    (Spec.list Spec.V01.queuePropHeader).den u = some (headerData [(1, 16), (1, 0)]) :=
  (C55_v01_headers_partial (ds := [(1, 16), (1, 0)]) (by decide) hne).2

example := C55_misread (pre := [9]) (by decide)

/-! ## C56 -/

/-- C56.  An experimenter error message packs to the packet of its content. -/
theorem C56_pack {v : Val} {x : Nat} {d : Data} (h : msgDen Spec.V04.errorExperimenter v = some (x, d)) :
    PackOk Spec.V04.errorExperimenter x d (V04.errorExperimenter.pack v) := V04.errorExperimenter_pack h

private theorem uint_enc {w ms dflt n b} (h : (uint w ms dflt).enc (.num n) = some b) : n < 256 ^ w ∧ b = be w n := by
  simp only [uint] at h
  split at h
  · cases h; exact ⟨‹_›, rfl⟩
  · cases h

private theorem exp_body {t e n : Nat} {data body : Bytes}
    (h : Spec.V04.errorExperimenter.fmt.enc (.record [.num t, .num e, .num n, .raw data]) = some body) :
    t < 65536 ∧ e < 65536 ∧ body = be 2 t ++ be 2 e ++ (be 4 n ++ data) := by
  simp only [Spec.V04.errorExperimenter, Spec.V04.plain, struct] at h
  obtain ⟨b1, r1, e1, h1, rfl⟩ := encAll_cons.mp h
  obtain ⟨b2, r2, e2, h2, rfl⟩ := encAll_cons.mp h1
  obtain ⟨b3, r3, e3, h3, rfl⟩ := encAll_cons.mp h2
  obtain ⟨b4, r4, e4, h4, rfl⟩ := encAll_cons.mp h3
  obtain ⟨a1, rfl⟩ := uint_enc e1
  obtain ⟨a2, rfl⟩ := uint_enc e2
  obtain ⟨_, rfl⟩ := uint_enc e3
  cases e4
  cases h4
  exact ⟨by simpa using a1, by simpa using a2, by simp⟩

/-- C56, violated: `pyof.utils.unpack` rejects the packet of every experimenter error whose experimenter type is not 0. -/
theorem C56_rejected {v : Val} {x e n : Nat} {data : Bytes} {p : Bytes}
    (h : msgDen Spec.V04.errorExperimenter v = some (x, .record [.num 0xffff, .num e, .num n, .raw data]))
    (hp : V04.errorExperimenter.pack v = .ok p) (he : e ≠ 0) : pyUnpack libs (.bytes p) = .error .unpack := by
  obtain ⟨body, h1, h2, h3, rfl⟩ := ((C56_pack h).ok p).mp hp
  obtain ⟨a1, a2, rfl⟩ := exp_body h1
  exact C34_v04_reject h3 a1 a2 (by simp at h2 ⊢; omega) (by simpa [Spec.V04.errorCodes] using he)

/-- C56, what holds: with experimenter type 0 the packet is decoded, as an `ErrorMsg` whose data begin with the experimenter id.
Missing: the other types, and decoding to `ErrorExperimenterMsg`. -/
theorem C56_type_zero_partial {v : Val} {x n : Nat} {data : Bytes} {p : Bytes}
    (h : msgDen Spec.V04.errorExperimenter v = some (x, .record [.num 0xffff, .num 0, .num n, .raw data]))
    (hp : V04.errorExperimenter.pack v = .ok p) : pyUnpack libs (.bytes p) = .ok (errorObjV04 x 0xffff 0 (be 4 n ++ data)) := by
  obtain ⟨body, h1, h2, h3, rfl⟩ := ((C56_pack h).ok p).mp hp
  obtain ⟨a1, a2, rfl⟩ := exp_body h1
  exact C34_v04_accept h3 a1 a2 (by simp at h2 ⊢; omega) (by decide)

/-- C56, violated: the class' own `unpack` raises `MethodNotImplemented`, whatever the bytes. -/
theorem C56_own_unpack (b : Bytes) : V04.errorExperimenter.unpack b = .error .notImplemented := rfl

/-- An experimenter error of type 5. -/
def exExperimenter : Val := .obj "04.ErrorExperimenterMsg"
  [.obj "04.Header" [.ub 1 (.int 4), .enum 1, .none, .int 9], .ub 2 (.enum 0xffff), .int 5, .int 0x2320, .bytes [1, 2]]

example : msgDen Spec.V04.errorExperimenter exExperimenter = some (9, .record [.num 0xffff, .num 5, .num 0x2320, .raw [1, 2]]) ∧
    V04.errorExperimenter.pack exExperimenter = .ok [4, 1, 0, 18, 0, 0, 0, 9, 255, 255, 0, 5, 0, 0, 35, 32, 1, 2] :=
  ⟨rfl, by decide +kernel⟩

example := C56_rejected (v := exExperimenter) rfl (p := [4, 1, 0, 18, 0, 0, 0, 9, 255, 255, 0, 5, 0, 0, 35, 32, 1, 2]) (by decide +kernel) (by decide)
example := C56_type_zero_partial (v := .obj "04.ErrorExperimenterMsg"
  [.obj "04.Header" [.ub 1 (.int 4), .enum 1, .none, .int 9], .ub 2 (.enum 0xffff), .int 0, .int 0x2320, .bytes [1, 2]]) rfl
  (p := [4, 1, 0, 18, 0, 0, 0, 9, 255, 255, 0, 0, 0, 0, 35, 32, 1, 2]) (by decide +kernel)

end Pyof.Props
