import Verif.Lemmas.V04
/-! OpenFlow 1.3: buckets, meter bands and the bodies of multipart messages. -/
namespace Pyof.V04
open Spec

/-! ## buckets -/

/-- A plain `FixedTypeList` attribute that counts its items. -/
def countedList (isItem : Val → Bool) (it : Attr) : Attr := { bareListAttr isItem it with size := (listAttr isItem it).size }

theorem bareList_den_inv {f v d} (h : (bareList f).den v = some d) : (v = .none ∨ ∃ xs, v = .list true xs) ∧ (Spec.list f).den v = some d := by
  simp only [bareList] at h
  split at h
  · cases h; exact ⟨.inl rfl, rfl⟩
  · exact ⟨.inr ⟨_, rfl⟩, h⟩
  · cases h

theorem enc_countedList {isItem it f} (he : Enc it f) (hi : ItemOk isItem f) : Enc (countedList isItem it) (bareList f) where
  pack := by
    intro v d hv b
    obtain ⟨hv1, hv2⟩ := bareList_den_inv hv
    have h := (enc_list he hi).pack v d hv2 b
    rcases list_den_inv hv2 with ⟨rfl, rfl⟩ | ⟨g, xs, ds, rfl, h1, rfl⟩
    · exact h
    · rcases hv1 with hv1 | ⟨_, hv1⟩
      · cases hv1
      · cases hv1
        simp only [countedList, bareListAttr]
        exact packItems_enc he xs ds h1 b
  size := fun v d b hv => (enc_list he hi).size v d b (bareList_den_inv hv).2
  usize := fun v d b hn hv => (enc_list he hi).usize v d b hn (bareList_den_inv hv).2

theorem dec_countedList {isItem it f} (he : Enc it f) (hd : Dec it f false) (hne : NonEmpty f) :
    Dec (countedList isItem it) (bareList f) true where
  unpack := by
    intro d b pre post hb ho ht _
    obtain ⟨ds, rfl, hb⟩ := list_enc_inv (f := f) hb
    have hp : post = [] := ht rfl
    subst hp
    obtain ⟨xs, hxs, hden⟩ := unpackItems_dec he hd hne ds b pre hb ho
    refine ⟨.list true xs, ?_, ?_, by simp⟩
    · simp only [countedList, bareListAttr, listAttr, List.append_nil, hxs]
    · simp [bareList, Spec.list, hden]
  empty := by
    intro d hb
    have := (dec_list (isItem := isItem) he hd hne).empty d hb
    simpa [bareList, countedList, bareListAttr, listAttr] using this

def bucketCounted : Fields :=
  [("length", ubint 2), ("weight", ubint 2), ("watch_port", ubint 4), ("watch_group", ubint 4), ("pad", padAttr 4),
   ("actions", countedList (isSub actionSubs) action)]

theorem impl_bucket : Impl true bucketCounted
    [("length", Spec.V04.u16), ("weight", Spec.V04.u16), ("watch_port", Spec.V04.u32), ("watch_group", Spec.V04.u32), ("pad", Spec.pad 4),
     ("actions", bareList Spec.V04.action)] := by
  have h1 := enc_countedList enc_action itemOk_action
  have h2 := dec_countedList (isItem := isSub actionSubs) enc_action dec_action nonEmpty_action
  unfold bucketCounted
  impl

theorem bucket_packAttrs (vs : List Val) : packAttrs bucketFields vs = packAttrs bucketCounted vs := by
  unfold bucketFields bucketCounted
  match vs with
  | [] | [_] | [_, _] | [_, _, _] | [_, _, _, _] | [_, _, _, _, _] | _ :: _ :: _ :: _ :: _ :: _ :: _ => rfl

theorem bucket_unpackAttrs (buff o) : unpackAttrs bucketFields buff o = unpackAttrs bucketCounted buff o := rfl

theorem enc_bucket : Enc bucket Spec.V04.bucket := by
  refine enc_exact ?_ ?_
  · intro v d hv b
    obtain ⟨vs, ds, rfl, h1, rfl⟩ := struct_den_inv hv
    simp only [bucket, lengthCut, structAttr, if_true, bucket_packAttrs]
    exact (impl_bucket.encs _ _ h1).1 b
  · intro v d b hv he hs
    obtain ⟨vs, ds, rfl, h1, rfl⟩ := struct_den_inv hv
    obtain ⟨l, r, d1, e1, rfl, h2, h3, rfl⟩ := denAll_cons_inv h1
    obtain ⟨es, h4, he⟩ := struct_enc_inv he
    cases h4
    obtain ⟨_, _, x1, y1, h4, h5, h6, rfl⟩ := encAll_cons_inv he
    cases h4
    obtain ⟨n, rfl, hn, rfl⟩ := uint_enc_inv h5
    have hlen : n = (be 2 n ++ y1).length := by
      have h7 := hs.1
      have h8 : slice (be 2 n ++ y1) 0 (0 + 2) = be 2 n := by
        have := slice_between (a := []) (b := be 2 n) (c := y1)
        simpa using this
      rw [h8] at h7
      exact be_inj hn (by have := hs.2; simpa using this) h7
    have hl : l ≠ .none ∧ numOf l = some n := by
      cases l <;> simp [Spec.V04.u16, Spec.uint] at h2 ⊢ <;> simpa using h2
    have : bucketSize (l :: r) = .ok (be 2 n ++ y1).length := by
      simp only [bucketSize]
      split
      · exact absurd rfl hl.1
      · simp only [cmpNum_num hl.2]
        rw [if_pos (by omega), ← hlen]
        rfl
    exact ⟨this, this⟩

theorem nonEmpty_bucketRaw {f} : NonEmpty (Spec.V04.bucketRaw f) := by unfold Spec.V04.bucketRaw; nonempty
theorem nonEmpty_bucket : NonEmpty Spec.V04.bucket := nonEmpty_exact nonEmpty_bucketRaw
theorem dec_bucket : Dec bucket Spec.V04.bucket false := by
  have h : Dec (structAttr "04.Bucket" bucketCounted [.none, .none, .none, .none, .pad 4, .none]) (Spec.V04.bucketRaw (bareList Spec.V04.action)) true :=
    impl_bucket.dec_struct _ _ nonEmpty_bucketRaw
  refine dec_undelimit (dec_lengthCut (dec_exact ?_) nonEmpty_bucket) selfSized_exact
  exact ⟨h.unpack, h.empty⟩
theorem itemOk_bucket : ItemOk (isObj "04.Bucket") Spec.V04.bucket := itemOk_exact itemOk_struct
theorem enc_buckets : Enc buckets (Spec.list Spec.V04.bucket) := enc_list enc_bucket itemOk_bucket
theorem dec_buckets : Dec buckets (Spec.list Spec.V04.bucket) true := dec_list enc_bucket dec_bucket nonEmpty_bucket
macro_rules | `(tactic| enc1) => `(tactic| exact enc_buckets)
macro_rules | `(tactic| dec1) => `(tactic| exact dec_buckets)
macro_rules | `(tactic| enc1) => `(tactic| exact enc_noItems)
macro_rules | `(tactic| dec1) => `(tactic| exact dec_noItems)

theorem enc_bucketCounter : Enc bucketCounter Spec.V04.bucketCounter := by
  refine Spec.Impl.enc_struct (t := true) ?_ _ _; impl
theorem nonEmpty_bucketCounter : NonEmpty Spec.V04.bucketCounter := by unfold Spec.V04.bucketCounter; nonempty
theorem dec_bucketCounter : Dec bucketCounter Spec.V04.bucketCounter false := by
  refine Spec.Impl.dec_struct ?_ _ _ nonEmpty_bucketCounter; impl
theorem enc_bucketCounters : Enc bucketCounters (Spec.list Spec.V04.bucketCounter) := enc_list enc_bucketCounter itemOk_struct
theorem dec_bucketCounters : Dec bucketCounters (Spec.list Spec.V04.bucketCounter) true :=
  dec_list enc_bucketCounter dec_bucketCounter nonEmpty_bucketCounter
macro_rules | `(tactic| enc1) => `(tactic| exact enc_bucketCounters)
macro_rules | `(tactic| dec1) => `(tactic| exact dec_bucketCounters)

/-! ## meter bands -/

theorem sub_drop : SubOk bandDrop (Spec.struct "04.MeterBandDrop" [("band_type", uint 2 (some [1, 2, 0xffff])), ("length", Spec.V04.u16),
    ("rate", Spec.V04.u32), ("burst_size", Spec.V04.u32), ("pad", pad 4)]) true :=
  Impl.sub (by unfold bandDrop bandHead plainSub; impl) bandDrop rfl rfl (fun _ _ h => h) ⟨_, _, rfl⟩
theorem sub_dscp : SubOk bandDscpRemark (Spec.struct "04.MeterBandDscpRemark" [("band_type", uint 2 (some [1, 2, 0xffff])), ("length", Spec.V04.u16),
    ("rate", Spec.V04.u32), ("burst_size", Spec.V04.u32), ("prec_level", Spec.V04.u8), ("pad", pad 3)]) true :=
  Impl.sub (by unfold bandDscpRemark bandHead plainSub; impl) bandDscpRemark rfl rfl (fun _ _ h => h) ⟨_, _, rfl⟩

theorem band_sub_of {t c} (h : Spec.V04.bandSel t = some c) :
    ∃ s, pickBand t = .ok s ∧ s.name = c ∧ subOf bandSubs c = some s ∧ SubOk s (Spec.struct c (("band_type", uint 2 (some [1, 2, 0xffff])) ::
      ("length", Spec.V04.u16) :: ("rate", Spec.V04.u32) :: ("burst_size", Spec.V04.u32) :: Spec.V04.bandTail c)) true ∧ t ∈ bandTypes := by
  unfold Spec.V04.bandSel at h
  rcases ite_some h with ⟨h2, rfl⟩ | h
  · subst h2; exact ⟨bandDrop, rfl, rfl, rfl, sub_drop, by decide⟩
  rcases ite_some h with ⟨h2, rfl⟩ | h
  · subst h2; exact ⟨bandDscpRemark, rfl, rfl, rfl, sub_dscp, by decide⟩
  · cases h

theorem enc_band : Enc band Spec.V04.band :=
  enc_delimited (enc_variant fun _ _ h => let ⟨s, _, _, h3, h4, _⟩ := band_sub_of h; ⟨s, h3, true, h4⟩)
theorem dec_band : Dec band Spec.V04.band false :=
  dec_variant_trunc (fun _ _ h => let ⟨s, h1, h2, _, h4, _⟩ := band_sub_of h; ⟨s, h1, h2, h4⟩)
    (by intro t c ds hc _ ms h; cases h; exact let ⟨_, _, _, _, _, h5⟩ := band_sub_of hc; h5) (fun _ _ _ => by nonempty)
theorem nonEmpty_band : NonEmpty Spec.V04.band := nonEmpty_delimited (nonEmpty_union fun _ _ _ => by nonempty)
theorem itemOk_band : ItemOk (isSub bandSubs) Spec.V04.band :=
  itemOk_delimited (itemOk_union fun _ _ h => by obtain ⟨s, _, _, h3, _⟩ := band_sub_of h; simp [h3])
theorem enc_bands : Enc bands (Spec.list Spec.V04.band) := enc_list enc_band itemOk_band
theorem dec_bands : Dec bands (Spec.list Spec.V04.band) true := dec_list enc_band dec_band nonEmpty_band
macro_rules | `(tactic| enc1) => `(tactic| exact enc_bands)
macro_rules | `(tactic| dec1) => `(tactic| exact dec_bands)

/-! ## ports and multipart bodies -/

theorem nonEmpty_port : NonEmpty Spec.V04.port := by unfold Spec.V04.port; nonempty
theorem enc_port : Enc port Spec.V04.port := by
  unfold port portFields Spec.V04.port
  refine Spec.Impl.enc_struct (t := false) ?_ _ _; impl
theorem dec_port : Dec port Spec.V04.port false := by
  have hne := nonEmpty_port
  revert hne
  unfold port portFields Spec.V04.port
  intro hne
  refine Spec.Impl.dec_struct ?_ _ _ hne; impl
theorem item_port : StatsItem bodyClasses port Spec.V04.port "04.Port" where
  lookup := rfl
  enc := enc_port
  inv := fun _ _ h => let ⟨vs, _, h, _⟩ := struct_den_inv h; ⟨vs, h⟩
  ne := nonEmpty_port

theorem nonEmpty_experimenterMultipart : NonEmpty Spec.V04.experimenterMultipart := by unfold Spec.V04.experimenterMultipart; nonempty
theorem enc_experimenterMultipart : Enc experimenterMultipart Spec.V04.experimenterMultipart := by
  unfold experimenterMultipart Spec.V04.experimenterMultipart
  refine Spec.Impl.enc_struct (t := false) ?_ _ _; impl
theorem dec_experimenterMultipart : Dec experimenterMultipart Spec.V04.experimenterMultipart false := by
  have hne := nonEmpty_experimenterMultipart
  revert hne
  unfold experimenterMultipart Spec.V04.experimenterMultipart
  intro hne
  refine Spec.Impl.dec_struct ?_ _ _ hne; impl
theorem item_experimenterMultipart : StatsItem bodyClasses experimenterMultipart Spec.V04.experimenterMultipart "04.ExperimenterMultipartHeader" where
  lookup := rfl
  enc := enc_experimenterMultipart
  inv := fun _ _ h => let ⟨vs, _, h, _⟩ := struct_den_inv h; ⟨vs, h⟩
  ne := nonEmpty_experimenterMultipart

theorem nonEmpty_flowStatsRequest : NonEmpty Spec.V04.flowStatsRequest := by unfold Spec.V04.flowStatsRequest Spec.V04.flowStatsRequestFields; nonempty
theorem enc_flowStatsRequest : Enc flowStatsRequest Spec.V04.flowStatsRequest := by
  unfold flowStatsRequest flowStatsRequestFields Spec.V04.flowStatsRequest Spec.V04.flowStatsRequestFields
  refine Spec.Impl.enc_struct (t := false) ?_ _ _; impl
theorem dec_flowStatsRequest : Dec flowStatsRequest Spec.V04.flowStatsRequest false := by
  have hne := nonEmpty_flowStatsRequest
  revert hne
  unfold flowStatsRequest flowStatsRequestFields Spec.V04.flowStatsRequest Spec.V04.flowStatsRequestFields
  intro hne
  refine Spec.Impl.dec_struct ?_ _ _ hne; impl
theorem item_flowStatsRequest : StatsItem bodyClasses flowStatsRequest Spec.V04.flowStatsRequest "04.FlowStatsRequest" where
  lookup := rfl
  enc := enc_flowStatsRequest
  inv := fun _ _ h => let ⟨vs, _, h, _⟩ := struct_den_inv h; ⟨vs, h⟩
  ne := nonEmpty_flowStatsRequest

theorem nonEmpty_aggregateStatsRequest : NonEmpty Spec.V04.aggregateStatsRequest := by unfold Spec.V04.aggregateStatsRequest Spec.V04.flowStatsRequestFields; nonempty
theorem enc_aggregateStatsRequest : Enc aggregateStatsRequest Spec.V04.aggregateStatsRequest := by
  unfold aggregateStatsRequest flowStatsRequestFields Spec.V04.aggregateStatsRequest Spec.V04.flowStatsRequestFields
  refine Spec.Impl.enc_struct (t := false) ?_ _ _; impl
theorem dec_aggregateStatsRequest : Dec aggregateStatsRequest Spec.V04.aggregateStatsRequest false := by
  have hne := nonEmpty_aggregateStatsRequest
  revert hne
  unfold aggregateStatsRequest flowStatsRequestFields Spec.V04.aggregateStatsRequest Spec.V04.flowStatsRequestFields
  intro hne
  refine Spec.Impl.dec_struct ?_ _ _ hne; impl
theorem item_aggregateStatsRequest : StatsItem bodyClasses aggregateStatsRequest Spec.V04.aggregateStatsRequest "04.AggregateStatsRequest" where
  lookup := rfl
  enc := enc_aggregateStatsRequest
  inv := fun _ _ h => let ⟨vs, _, h, _⟩ := struct_den_inv h; ⟨vs, h⟩
  ne := nonEmpty_aggregateStatsRequest

theorem nonEmpty_portStatsRequest : NonEmpty Spec.V04.portStatsRequest := by unfold Spec.V04.portStatsRequest; nonempty
theorem enc_portStatsRequest : Enc portStatsRequest Spec.V04.portStatsRequest := by
  unfold portStatsRequest Spec.V04.portStatsRequest
  refine Spec.Impl.enc_struct (t := false) ?_ _ _; impl
theorem dec_portStatsRequest : Dec portStatsRequest Spec.V04.portStatsRequest false := by
  have hne := nonEmpty_portStatsRequest
  revert hne
  unfold portStatsRequest Spec.V04.portStatsRequest
  intro hne
  refine Spec.Impl.dec_struct ?_ _ _ hne; impl
theorem item_portStatsRequest : StatsItem bodyClasses portStatsRequest Spec.V04.portStatsRequest "04.PortStatsRequest" where
  lookup := rfl
  enc := enc_portStatsRequest
  inv := fun _ _ h => let ⟨vs, _, h, _⟩ := struct_den_inv h; ⟨vs, h⟩
  ne := nonEmpty_portStatsRequest

theorem impl_queueProp : Impl false queuePropHeaderFields
    [("queue_property", uint 2 (some [1, 2, 0xffff])), ("length", Spec.V04.u16), ("pad", pad 4)] := by
  unfold queuePropHeaderFields
  impl
theorem enc_queueProp : Enc queuePropHeader Spec.V04.queuePropHeader := impl_queueProp.enc_struct _ _
theorem nonEmpty_queueProp : NonEmpty Spec.V04.queuePropHeader := by unfold Spec.V04.queuePropHeader; nonempty
theorem dec_queueProp : Dec queuePropHeader Spec.V04.queuePropHeader false := impl_queueProp.dec_struct _ _ nonEmpty_queueProp
theorem enc_queueProps : Enc queueProps (Spec.list Spec.V04.queuePropHeader) := enc_list enc_queueProp itemOk_struct
theorem dec_queueProps : Dec queueProps (Spec.list Spec.V04.queuePropHeader) true :=
  dec_list enc_queueProp dec_queueProp nonEmpty_queueProp
macro_rules | `(tactic| enc1) => `(tactic| exact enc_queueProps)
macro_rules | `(tactic| dec1) => `(tactic| exact dec_queueProps)

theorem impl_packetQueue : Impl true packetQueueFields
    [("queue_id", Spec.V04.u32), ("port", Spec.V04.u32), ("length", Spec.V04.u16), ("pad", pad 6),
     ("properties", Spec.list Spec.V04.queuePropHeader)] := by
  unfold packetQueueFields
  impl
theorem enc_packetQueue : Enc packetQueue Spec.V04.packetQueue := impl_packetQueue.enc_struct _ _
theorem nonEmpty_packetQueue : NonEmpty Spec.V04.packetQueue := by unfold Spec.V04.packetQueue; nonempty
theorem dec_packetQueue : Dec packetQueue Spec.V04.packetQueue true := impl_packetQueue.dec_struct _ _ nonEmpty_packetQueue

theorem nonEmpty_queueStatsRequest : NonEmpty Spec.V04.queueStatsRequest := by unfold Spec.V04.queueStatsRequest; nonempty
theorem enc_queueStatsRequest : Enc queueStatsRequest Spec.V04.queueStatsRequest := by
  unfold queueStatsRequest Spec.V04.queueStatsRequest
  refine Spec.Impl.enc_struct (t := false) ?_ _ _; impl
theorem dec_queueStatsRequest : Dec queueStatsRequest Spec.V04.queueStatsRequest false := by
  have hne := nonEmpty_queueStatsRequest
  revert hne
  unfold queueStatsRequest Spec.V04.queueStatsRequest
  intro hne
  refine Spec.Impl.dec_struct ?_ _ _ hne; impl
theorem item_queueStatsRequest : StatsItem bodyClasses queueStatsRequest Spec.V04.queueStatsRequest "04.QueueStatsRequest" where
  lookup := rfl
  enc := enc_queueStatsRequest
  inv := fun _ _ h => let ⟨vs, _, h, _⟩ := struct_den_inv h; ⟨vs, h⟩
  ne := nonEmpty_queueStatsRequest

theorem nonEmpty_groupStatsRequest : NonEmpty Spec.V04.groupStatsRequest := by unfold Spec.V04.groupStatsRequest; nonempty
theorem enc_groupStatsRequest : Enc groupStatsRequest Spec.V04.groupStatsRequest := by
  unfold groupStatsRequest Spec.V04.groupStatsRequest
  refine Spec.Impl.enc_struct (t := false) ?_ _ _; impl
theorem dec_groupStatsRequest : Dec groupStatsRequest Spec.V04.groupStatsRequest false := by
  have hne := nonEmpty_groupStatsRequest
  revert hne
  unfold groupStatsRequest Spec.V04.groupStatsRequest
  intro hne
  refine Spec.Impl.dec_struct ?_ _ _ hne; impl
theorem item_groupStatsRequest : StatsItem bodyClasses groupStatsRequest Spec.V04.groupStatsRequest "04.GroupStatsRequest" where
  lookup := rfl
  enc := enc_groupStatsRequest
  inv := fun _ _ h => let ⟨vs, _, h, _⟩ := struct_den_inv h; ⟨vs, h⟩
  ne := nonEmpty_groupStatsRequest

theorem nonEmpty_meterMultipartRequest : NonEmpty Spec.V04.meterMultipartRequest := by unfold Spec.V04.meterMultipartRequest; nonempty
theorem enc_meterMultipartRequest : Enc meterMultipartRequest Spec.V04.meterMultipartRequest := by
  unfold meterMultipartRequest Spec.V04.meterMultipartRequest
  refine Spec.Impl.enc_struct (t := false) ?_ _ _; impl
theorem dec_meterMultipartRequest : Dec meterMultipartRequest Spec.V04.meterMultipartRequest false := by
  have hne := nonEmpty_meterMultipartRequest
  revert hne
  unfold meterMultipartRequest Spec.V04.meterMultipartRequest
  intro hne
  refine Spec.Impl.dec_struct ?_ _ _ hne; impl
theorem item_meterMultipartRequest : StatsItem bodyClasses meterMultipartRequest Spec.V04.meterMultipartRequest "04.MeterMultipartRequest" where
  lookup := rfl
  enc := enc_meterMultipartRequest
  inv := fun _ _ h => let ⟨vs, _, h, _⟩ := struct_den_inv h; ⟨vs, h⟩
  ne := nonEmpty_meterMultipartRequest

theorem nonEmpty_aggregateStatsReply : NonEmpty Spec.V04.aggregateStatsReply := by unfold Spec.V04.aggregateStatsReply; nonempty
theorem enc_aggregateStatsReply : Enc aggregateStatsReply Spec.V04.aggregateStatsReply := by
  unfold aggregateStatsReply Spec.V04.aggregateStatsReply
  refine Spec.Impl.enc_struct (t := false) ?_ _ _; impl
theorem dec_aggregateStatsReply : Dec aggregateStatsReply Spec.V04.aggregateStatsReply false := by
  have hne := nonEmpty_aggregateStatsReply
  revert hne
  unfold aggregateStatsReply Spec.V04.aggregateStatsReply
  intro hne
  refine Spec.Impl.dec_struct ?_ _ _ hne; impl
theorem item_aggregateStatsReply : StatsItem bodyClasses aggregateStatsReply Spec.V04.aggregateStatsReply "04.AggregateStatsReply" where
  lookup := rfl
  enc := enc_aggregateStatsReply
  inv := fun _ _ h => let ⟨vs, _, h, _⟩ := struct_den_inv h; ⟨vs, h⟩
  ne := nonEmpty_aggregateStatsReply

theorem nonEmpty_desc : NonEmpty Spec.V04.desc := by unfold Spec.V04.desc; nonempty
theorem enc_desc : Enc desc Spec.V04.desc := by
  unfold desc Spec.V04.desc
  refine Spec.Impl.enc_struct (t := false) ?_ _ _; impl
theorem dec_desc : Dec desc Spec.V04.desc false := by
  have hne := nonEmpty_desc
  revert hne
  unfold desc Spec.V04.desc
  intro hne
  refine Spec.Impl.dec_struct ?_ _ _ hne; impl
theorem item_desc : StatsItem bodyClasses desc Spec.V04.desc "04.Desc" where
  lookup := rfl
  enc := enc_desc
  inv := fun _ _ h => let ⟨vs, _, h, _⟩ := struct_den_inv h; ⟨vs, h⟩
  ne := nonEmpty_desc

theorem nonEmpty_portStats : NonEmpty Spec.V04.portStats := by unfold Spec.V04.portStats; nonempty
theorem enc_portStats : Enc portStats Spec.V04.portStats := by
  unfold portStats Spec.V04.portStats
  refine Spec.Impl.enc_struct (t := false) ?_ _ _; impl
theorem dec_portStats : Dec portStats Spec.V04.portStats false := by
  have hne := nonEmpty_portStats
  revert hne
  unfold portStats Spec.V04.portStats
  intro hne
  refine Spec.Impl.dec_struct ?_ _ _ hne; impl
theorem item_portStats : StatsItem bodyClasses portStats Spec.V04.portStats "04.PortStats" where
  lookup := rfl
  enc := enc_portStats
  inv := fun _ _ h => let ⟨vs, _, h, _⟩ := struct_den_inv h; ⟨vs, h⟩
  ne := nonEmpty_portStats

theorem nonEmpty_queueStats : NonEmpty Spec.V04.queueStats := by unfold Spec.V04.queueStats; nonempty
theorem enc_queueStats : Enc queueStats Spec.V04.queueStats := by
  unfold queueStats Spec.V04.queueStats
  refine Spec.Impl.enc_struct (t := false) ?_ _ _; impl
theorem dec_queueStats : Dec queueStats Spec.V04.queueStats false := by
  have hne := nonEmpty_queueStats
  revert hne
  unfold queueStats Spec.V04.queueStats
  intro hne
  refine Spec.Impl.dec_struct ?_ _ _ hne; impl
theorem item_queueStats : StatsItem bodyClasses queueStats Spec.V04.queueStats "04.QueueStats" where
  lookup := rfl
  enc := enc_queueStats
  inv := fun _ _ h => let ⟨vs, _, h, _⟩ := struct_den_inv h; ⟨vs, h⟩
  ne := nonEmpty_queueStats

theorem nonEmpty_groupDescStats : NonEmpty Spec.V04.groupDescStats := by unfold Spec.V04.groupDescStats; nonempty
theorem enc_groupDescStats : Enc groupDescStats Spec.V04.groupDescStats := by
  unfold groupDescStats Spec.V04.groupDescStats
  refine Spec.Impl.enc_struct (t := true) ?_ _ _; impl
theorem dec_groupDescStats : Dec groupDescStats Spec.V04.groupDescStats true := by
  have hne := nonEmpty_groupDescStats
  revert hne
  unfold groupDescStats Spec.V04.groupDescStats
  intro hne
  refine Spec.Impl.dec_struct ?_ _ _ hne; impl
theorem item_groupDescStats : StatsItem bodyClasses groupDescStats Spec.V04.groupDescStats "04.GroupDescStats" where
  lookup := rfl
  enc := enc_groupDescStats
  inv := fun _ _ h => let ⟨vs, _, h, _⟩ := struct_den_inv h; ⟨vs, h⟩
  ne := nonEmpty_groupDescStats

theorem nonEmpty_groupFeatures : NonEmpty Spec.V04.groupFeatures := by unfold Spec.V04.groupFeatures; nonempty
theorem enc_groupFeatures : Enc groupFeatures Spec.V04.groupFeatures := by
  unfold groupFeatures Spec.V04.groupFeatures
  refine Spec.Impl.enc_struct (t := false) ?_ _ _; impl
theorem dec_groupFeatures : Dec groupFeatures Spec.V04.groupFeatures false := by
  have hne := nonEmpty_groupFeatures
  revert hne
  unfold groupFeatures Spec.V04.groupFeatures
  intro hne
  refine Spec.Impl.dec_struct ?_ _ _ hne; impl
theorem item_groupFeatures : StatsItem bodyClasses groupFeatures Spec.V04.groupFeatures "04.GroupFeatures" where
  lookup := rfl
  enc := enc_groupFeatures
  inv := fun _ _ h => let ⟨vs, _, h, _⟩ := struct_den_inv h; ⟨vs, h⟩
  ne := nonEmpty_groupFeatures

theorem nonEmpty_groupStats : NonEmpty Spec.V04.groupStats := by unfold Spec.V04.groupStats; nonempty
theorem enc_groupStats : Enc groupStats Spec.V04.groupStats := by
  unfold groupStats Spec.V04.groupStats
  refine Spec.Impl.enc_struct (t := true) ?_ _ _; impl
theorem dec_groupStats : Dec groupStats Spec.V04.groupStats true := by
  have hne := nonEmpty_groupStats
  revert hne
  unfold groupStats Spec.V04.groupStats
  intro hne
  refine Spec.Impl.dec_struct ?_ _ _ hne; impl
theorem item_groupStats : StatsItem bodyClasses groupStats Spec.V04.groupStats "04.GroupStats" where
  lookup := rfl
  enc := enc_groupStats
  inv := fun _ _ h => let ⟨vs, _, h, _⟩ := struct_den_inv h; ⟨vs, h⟩
  ne := nonEmpty_groupStats

theorem nonEmpty_meterConfig : NonEmpty Spec.V04.meterConfig := by unfold Spec.V04.meterConfig; nonempty
theorem enc_meterConfig : Enc meterConfig Spec.V04.meterConfig := by
  unfold meterConfig Spec.V04.meterConfig
  refine Spec.Impl.enc_struct (t := true) ?_ _ _; impl
theorem dec_meterConfig : Dec meterConfig Spec.V04.meterConfig true := by
  have hne := nonEmpty_meterConfig
  revert hne
  unfold meterConfig Spec.V04.meterConfig
  intro hne
  refine Spec.Impl.dec_struct ?_ _ _ hne; impl
theorem item_meterConfig : StatsItem bodyClasses meterConfig Spec.V04.meterConfig "04.MeterConfig" where
  lookup := rfl
  enc := enc_meterConfig
  inv := fun _ _ h => let ⟨vs, _, h, _⟩ := struct_den_inv h; ⟨vs, h⟩
  ne := nonEmpty_meterConfig

theorem nonEmpty_meterFeatures : NonEmpty Spec.V04.meterFeatures := by unfold Spec.V04.meterFeatures; nonempty
theorem enc_meterFeatures : Enc meterFeatures Spec.V04.meterFeatures := by
  unfold meterFeatures Spec.V04.meterFeatures
  refine Spec.Impl.enc_struct (t := false) ?_ _ _; impl
theorem dec_meterFeatures : Dec meterFeatures Spec.V04.meterFeatures false := by
  have hne := nonEmpty_meterFeatures
  revert hne
  unfold meterFeatures Spec.V04.meterFeatures
  intro hne
  refine Spec.Impl.dec_struct ?_ _ _ hne; impl
theorem item_meterFeatures : StatsItem bodyClasses meterFeatures Spec.V04.meterFeatures "04.MeterFeatures" where
  lookup := rfl
  enc := enc_meterFeatures
  inv := fun _ _ h => let ⟨vs, _, h, _⟩ := struct_den_inv h; ⟨vs, h⟩
  ne := nonEmpty_meterFeatures

theorem nonEmpty_tableStats : NonEmpty Spec.V04.tableStats := by unfold Spec.V04.tableStats; nonempty
theorem enc_tableStats : Enc tableStats Spec.V04.tableStats := by
  unfold tableStats Spec.V04.tableStats
  refine Spec.Impl.enc_struct (t := false) ?_ _ _; impl
theorem dec_tableStats : Dec tableStats Spec.V04.tableStats false := by
  have hne := nonEmpty_tableStats
  revert hne
  unfold tableStats Spec.V04.tableStats
  intro hne
  refine Spec.Impl.dec_struct ?_ _ _ hne; impl
theorem item_tableStats : StatsItem bodyClasses tableStats Spec.V04.tableStats "04.TableStats" where
  lookup := rfl
  enc := enc_tableStats
  inv := fun _ _ h => let ⟨vs, _, h, _⟩ := struct_den_inv h; ⟨vs, h⟩
  ne := nonEmpty_tableStats

theorem impl_flowStats : Impl true flowStatsFields
  [("length", Spec.V04.u16), ("table_id", Spec.V04.u8), ("pad", pad 1), ("duration_sec", Spec.V04.u32), ("duration_nsec", Spec.V04.u32), ("priority", Spec.V04.u16),
   ("idle_timeout", Spec.V04.u16), ("hard_timeout", Spec.V04.u16), ("flags", Spec.V04.u16), ("pad2", pad 4), ("cookie", Spec.V04.u64), ("packet_count", Spec.V04.u64),
   ("byte_count", Spec.V04.u64), ("match", Spec.V04.«match»), ("instructions", Spec.V04.instructions)] := by
  unfold flowStatsFields; impl
theorem nonEmpty_flowStats : NonEmpty Spec.V04.flowStats := nonEmpty_delimited (by nonempty)
theorem enc_flowStats : Enc flowStats Spec.V04.flowStats := enc_lengthCut (impl_flowStats.enc_struct _ _)
theorem dec_flowStats : Dec flowStats Spec.V04.flowStats false :=
  dec_lengthCut (impl_flowStats.dec_struct _ _ (by nonempty)) (by nonempty)
theorem item_flowStats : StatsItem bodyClasses flowStats Spec.V04.flowStats "04.FlowStats" where
  lookup := rfl
  enc := enc_flowStats
  inv := fun _ _ h => let ⟨vs, _, h, _⟩ := struct_den_inv h; ⟨vs, h⟩
  ne := nonEmpty_flowStats
theorem item_tableFeatures : StatsItem bodyClasses tableFeatures Spec.V04.tableFeatures "04.TableFeatures" where
  lookup := rfl
  enc := enc_tableFeatures
  inv := fun _ _ h => let ⟨_, _, _, _, _, h, _⟩ := ownLen_den_inv h; ⟨_, h⟩
  ne := nonEmpty_ownLen
theorem item_meterStats : StatsItem bodyClasses meterStats Spec.V04.meterStats "04.MeterStats" where
  lookup := rfl
  enc := enc_meterStats
  inv := fun _ _ h => let ⟨_, _, _, _, _, h, _⟩ := ownLen_den_inv h; ⟨_, h⟩
  ne := nonEmpty_ownLen
macro_rules | `(tactic| enc1) => `(tactic| exact enc_port)
macro_rules | `(tactic| dec1) => `(tactic| exact dec_port)

end Pyof.V04
