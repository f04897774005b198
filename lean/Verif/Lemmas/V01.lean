import Verif.Model.V01
import Verif.Spec.V01
import Verif.Lemmas.Body
/-! OpenFlow 1.0: every class implements its format. -/
namespace Pyof.V01
open Spec

/-! ## match -/

theorem impl_match : Impl false matchFields
    [("wildcards", uint 4 none (some 4194303)), ("in_port", uint 2 none (some 0)), ("dl_src", hw), ("dl_dst", hw),
     ("dl_vlan", uint 2 none (some 0)), ("dl_vlan_pcp", uint 1 none (some 0)), ("pad1", pad 1), ("dl_type", uint 2 none (some 0)),
     ("nw_tos", uint 1 none (some 0)), ("nw_proto", uint 1 none (some 0)), ("pad2", pad 2), ("nw_src", ip), ("nw_dst", ip),
     ("tp_src", uint 2 none (some 0)), ("tp_dst", uint 2 none (some 0))] := by
  unfold matchFields
  impl

theorem nonEmpty_match : NonEmpty Spec.V01.match := by unfold Spec.V01.match; nonempty

/-- Decoding the wildcards a second time gives what was decoded the first time. -/
theorem matchUnpack_eq {buff : Bytes} {off : Nat} (hne : buff ≠ []) :
    matchUnpack buff off = (structAttr "01.Match" matchFields matchInit).unpack buff off := by
  simp only [matchUnpack, structAttr]
  cases h : unpackAttrs matchFields buff off with
  | error e => rfl
  | ok r =>
    obtain ⟨vs, e⟩ := r
    unfold matchFields at h
    simp only [unpackAttrs, unpackAttr, if_neg hne, ubint] at h
    cases hw : ubUnpack 4 .mask buff off with
    | error e => simp [hw] at h
    | ok w =>
      rw [hw] at h
      simp only at h
      split at h
      · cases h
      · cases h
        simp

theorem enc_match : Enc «match» Spec.V01.match where
  pack := (impl_match.enc_struct "01.Match" matchInit).pack
  size := (impl_match.enc_struct "01.Match" matchInit).size
  usize := (impl_match.enc_struct "01.Match" matchInit).usize

theorem dec_match : Dec «match» Spec.V01.match false where
  unpack := by
    intro d b pre post he ho ht hne
    have := (impl_match.dec_struct "01.Match" matchInit nonEmpty_match).unpack d b pre post he ho ht hne
    simp only [«match», matchUnpack_eq hne]
    exact this
  empty := fun d he => absurd he (nonEmpty_match d)

macro_rules | `(tactic| enc1) => `(tactic| exact enc_match)
macro_rules | `(tactic| dec1) => `(tactic| exact dec_match)

/-! ## ports, queues -/

theorem impl_phyPort : Impl false phyPortFields
    [("port_no", Spec.V01.u16), ("hw_addr", hw), ("name", text 16), ("config", Spec.V01.u32), ("state", Spec.V01.u32), ("curr", Spec.V01.u32),
     ("advertised", Spec.V01.u32), ("supported", Spec.V01.u32), ("peer", Spec.V01.u32)] := by
  unfold phyPortFields
  impl
theorem enc_phyPort : Enc phyPort Spec.V01.phyPort := impl_phyPort.enc_struct _ _
theorem nonEmpty_phyPort : NonEmpty Spec.V01.phyPort := by unfold Spec.V01.phyPort; nonempty
theorem dec_phyPort : Dec phyPort Spec.V01.phyPort false := impl_phyPort.dec_struct _ _ nonEmpty_phyPort
theorem enc_phyPorts : Enc phyPorts (Spec.list Spec.V01.phyPort) := enc_list enc_phyPort itemOk_struct
theorem dec_phyPorts : Dec phyPorts (Spec.list Spec.V01.phyPort) true := dec_list enc_phyPort dec_phyPort nonEmpty_phyPort

macro_rules | `(tactic| enc1) => `(tactic| exact enc_phyPort)
macro_rules | `(tactic| dec1) => `(tactic| exact dec_phyPort)
macro_rules | `(tactic| enc1) => `(tactic| exact enc_phyPorts)
macro_rules | `(tactic| dec1) => `(tactic| exact dec_phyPorts)

theorem impl_queueProp : Impl false queuePropHeaderFields
    [("queue_property", uint 2 (some [0, 1])), ("length", Spec.V01.u16), ("pad", pad 4)] := by
  unfold queuePropHeaderFields
  impl
theorem enc_queueProp : Enc queuePropHeader Spec.V01.queuePropHeader := impl_queueProp.enc_struct _ _
theorem nonEmpty_queueProp : NonEmpty Spec.V01.queuePropHeader := by unfold Spec.V01.queuePropHeader; nonempty
theorem dec_queueProp : Dec queuePropHeader Spec.V01.queuePropHeader false := impl_queueProp.dec_struct _ _ nonEmpty_queueProp
theorem enc_queueProps : Enc queueProps (Spec.list Spec.V01.queuePropHeader) := enc_list enc_queueProp itemOk_struct
theorem dec_queueProps : Dec queueProps (Spec.list Spec.V01.queuePropHeader) true :=
  dec_list enc_queueProp dec_queueProp nonEmpty_queueProp
macro_rules | `(tactic| enc1) => `(tactic| exact enc_queueProps)
macro_rules | `(tactic| dec1) => `(tactic| exact dec_queueProps)

theorem impl_packetQueue : Impl true packetQueueFields
    [("queue_id", Spec.V01.u32), ("length", Spec.V01.u16), ("pad", pad 2), ("properties", Spec.list Spec.V01.queuePropHeader)] := by
  unfold packetQueueFields
  impl
theorem enc_packetQueue : Enc packetQueue Spec.V01.packetQueue := impl_packetQueue.enc_struct _ _
theorem nonEmpty_packetQueue : NonEmpty Spec.V01.packetQueue := by unfold Spec.V01.packetQueue; nonempty
theorem dec_packetQueue : Dec packetQueue Spec.V01.packetQueue true := impl_packetQueue.dec_struct _ _ nonEmpty_packetQueue

/-! ## actions -/

macro "action_sub" : tactic => `(tactic| (
  simp only [plainSub, actionHead, List.cons_append, List.nil_append]
  refine Impl.sub (cs := _) (fs := _ :: _ :: Spec.V01.actionTail _) ?_ _ rfl rfl (fun _ _ h => h) ⟨_, _, rfl⟩
  simp only [Spec.V01.actionTail]
  impl))

theorem sub_output : SubOk actionOutput (Spec.V01.actionLay actionOutput.name) false := by
  unfold actionOutput; action_sub
theorem sub_strip : SubOk actionStripVlan (Spec.V01.actionLay actionStripVlan.name) false := by
  unfold actionStripVlan; action_sub
theorem sub_enqueue : SubOk actionEnqueue (Spec.V01.actionLay actionEnqueue.name) false := by
  unfold actionEnqueue; action_sub
theorem sub_vid : SubOk actionVlanVid (Spec.V01.actionLay actionVlanVid.name) false := by
  unfold actionVlanVid; action_sub
theorem sub_pcp : SubOk actionVlanPCP (Spec.V01.actionLay actionVlanPCP.name) false := by
  unfold actionVlanPCP; action_sub
theorem sub_dl : SubOk actionDLAddr (Spec.V01.actionLay actionDLAddr.name) false := by
  unfold actionDLAddr; action_sub
theorem sub_nw : SubOk actionNWAddr (Spec.V01.actionLay actionNWAddr.name) false := by
  unfold actionNWAddr; action_sub
theorem sub_tos : SubOk actionNWTos (Spec.V01.actionLay actionNWTos.name) false := by
  unfold actionNWTos; action_sub
theorem sub_tp : SubOk actionTPPort (Spec.V01.actionLay actionTPPort.name) false := by
  unfold actionTPPort; action_sub
theorem sub_vendor : SubOk actionVendorHeader (Spec.V01.actionLay actionVendorHeader.name) false := by
  unfold actionVendorHeader; action_sub
theorem sub_header : SubOk actionHeader (Spec.V01.actionLay actionHeader.name) false := by
  unfold actionHeader; action_sub

theorem action_sub_of {t c} (h : Spec.V01.actionSel t = some c) :
    ∃ s, pickAction t = .ok s ∧ s.name = c ∧ subOf actionSubs c = some s ∧ SubOk s (Spec.V01.actionLay c) false := by
  unfold Spec.V01.actionSel at h
  split at h
  · subst_vars; cases h; exact ⟨actionOutput, rfl, rfl, rfl, sub_output⟩
  split at h
  · subst_vars; cases h; exact ⟨actionVlanVid, rfl, rfl, rfl, sub_vid⟩
  split at h
  · subst_vars; cases h; exact ⟨actionVlanPCP, rfl, rfl, rfl, sub_pcp⟩
  split at h
  · subst_vars; cases h; exact ⟨actionStripVlan, rfl, rfl, rfl, sub_strip⟩
  split at h
  · rename_i h2; cases h
    rcases h2 with rfl | rfl <;> exact ⟨actionDLAddr, rfl, rfl, rfl, sub_dl⟩
  split at h
  · rename_i h2; cases h
    rcases h2 with rfl | rfl <;> exact ⟨actionNWAddr, rfl, rfl, rfl, sub_nw⟩
  split at h
  · subst_vars; cases h; exact ⟨actionNWTos, rfl, rfl, rfl, sub_tos⟩
  split at h
  · rename_i h2; cases h
    rcases h2 with rfl | rfl <;> exact ⟨actionTPPort, rfl, rfl, rfl, sub_tp⟩
  split at h
  · subst_vars; cases h; exact ⟨actionEnqueue, rfl, rfl, rfl, sub_enqueue⟩
  split at h
  · subst_vars; cases h; exact ⟨actionVendorHeader, rfl, rfl, rfl, sub_vendor⟩
  · cases h
    refine ⟨actionHeader, ?_, rfl, rfl, sub_header⟩
    simp only [not_or] at *
    simp [pickAction, actionClasses, List.find?_cons, *]

theorem enc_action : Enc action Spec.V01.action :=
  enc_variant fun _ _ h => let ⟨s, _, _, h3, h4⟩ := action_sub_of h; ⟨s, h3, false, h4⟩
theorem dec_action : Dec action Spec.V01.action false :=
  dec_variant (fun _ _ h => let ⟨s, h1, h2, _, h4⟩ := action_sub_of h; ⟨s, h1, h2, h4⟩)
    (by intro _ _ _ _ _ ms h; cases h)
theorem nonEmpty_action : NonEmpty Spec.V01.action :=
  nonEmpty_union fun _ _ _ => by unfold Spec.V01.actionLay; nonempty
theorem itemOk_action : ItemOk (isSub actionSubs) Spec.V01.action :=
  itemOk_union fun _ _ h => by obtain ⟨s, _, _, h3, _⟩ := action_sub_of h; simp [h3]
theorem enc_actions : Enc actions Spec.V01.actions := enc_list enc_action itemOk_action
theorem dec_actions : Dec actions Spec.V01.actions true := dec_list enc_action dec_action nonEmpty_action
macro_rules | `(tactic| enc1) => `(tactic| exact enc_actions)
macro_rules | `(tactic| dec1) => `(tactic| exact dec_actions)

theorem enc_queues : Enc queues (Spec.atMostOne Spec.V01.packetQueue) := enc_atMostOne (enc_list enc_packetQueue itemOk_struct)
theorem dec_queues : Dec queues (Spec.atMostOne Spec.V01.packetQueue) true :=
  dec_atMostOne enc_packetQueue dec_packetQueue nonEmpty_packetQueue
macro_rules | `(tactic| enc1) => `(tactic| exact enc_queues)
macro_rules | `(tactic| dec1) => `(tactic| exact dec_queues)

/-! ## statistics bodies -/

theorem statsFields_pack {t f tn fn body bb} (ht : numOf t = some tn) (hf : numOf f = some fn)
    (hb : (binAttr).pack body = .ok bb) (hs : (binAttr).size body = .ok bb.length) :
    (∀ b, packAttrs statsFields [t, f, body] = .ok b ↔
      (if tn < 65536 ∧ fn < 65536 then some (be 2 tn ++ be 2 fn ++ bb) else none) = some b) ∧
    (∀ b, (if tn < 65536 ∧ fn < 65536 then some (be 2 tn ++ be 2 fn ++ bb) else none) = some b →
      sizeAttrs statsFields [t, f, body] = .ok b.length) := by
  have p2 : (256 : Nat) ^ 2 = 65536 := by decide
  constructor
  · intro b
    simp only [statsFields, packAttrs_cons, packAttrs_nil, ubint, ubPack_num ht, ubPack_num hf, packNum_ok, Int.toNat_natCast, p2, hb]
    constructor
    · rintro ⟨_, _, ⟨_, h1, rfl⟩, ⟨_, _, ⟨_, h2, rfl⟩, ⟨_, _, h3, rfl, rfl⟩, rfl⟩, rfl⟩
      cases h3
      simp [h1, h2]
    · intro h
      split at h
      · rename_i h2
        cases h
        exact ⟨_, _, ⟨by omega, h2.1, rfl⟩, ⟨_, _, ⟨by omega, h2.2, rfl⟩, ⟨_, _, rfl, rfl, rfl⟩, rfl⟩, by simp⟩
      · cases h
  · intro b h
    split at h
    · cases h
      have hs' := hs
      simp only [binAttr] at hs'
      simp [statsFields, sizeAttrs, ubint, hs]
    · cases h

theorem statsFields_unpack {t f : Nat} {bb : Bytes} (ht : t < 65536) (hf : f < 65536) (hm : t ∈ statsTypes) :
    ∃ e, unpackAttrs statsFields (be 2 t ++ be 2 f ++ bb) 0 =
      .ok ([.ub 2 (.enum t), .ub 2 (.int f), .bin (.bytes bb)], e) := by
  have hne : be 2 t ++ be 2 f ++ bb ≠ [] := by simp [be]
  have e1 := ubUnpack_be (w := 2) (.enum statsTypes) [] (be 2 f ++ bb) (n := t) (by simpa using ht) (off := 0) (by simp)
  have e2 := ubUnpack_be (w := 2) .none (be 2 t) bb (n := f) (by simpa using hf) (off := 2) (by simp)
  have e3 : (be 2 t ++ (be 2 f ++ bb)).drop 4 = bb := by
    rw [← List.append_assoc]; exact List.drop_left' (by simp)
  simp only [List.nil_append, List.append_assoc, refApply, if_pos hm] at e1 e2 hne ⊢
  exact ⟨_, by simp [statsFields, unpackAttrs, unpackAttr, ubint, hne, e1, e2, e3, binAttr, binSizeRaw, binPackRaw]; rfl⟩

structure PrepOk (prep : List Val → Res (List Val)) : Prop where
  bare : ∀ t f body, body = .none ∨ body = .bytes [] → prep [t, f, body] = .ok [t, f, body]
  err : ∀ t f body xs e, Spec.bodyItems body = some xs → selfPack statsClasses body = some (.error e) →
    prep [t, f, body] = .error e
  ok : ∀ t f body xs b, Spec.bodyItems body = some xs → selfPack statsClasses body = some (.ok b) →
    ∃ body', prep [t, f, body] = .ok [t, f, body'] ∧ (binAttr).pack body' = .ok b ∧ (binAttr).size body' = .ok b.length

theorem prep_request : PrepOk statsRequestPrep where
  bare := by rintro t f body (rfl | rfl) <;> rfl
  err := by intro t f body xs e _ h; simp [statsRequestPrep, h]
  ok := by
    intro t f body xs b _ h
    exact ⟨.bytes b, by simp [statsRequestPrep, h], rfl, rfl⟩

theorem prep_reply : PrepOk statsReplyPrep where
  bare := by rintro t f body (rfl | rfl) <;> rfl
  err := by
    intro t f body xs e hb h
    unfold Spec.bodyItems at hb
    split at hb
    · simp [statsReplyPrep, pyTrue, h]
    · rename_i ys
      cases ys with
      | nil => simp [selfPack, selfPack.packAll] at h
      | cons y ys => simp [statsReplyPrep, pyTrue, h]
    · simp [selfPack] at h
    · simp [selfPack] at h
    · cases hb
  ok := by
    intro t f body xs b hb h
    unfold Spec.bodyItems at hb
    split at hb
    · exact ⟨.bin (.bytes b), by simp [statsReplyPrep, pyTrue, h], rfl, rfl⟩
    · rename_i ys
      cases ys with
      | nil =>
        simp [selfPack, selfPack.packAll] at h
        subst h
        exact ⟨.list true [], by simp [statsReplyPrep, pyTrue], rfl, rfl⟩
      | cons y ys => exact ⟨.bin (.bytes b), by simp [statsReplyPrep, pyTrue, h], rfl, rfl⟩
    · simp [selfPack] at h
    · simp [selfPack] at h
    · cases hb

theorem stats_den_inv {cls item room v d} (h : (Spec.V01.stats cls item room).den v = some d) :
    ∃ t f body tn fn xs ds, v = .obj cls [t, f, body] ∧ numOf t = some tn ∧ numOf f = some fn ∧
      Spec.bodyItems body = some xs ∧ d = .record [.num tn, .num fn, .arr ds] ∧
      (∀ g, item tn = some g → optMap g.den xs = some ds) ∧ (item tn = none → xs = [] ∧ ds = []) := by
  simp only [Spec.V01.stats] at h
  split at h
  · split at h
    · rename_i hc
      subst hc
      split at h
      · rename_i tn fn xs ht hf hb
        split at h
        · rename_i g hg
          cases ho : optMap g.den xs with
          | none => simp [ho] at h
          | some ds =>
            simp [ho] at h
            refine ⟨_, _, _, tn, fn, xs, ds, rfl, ht, hf, hb, h.symm, ?_, ?_⟩
            · intro g' hg'; rw [hg] at hg'; cases hg'; exact ho
            · intro hn; rw [hg] at hn; cases hn
        · rename_i hg
          split at h
          · rename_i hx
            cases h
            exact ⟨_, _, _, tn, fn, xs, [], rfl, ht, hf, hb, rfl, by simp [hg], fun _ => ⟨hx, rfl⟩⟩
          · cases h
      · cases h
    · cases h
  · cases h

theorem stats_enc_eq {cls item room t f ds} :
    (Spec.V01.stats cls item room).enc (.record [.num t, .num f, .arr ds]) =
      if t < 65536 ∧ f < 65536 then
        match item t with
        | some g => (encList g ds).map fun b => be 2 t ++ be 2 f ++ b
        | none => if ds.isEmpty then some (be 2 t ++ be 2 f) else none
      else none := rfl

theorem stats_enc_inv {cls item room d b} (h : (Spec.V01.stats cls item room).enc d = some b) :
    ∃ t f ds bb, d = .record [.num t, .num f, .arr ds] ∧ t < 65536 ∧ f < 65536 ∧ b = be 2 t ++ be 2 f ++ bb ∧
      (∀ g, item t = some g → encList g ds = some bb) ∧ (item t = none → ds = [] ∧ bb = []) := by
  have h0 := h
  simp only [Spec.V01.stats] at h
  split at h
  · rename_i t f ds
    split at h
    · rename_i hl
      split at h
      · rename_i g hg
        cases he : encList g ds with
        | none => simp [he] at h
        | some bb =>
          simp [he] at h
          exact ⟨t, f, ds, bb, rfl, hl.1, hl.2, by simp [← h], by
            intro g' hg'; rw [hg] at hg'; cases hg'; exact he, by simp [hg]⟩
      · rename_i hg
        split at h
        · rename_i hds
          cases h
          exact ⟨t, f, ds, [], rfl, hl.1, hl.2, by simp, by simp [hg], fun _ => ⟨by simpa using hds, rfl⟩⟩
        · cases h
    · cases h
  · cases h

theorem stats_pack {m : MsgCls} {s : MsgFmt} {item room} (hbody : m.body = statsFields) (hprep : PrepOk m.prep)
    (hvalid : m.valid = fun _ => .ok ()) (hver : m.ver = s.ver) (hcode : m.code = s.code)
    (hhdr : s.hdr = hdrName s.ver) (hv : s.ver < 256) (hc : s.code < 256)
    (hfmt : s.fmt = Spec.V01.stats s.name item room)
    (hitem : ∀ t g, item t = some g → ∃ a name, StatsItem statsClasses a g name) :
    ∀ v x d, msgDen s v = some (x, d) → PackOk s x d (m.pack v) := by
  intro v x d hd
  simp only [msgDen] at hd
  split at hd
  · rename_i c hdr vs
    split at hd
    · rename_i hcn
      subst hcn
      split at hd
      · rename_i x' d' hx hd'
        cases hd
        rw [hfmt] at hd'
        obtain ⟨t, f, body, tn, fn, xs, ds, hw, ht, hf, hb, rfl, hi, hn⟩ := stats_den_inv hd'
        cases hw
        simp only [MsgCls.pack]
        -- the body attribute after `prep`
        have key : ∀ (body' : Val) (bb : Bytes), m.prep [t, f, body] = .ok [t, f, body'] →
            (binAttr).pack body' = .ok bb → (binAttr).size body' = .ok bb.length →
            (Spec.V01.stats s.name item room).enc (.record [.num tn, .num fn, .arr ds]) =
              (if tn < 65536 ∧ fn < 65536 then some (be 2 tn ++ be 2 fn ++ bb) else none) →
            PackOk s x (.record [.num tn, .num fn, .arr ds]) (match m.prep [t, f, body] with
              | .error e => (.error e : Res Bytes)
              | .ok vs' => genericPack m hdr vs') := by
          intro body' bb h1 h2 h3 h4
          rw [h1]
          have h5 := statsFields_pack ht hf h2 h3
          simp only
          refine .generic hx hhdr hver hcode hv hc (by rw [hvalid]) ?_ ?_ <;> rw [hbody, hfmt, h4]
          · exact h5.1
          · exact h5.2
        cases hit : item tn with
        | none =>
          obtain ⟨rfl, rfl⟩ := hn hit
          unfold Spec.bodyItems at hb
          split at hb
          · cases hb
          · cases hb
            obtain ⟨body', h1, h2, h3⟩ := hprep.ok t f (.list true []) [] [] rfl rfl
            exact key body' [] h1 h2 h3 (by simp [stats_enc_eq, hit])
          · exact key .none [] (hprep.bare _ _ _ (.inl rfl)) rfl rfl (by simp [stats_enc_eq, hit])
          · exact key (.bytes []) [] (hprep.bare _ _ _ (.inr rfl)) rfl rfl (by simp [stats_enc_eq, hit])
          · cases hb
        | some g =>
          obtain ⟨a, name, si⟩ := hitem tn g hit
          have hds := hi g hit
          rcases selfPack_body si hb hds with ⟨h1, h2, rfl⟩ | ⟨r, h1, h2⟩
          · refine key body [] (hprep.bare _ _ _ h2) ?_ ?_ (by simp [stats_enc_eq, hit, encList])
            · rcases h2 with rfl | rfl <;> rfl
            · rcases h2 with rfl | rfl <;> rfl
          · cases r with
            | error e =>
              rw [hprep.err _ _ _ _ _ hb h1]
              have : encList g ds = none := by
                cases he : encList g ds with
                | none => rfl
                | some b => have := (h2 b).mpr he; cases this
              exact .none (by simp [hfmt, stats_enc_eq, hit, this]) (by simp)
            | ok bb =>
              obtain ⟨body', h3, h4, h5⟩ := hprep.ok t f body xs bb hb h1
              exact key body' bb h3 h4 h5 (by simp [stats_enc_eq, hit, (h2 bb).mp rfl])
      · cases hd
    · cases hd
  · cases hd

theorem impl_flowStatsRequest : Impl false [("match", «match»), ("table_id", ubint 1), ("pad", padAttr 1), ("out_port", ubint 2)] Spec.V01.flowStatsRequestFields := by unfold Spec.V01.flowStatsRequestFields; impl
theorem enc_flowStatsRequest : Enc flowStatsRequest Spec.V01.flowStatsRequest := impl_flowStatsRequest.enc_struct _ _
theorem nonEmpty_flowStatsRequest : NonEmpty Spec.V01.flowStatsRequest := by unfold Spec.V01.flowStatsRequest Spec.V01.flowStatsRequestFields; nonempty
theorem dec_flowStatsRequest : Dec flowStatsRequest Spec.V01.flowStatsRequest false := impl_flowStatsRequest.dec_struct _ _ nonEmpty_flowStatsRequest
theorem item_flowStatsRequest : StatsItem statsClasses flowStatsRequest Spec.V01.flowStatsRequest "01.FlowStatsRequest" where
  lookup := rfl
  enc := enc_flowStatsRequest
  inv := fun _ _ h => let ⟨vs, _, h, _⟩ := struct_den_inv h; ⟨vs, h⟩
  ne := nonEmpty_flowStatsRequest

theorem impl_aggregateStatsRequest : Impl false [("match", «match»), ("table_id", ubint 1), ("pad", padAttr 1), ("out_port", ubint 2)] Spec.V01.flowStatsRequestFields := by unfold Spec.V01.flowStatsRequestFields; impl
theorem enc_aggregateStatsRequest : Enc aggregateStatsRequest Spec.V01.aggregateStatsRequest := impl_aggregateStatsRequest.enc_struct _ _
theorem nonEmpty_aggregateStatsRequest : NonEmpty Spec.V01.aggregateStatsRequest := by unfold Spec.V01.aggregateStatsRequest Spec.V01.flowStatsRequestFields; nonempty
theorem dec_aggregateStatsRequest : Dec aggregateStatsRequest Spec.V01.aggregateStatsRequest false := impl_aggregateStatsRequest.dec_struct _ _ nonEmpty_aggregateStatsRequest
theorem item_aggregateStatsRequest : StatsItem statsClasses aggregateStatsRequest Spec.V01.aggregateStatsRequest "01.AggregateStatsRequest" where
  lookup := rfl
  enc := enc_aggregateStatsRequest
  inv := fun _ _ h => let ⟨vs, _, h, _⟩ := struct_den_inv h; ⟨vs, h⟩
  ne := nonEmpty_aggregateStatsRequest

theorem impl_portStatsRequest : Impl false [("port_no", ubint 2), ("pad", padAttr 6)] [("port_no", Spec.V01.u16), ("pad", pad 6)] := by impl
theorem enc_portStatsRequest : Enc portStatsRequest Spec.V01.portStatsRequest := impl_portStatsRequest.enc_struct _ _
theorem nonEmpty_portStatsRequest : NonEmpty Spec.V01.portStatsRequest := by unfold Spec.V01.portStatsRequest ; nonempty
theorem dec_portStatsRequest : Dec portStatsRequest Spec.V01.portStatsRequest false := impl_portStatsRequest.dec_struct _ _ nonEmpty_portStatsRequest
theorem item_portStatsRequest : StatsItem statsClasses portStatsRequest Spec.V01.portStatsRequest "01.PortStatsRequest" where
  lookup := rfl
  enc := enc_portStatsRequest
  inv := fun _ _ h => let ⟨vs, _, h, _⟩ := struct_den_inv h; ⟨vs, h⟩
  ne := nonEmpty_portStatsRequest

theorem impl_queueStatsRequest : Impl false [("port_no", ubint 2), ("pad", padAttr 2), ("queue_id", ubint 4)] [("port_no", Spec.V01.u16), ("pad", pad 2), ("queue_id", Spec.V01.u32)] := by impl
theorem enc_queueStatsRequest : Enc queueStatsRequest Spec.V01.queueStatsRequest := impl_queueStatsRequest.enc_struct _ _
theorem nonEmpty_queueStatsRequest : NonEmpty Spec.V01.queueStatsRequest := by unfold Spec.V01.queueStatsRequest ; nonempty
theorem dec_queueStatsRequest : Dec queueStatsRequest Spec.V01.queueStatsRequest false := impl_queueStatsRequest.dec_struct _ _ nonEmpty_queueStatsRequest
theorem item_queueStatsRequest : StatsItem statsClasses queueStatsRequest Spec.V01.queueStatsRequest "01.QueueStatsRequest" where
  lookup := rfl
  enc := enc_queueStatsRequest
  inv := fun _ _ h => let ⟨vs, _, h, _⟩ := struct_den_inv h; ⟨vs, h⟩
  ne := nonEmpty_queueStatsRequest

theorem impl_vendorStatsRequest : Impl true [("vendor", ubint 4), ("body", binAttr)] Spec.V01.vendorFields := by unfold Spec.V01.vendorFields; impl
theorem enc_vendorStatsRequest : Enc vendorStatsRequest Spec.V01.vendorStatsRequest := impl_vendorStatsRequest.enc_struct _ _
theorem nonEmpty_vendorStatsRequest : NonEmpty Spec.V01.vendorStatsRequest := by unfold Spec.V01.vendorStatsRequest Spec.V01.vendorFields; nonempty
theorem dec_vendorStatsRequest : Dec vendorStatsRequest Spec.V01.vendorStatsRequest true := impl_vendorStatsRequest.dec_struct _ _ nonEmpty_vendorStatsRequest
theorem item_vendorStatsRequest : StatsItem statsClasses vendorStatsRequest Spec.V01.vendorStatsRequest "01.VendorStats" where
  lookup := rfl
  enc := enc_vendorStatsRequest
  inv := fun _ _ h => let ⟨vs, _, h, _⟩ := struct_den_inv h; ⟨vs, h⟩
  ne := nonEmpty_vendorStatsRequest

theorem impl_vendorStats : Impl true [("vendor", ubint 4), ("body", binAttr)] Spec.V01.vendorFields := by unfold Spec.V01.vendorFields; impl
theorem enc_vendorStats : Enc vendorStats Spec.V01.vendorStats := impl_vendorStats.enc_struct _ _
theorem nonEmpty_vendorStats : NonEmpty Spec.V01.vendorStats := by unfold Spec.V01.vendorStats Spec.V01.vendorFields; nonempty
theorem dec_vendorStats : Dec vendorStats Spec.V01.vendorStats true := impl_vendorStats.dec_struct _ _ nonEmpty_vendorStats
theorem item_vendorStats : StatsItem statsClasses vendorStats Spec.V01.vendorStats "01.VendorStats" where
  lookup := rfl
  enc := enc_vendorStats
  inv := fun _ _ h => let ⟨vs, _, h, _⟩ := struct_den_inv h; ⟨vs, h⟩
  ne := nonEmpty_vendorStats

theorem impl_descStats : Impl false [("mfr_desc", charAttr 256), ("hw_desc", charAttr 256), ("sw_desc", charAttr 256), ("serial_num", charAttr 32), ("dp_desc", charAttr 256)] [("mfr_desc", text 256), ("hw_desc", text 256), ("sw_desc", text 256), ("serial_num", text 32), ("dp_desc", text 256)] := by impl
theorem enc_descStats : Enc descStats Spec.V01.descStats := impl_descStats.enc_struct _ _
theorem nonEmpty_descStats : NonEmpty Spec.V01.descStats := by unfold Spec.V01.descStats ; nonempty
theorem dec_descStats : Dec descStats Spec.V01.descStats false := impl_descStats.dec_struct _ _ nonEmpty_descStats
theorem item_descStats : StatsItem statsClasses descStats Spec.V01.descStats "01.DescStats" where
  lookup := rfl
  enc := enc_descStats
  inv := fun _ _ h => let ⟨vs, _, h, _⟩ := struct_den_inv h; ⟨vs, h⟩
  ne := nonEmpty_descStats

theorem impl_aggregateStatsReply : Impl false [("packet_count", ubint 8), ("byte_count", ubint 8), ("flow_count", ubint 4), ("pad", padAttr 4)] [("packet_count", Spec.V01.u64), ("byte_count", Spec.V01.u64), ("flow_count", Spec.V01.u32), ("pad", pad 4)] := by impl
theorem enc_aggregateStatsReply : Enc aggregateStatsReply Spec.V01.aggregateStatsReply := impl_aggregateStatsReply.enc_struct _ _
theorem nonEmpty_aggregateStatsReply : NonEmpty Spec.V01.aggregateStatsReply := by unfold Spec.V01.aggregateStatsReply ; nonempty
theorem dec_aggregateStatsReply : Dec aggregateStatsReply Spec.V01.aggregateStatsReply false := impl_aggregateStatsReply.dec_struct _ _ nonEmpty_aggregateStatsReply
theorem item_aggregateStatsReply : StatsItem statsClasses aggregateStatsReply Spec.V01.aggregateStatsReply "01.AggregateStatsReply" where
  lookup := rfl
  enc := enc_aggregateStatsReply
  inv := fun _ _ h => let ⟨vs, _, h, _⟩ := struct_den_inv h; ⟨vs, h⟩
  ne := nonEmpty_aggregateStatsReply

theorem impl_tableStats : Impl false [("table_id", ubint 1), ("pad", padAttr 3), ("name", charAttr 32), ("wildcards", ubint 4 .mask), ("max_entries", ubint 4), ("active_count", ubint 4), ("count_lookup", ubint 8), ("count_matched", ubint 8)] [("table_id", Spec.V01.u8), ("pad", pad 3), ("name", text 32), ("wildcards", Spec.V01.u32), ("max_entries", Spec.V01.u32), ("active_count", Spec.V01.u32), ("count_lookup", Spec.V01.u64), ("count_matched", Spec.V01.u64)] := by impl
theorem enc_tableStats : Enc tableStats Spec.V01.tableStats := impl_tableStats.enc_struct _ _
theorem nonEmpty_tableStats : NonEmpty Spec.V01.tableStats := by unfold Spec.V01.tableStats ; nonempty
theorem dec_tableStats : Dec tableStats Spec.V01.tableStats false := impl_tableStats.dec_struct _ _ nonEmpty_tableStats
theorem item_tableStats : StatsItem statsClasses tableStats Spec.V01.tableStats "01.TableStats" where
  lookup := rfl
  enc := enc_tableStats
  inv := fun _ _ h => let ⟨vs, _, h, _⟩ := struct_den_inv h; ⟨vs, h⟩
  ne := nonEmpty_tableStats

theorem impl_portStats : Impl false [("port_no", ubint 2), ("pad", padAttr 6), ("rx_packets", ubint 8), ("tx_packets", ubint 8), ("rx_bytes", ubint 8), ("tx_bytes", ubint 8), ("rx_dropped", ubint 8), ("tx_dropped", ubint 8), ("rx_errors", ubint 8), ("tx_errors", ubint 8), ("rx_frame_err", ubint 8), ("rx_over_err", ubint 8), ("rx_crc_err", ubint 8), ("collisions", ubint 8)] [("port_no", Spec.V01.u16), ("pad", pad 6), ("rx_packets", Spec.V01.u64), ("tx_packets", Spec.V01.u64), ("rx_bytes", Spec.V01.u64), ("tx_bytes", Spec.V01.u64), ("rx_dropped", Spec.V01.u64), ("tx_dropped", Spec.V01.u64), ("rx_errors", Spec.V01.u64), ("tx_errors", Spec.V01.u64), ("rx_frame_err", Spec.V01.u64), ("rx_over_err", Spec.V01.u64), ("rx_crc_err", Spec.V01.u64), ("collisions", Spec.V01.u64)] := by impl
theorem enc_portStats : Enc portStats Spec.V01.portStats := impl_portStats.enc_struct _ _
theorem nonEmpty_portStats : NonEmpty Spec.V01.portStats := by unfold Spec.V01.portStats ; nonempty
theorem dec_portStats : Dec portStats Spec.V01.portStats false := impl_portStats.dec_struct _ _ nonEmpty_portStats
theorem item_portStats : StatsItem statsClasses portStats Spec.V01.portStats "01.PortStats" where
  lookup := rfl
  enc := enc_portStats
  inv := fun _ _ h => let ⟨vs, _, h, _⟩ := struct_den_inv h; ⟨vs, h⟩
  ne := nonEmpty_portStats

theorem impl_queueStats : Impl false [("port_no", ubint 2), ("pad", padAttr 2), ("queue_id", ubint 4), ("tx_bytes", ubint 8), ("tx_packets", ubint 8), ("tx_errors", ubint 8)] [("port_no", Spec.V01.u16), ("pad", pad 2), ("queue_id", Spec.V01.u32), ("tx_bytes", Spec.V01.u64), ("tx_packets", Spec.V01.u64), ("tx_errors", Spec.V01.u64)] := by impl
theorem enc_queueStats : Enc queueStats Spec.V01.queueStats := impl_queueStats.enc_struct _ _
theorem nonEmpty_queueStats : NonEmpty Spec.V01.queueStats := by unfold Spec.V01.queueStats ; nonempty
theorem dec_queueStats : Dec queueStats Spec.V01.queueStats false := impl_queueStats.dec_struct _ _ nonEmpty_queueStats
theorem item_queueStats : StatsItem statsClasses queueStats Spec.V01.queueStats "01.QueueStats" where
  lookup := rfl
  enc := enc_queueStats
  inv := fun _ _ h => let ⟨vs, _, h, _⟩ := struct_den_inv h; ⟨vs, h⟩
  ne := nonEmpty_queueStats

theorem impl_flowStats : Impl true flowStatsFields
    [("length", Spec.V01.u16), ("table_id", Spec.V01.u8), ("pad", pad 1), ("match", Spec.V01.match), ("duration_sec", Spec.V01.u32), ("duration_nsec", Spec.V01.u32),
     ("priority", Spec.V01.u16), ("idle_timeout", Spec.V01.u16), ("hard_timeout", Spec.V01.u16), ("pad2", pad 6), ("cookie", Spec.V01.u64), ("packet_count", Spec.V01.u64),
     ("byte_count", Spec.V01.u64), ("actions", Spec.V01.actions)] := by unfold flowStatsFields; impl
theorem nonEmpty_flowStats : NonEmpty Spec.V01.flowStats :=
  nonEmpty_delimited (by unfold Spec.V01.flowStatsRaw; nonempty)
theorem enc_flowStats : Enc flowStats Spec.V01.flowStats := enc_lengthCut (impl_flowStats.enc_struct _ _)
theorem dec_flowStats : Dec flowStats Spec.V01.flowStats false :=
  dec_lengthCut (impl_flowStats.dec_struct _ _ nonEmpty_flowStats) nonEmpty_flowStats
theorem item_flowStats : StatsItem statsClasses flowStats Spec.V01.flowStats "01.FlowStats" where
  lookup := rfl
  enc := enc_flowStats
  inv := fun _ _ h => let ⟨vs, _, h, _⟩ := struct_den_inv (fs := _) h; ⟨vs, h⟩
  ne := nonEmpty_flowStats

theorem item_request {t g} (h : Spec.V01.requestItem t = some g) : ∃ a name, StatsItem statsClasses a g name := by
  unfold Spec.V01.requestItem at h
  split at h <;> cases h
  · exact ⟨_, _, item_flowStatsRequest⟩
  · exact ⟨_, _, item_aggregateStatsRequest⟩
  · exact ⟨_, _, item_portStatsRequest⟩
  · exact ⟨_, _, item_queueStatsRequest⟩
  · exact ⟨_, _, item_vendorStatsRequest⟩

theorem item_reply {t g} (h : Spec.V01.replyItem t = some g) : ∃ a name, StatsItem statsClasses a g name := by
  unfold Spec.V01.replyItem at h
  split at h <;> cases h
  · exact ⟨_, _, item_descStats⟩
  · exact ⟨_, _, item_flowStats⟩
  · exact ⟨_, _, item_aggregateStatsReply⟩
  · exact ⟨_, _, item_tableStats⟩
  · exact ⟨_, _, item_portStats⟩
  · exact ⟨_, _, item_queueStats⟩
  · exact ⟨_, _, item_vendorStats⟩

/-- Decoding the items of a request. -/
theorem request_items {t g ds bb} (h : Spec.V01.requestItem t = some g) (hb : encList g ds = some bb)
    (hr : Spec.V01.requestRoom t ds.length) (ho : ∀ x ∈ ds, g.ok x) :
    ∃ c xs, requestClass t = some c ∧ unpackItems c bb 0 = .ok xs ∧ optMap g.den xs = some ds := by
  unfold Spec.V01.requestItem at h
  split at h <;> cases h
  · exact ⟨_, (unpackItems_dec enc_flowStatsRequest dec_flowStatsRequest nonEmpty_flowStatsRequest ds bb [] hb ho).imp fun _ h => ⟨rfl, h⟩⟩
  · exact ⟨_, (unpackItems_dec enc_aggregateStatsRequest dec_aggregateStatsRequest nonEmpty_aggregateStatsRequest ds bb [] hb ho).imp fun _ h => ⟨rfl, h⟩⟩
  · exact ⟨_, (unpackItems_dec enc_portStatsRequest dec_portStatsRequest nonEmpty_portStatsRequest ds bb [] hb ho).imp fun _ h => ⟨rfl, h⟩⟩
  · exact ⟨_, (unpackItems_dec enc_queueStatsRequest dec_queueStatsRequest nonEmpty_queueStatsRequest ds bb [] hb ho).imp fun _ h => ⟨rfl, h⟩⟩
  · exact ⟨_, (unpackItems_le_one enc_vendorStatsRequest dec_vendorStatsRequest nonEmpty_vendorStatsRequest [] hb (hr rfl) ho).imp fun _ h => ⟨rfl, h⟩⟩

/-- Decoding the items of a reply other than DESC. -/
theorem reply_items {t g ds bb} (h : Spec.V01.replyItem t = some g) (ht : t ≠ 0) (hb : encList g ds = some bb)
    (hr : Spec.V01.replyRoom t ds.length) (ho : ∀ x ∈ ds, g.ok x) :
    ∃ c xs, replyClass t = some c ∧ unpackItems c bb 0 = .ok xs ∧ optMap g.den xs = some ds := by
  unfold Spec.V01.replyItem at h
  split at h <;> cases h
  · exact absurd rfl ht
  · exact ⟨_, (unpackItems_dec enc_flowStats dec_flowStats nonEmpty_flowStats ds bb [] hb ho).imp fun _ h => ⟨rfl, h⟩⟩
  · exact ⟨_, (unpackItems_dec enc_aggregateStatsReply dec_aggregateStatsReply nonEmpty_aggregateStatsReply ds bb [] hb ho).imp fun _ h => ⟨rfl, h⟩⟩
  · exact ⟨_, (unpackItems_dec enc_tableStats dec_tableStats nonEmpty_tableStats ds bb [] hb ho).imp fun _ h => ⟨rfl, h⟩⟩
  · exact ⟨_, (unpackItems_dec enc_portStats dec_portStats nonEmpty_portStats ds bb [] hb ho).imp fun _ h => ⟨rfl, h⟩⟩
  · exact ⟨_, (unpackItems_dec enc_queueStats dec_queueStats nonEmpty_queueStats ds bb [] hb ho).imp fun _ h => ⟨rfl, h⟩⟩
  · exact ⟨_, (unpackItems_le_one enc_vendorStats dec_vendorStats nonEmpty_vendorStats [] hb (hr.1 rfl) ho).imp fun _ h => ⟨rfl, h⟩⟩

theorem requestClass_none {t} (h : Spec.V01.requestItem t = none) : requestClass t = none := by
  unfold requestClass
  split <;> first | rfl | cases h

theorem ok_statsRequest : MsgOk statsRequest
    ⟨"01.StatsRequest", 1, 16, "01.Header", Spec.V01.stats "01.StatsRequest" Spec.V01.requestItem Spec.V01.requestRoom⟩ where
  name := rfl
  ver := rfl
  code := rfl
  hdr := rfl
  pack := stats_pack rfl prep_request rfl rfl rfl rfl (by decide) (by decide) rfl (fun _ _ h => item_request h)
  unpack := by
    intro d body he ho
    obtain ⟨t, f, ds, bb, rfl, ht, hf, rfl, hi, hn⟩ := stats_enc_inv he
    obtain ⟨hm, hr, hok⟩ := ho
    obtain ⟨e, hu⟩ := statsFields_unpack (bb := bb) ht hf hm
    simp only [statsRequest, statsRequestUnpack, hu, Int.toNat_natCast, rawBody]
    cases hit : Spec.V01.requestItem t with
    | none =>
      obtain ⟨rfl, rfl⟩ := hn hit
      simp [requestClass_none hit, Spec.V01.stats, numOf, Spec.bodyItems, hit]
    | some g =>
      obtain ⟨c, xs, h1, h2, h3⟩ := request_items hit (hi g hit) hr (hok g hit)
      simp [h1, h2, Spec.V01.stats, numOf, Spec.bodyItems, hit, h3]

theorem ok_statsReply : MsgOk statsReply
    ⟨"01.StatsReply", 1, 17, "01.Header", Spec.V01.stats "01.StatsReply" Spec.V01.replyItem Spec.V01.replyRoom⟩ where
  name := rfl
  ver := rfl
  code := rfl
  hdr := rfl
  pack := stats_pack rfl prep_reply rfl rfl rfl rfl (by decide) (by decide) rfl (fun _ _ h => item_reply h)
  unpack := by
    intro d body he ho
    obtain ⟨t, f, ds, bb, rfl, ht, hf, rfl, hi, hn⟩ := stats_enc_inv he
    obtain ⟨hm, hr, hok⟩ := ho
    obtain ⟨e, hu⟩ := statsFields_unpack (bb := bb) ht hf hm
    simp only [statsReply, statsReplyUnpack, hu, Int.toNat_natCast, rawBody]
    by_cases h0 : t = 0
    · subst h0
      have hl := hr.2 rfl
      match ds, hl with
      | [d], _ =>
        obtain ⟨x, y, h1, h2, rfl⟩ := encList_cons_inv (hi _ rfl)
        simp [encList] at h2; subst h2
        have hne : x ≠ [] := fun h => nonEmpty_descStats d (h ▸ h1)
        obtain ⟨u, hu, hden, _⟩ := dec_descStats.unpack d x [] [] h1 (hok _ rfl d (by simp)) (by simp) (by simpa using hne)
        obtain ⟨vs, _, rfl, _⟩ := struct_den_inv hden
        simp at hu
        simp [hu, Spec.V01.stats, numOf, Spec.bodyItems, Spec.V01.replyItem, optMap, hden]
    · have hit : ∃ g, Spec.V01.replyItem t = some g := by
        simp only [Spec.V01.statsTypes, List.mem_cons, List.not_mem_nil, or_false] at hm
        rcases hm with rfl | rfl | rfl | rfl | rfl | rfl | rfl <;> exact ⟨_, rfl⟩
      obtain ⟨g, hit⟩ := hit
      obtain ⟨c, xs, h1, h2, h3⟩ := reply_items hit h0 (hi g hit) hr (hok g hit)
      simp [h0, h1, h2, Spec.V01.stats, numOf, Spec.bodyItems, hit, h3]

/-! ## ErrorMsg -/

theorem errorFields_unpack {t c : Nat} {bb : Bytes} (ht : t < 65536) (hc : c < 65536) (hm : t ∈ errorCodes.map (·.1)) :
    ∃ e, unpackAttrs errorFields (be 2 t ++ be 2 c ++ bb) 0 =
      .ok ([.ub 2 (.enum t), .ub 2 (.int c), .bin (.bytes bb)], e) := by
  have hne : be 2 t ++ be 2 c ++ bb ≠ [] := by simp [be]
  have e1 := ubUnpack_be (w := 2) (.enum (errorCodes.map (·.1))) [] (be 2 c ++ bb) (n := t) (by simpa using ht) (off := 0) (by simp)
  have e2 := ubUnpack_be (w := 2) .none (be 2 t) bb (n := c) (by simpa using hc) (off := 2) (by simp)
  have e3 : (be 2 t ++ (be 2 c ++ bb)).drop 4 = bb := by
    rw [← List.append_assoc]; exact List.drop_left' (by simp)
  simp only [List.nil_append, List.append_assoc, refApply, if_pos hm] at e1 e2 hne ⊢
  exact ⟨_, by
    simp only [errorFields, unpackAttrs, unpackAttr, ubint, hne, e1, e2, e3, binAttr, binSizeRaw, binPackRaw, if_false, Nat.zero_add]
    rfl⟩

theorem impl_error : Impl true [("error_type", ubint 2), ("code", ubint 2), ("data", binAttr)]
    [("error_type", Spec.V01.u16), ("code", Spec.V01.u16), ("data", rest)] := by impl

/-- The data that is packed has the content of the data that was given. -/
theorem errorPrep_rest {cl t c d x} (h : rest.den d = some x) :
    ∃ d', errorPrep cl [t, c, d] = .ok [t, c, d'] ∧ rest.den d' = some x := by
  have hr : rest.den d = some x := h
  cases d with
  | none => exact ⟨_, rfl, hr⟩
  | bytes b => exact ⟨_, rfl, hr⟩
  | foreign b n =>
    simp [Spec.rest] at h
    exact ⟨.bytes b, rfl, by simp [Spec.rest, h]⟩
  | bin y =>
    cases y <;> simp [Spec.rest] at h
    · exact ⟨.bytes [], rfl, by simp [Spec.rest, h]⟩
    · rename_i b; exact ⟨.bytes b, rfl, by simp [Spec.rest, h]⟩
    · rename_i b n; exact ⟨.bytes b, rfl, by simp [Spec.rest, h]⟩
  | _ => simp [Spec.rest] at h

theorem error_codes {t c : Nat} (h : c ∈ Spec.V01.errorCodes t) :
    t ∈ errorCodes.map (·.1) ∧ ∃ ms, errorCodes.lookup t = some ms ∧ c ∈ ms := by
  unfold Spec.V01.errorCodes at h
  split at h
  · exact ⟨by decide, _, rfl, by simp at h ⊢; omega⟩
  · exact ⟨by decide, _, rfl, by simp at h ⊢; omega⟩
  · exact ⟨by decide, _, rfl, by simp at h ⊢; omega⟩
  · exact ⟨by decide, _, rfl, by simp at h ⊢; omega⟩
  · exact ⟨by decide, _, rfl, by simp at h ⊢; omega⟩
  · exact ⟨by decide, _, rfl, by simp at h ⊢; omega⟩
  · cases h

theorem ok_errorMsg : MsgOk errorMsg ⟨"01.ErrorMsg", 1, 1, "01.Header", Spec.V01.errorMsg⟩ where
  name := rfl
  ver := rfl
  code := rfl
  hdr := rfl
  pack := by
    intro v x d hd
    simp only [msgDen] at hd
    split at hd
    · rename_i c hdr vs
      split at hd
      · rename_i hcn
        subst hcn
        split at hd
        · rename_i x' d' hx hd'
          cases hd
          have hd' : (Spec.struct "01.ErrorMsg" [("error_type", Spec.V01.u16), ("code", Spec.V01.u16), ("data", rest)]).den
            (.obj "01.ErrorMsg" vs) = some d := hd'
          obtain ⟨ws, ds, hw, h1, rfl⟩ := struct_den_inv hd'
          cases hw
          obtain ⟨t, r, dt, et, rfl, h2, h3, rfl⟩ := denAll_cons_inv h1
          obtain ⟨c, r2, dc, ec, rfl, h4, h5, rfl⟩ := denAll_cons_inv h3
          obtain ⟨dd, r3, dr, er, rfl, h6, h7, rfl⟩ := denAll_cons_inv h5
          obtain ⟨rfl, rfl⟩ := denAll_nil_inv h7
          obtain ⟨dd', h8, h9⟩ := errorPrep_rest (cl := []) (t := t) (c := c) h6
          simp only [MsgCls.pack, show errorMsg.prep = errorPrep [] from rfl, h8]
          have hall : denAll [("error_type", Spec.V01.u16), ("code", Spec.V01.u16), ("data", rest)] [t, c, dd'] = some [dt, dc, dr] := by
            simp [denAll, h2, h4, h9]
          have h10 := impl_error.encs _ _ hall
          have h11 : ∀ b, packAttrs errorMsg.body [t, c, dd'] = .ok b ↔
              encAll [("error_type", Spec.V01.u16), ("code", Spec.V01.u16), ("data", rest)] [dt, dc, dr] = some b := h10.1
          have h12 : ∀ b, encAll [("error_type", Spec.V01.u16), ("code", Spec.V01.u16), ("data", rest)] [dt, dc, dr] = some b →
              sizeAttrs errorMsg.body [t, c, dd'] = .ok b.length := h10.2
          exact .generic hx rfl rfl rfl (by decide : 1 < 256) (by decide : 1 < 256) rfl h11 h12
        · cases hd
      · cases hd
    · cases hd
  unpack := by
    intro d body he ho
    have he : (Spec.struct "01.ErrorMsg" [("error_type", Spec.V01.u16), ("code", Spec.V01.u16), ("data", rest)]).enc d =
      some body := he
    obtain ⟨ds, rfl, he⟩ := struct_enc_inv he
    obtain ⟨dt, r, x1, y1, rfl, h2, h3, rfl⟩ := encAll_cons_inv he
    obtain ⟨dc, r2, x2, y2, rfl, h4, h5, rfl⟩ := encAll_cons_inv h3
    obtain ⟨dd, r3, x3, y3, rfl, h6, h7, rfl⟩ := encAll_cons_inv h5
    obtain ⟨rfl, rfl⟩ := encAll_nil_inv h7
    obtain ⟨t, rfl, ht, rfl⟩ := uint_enc_inv h2
    obtain ⟨c, rfl, hc, rfl⟩ := uint_enc_inv h4
    have ho : c ∈ Spec.V01.errorCodes t := ho
    obtain ⟨hm, ms, hl, hcm⟩ := error_codes ho
    obtain ⟨e, hu⟩ := errorFields_unpack (bb := x3) (by simpa using ht) (by simpa using hc) hm
    refine ⟨[.ub 2 (.enum t), .enum c, .bin (.bytes x3)], ?_, ?_⟩
    · simp only [errorMsg, errorUnpack]
      rw [List.append_nil, ← List.append_assoc, hu]
      simp [hl, hcm]
    · cases dd <;> simp [Spec.rest] at h6
      subst h6
      simp [Spec.V01.errorMsg, Spec.struct, denAll, Spec.V01.u16, Spec.uint, numOf, Spec.rest]

/-! ## PacketOut -/

theorem packetOut_den_inv {v d} (h : Spec.V01.packetOut.den v = some d) :
    ∃ b p l acts data bn pn as dd, v = .obj "01.PacketOut" [b, p, l, acts, data] ∧ numOf b = some bn ∧ numOf p = some pn ∧
      Spec.V01.actions.den acts = some as ∧ rest.den data = some dd ∧ d = .record [.num bn, .num pn, as, dd] := by
  simp only [Spec.V01.packetOut] at h
  split at h
  · split at h
    · rename_i hc
      subst hc
      split at h
      · cases h
        exact ⟨_, _, _, _, _, _, _, _, _, rfl, by assumption, by assumption, by assumption, by assumption, rfl⟩
      · cases h
    · cases h
  · cases h

theorem packetOut_enc_inv {d b} (h : Spec.V01.packetOut.enc d = some b) :
    ∃ bn pn as data ab, d = .record [.num bn, .num pn, as, .raw data] ∧ Spec.V01.actions.enc as = some ab ∧ bn < 4294967296 ∧
      Spec.V01.inPortOk pn ∧ ab.length < 65536 ∧ b = be 4 bn ++ be 2 pn ++ be 2 ab.length ++ ab ++ data := by
  simp only [Spec.V01.packetOut] at h
  split at h
  · split at h
    · split at h
      · rename_i h2
        cases h
        exact ⟨_, _, _, _, _, rfl, by assumption, h2.1, h2.2.1, h2.2.2, rfl⟩
      · cases h
    · cases h
  · cases h

theorem packetOutValid_iff {b p r pn} (h : numOf p = some pn) :
    packetOutValid (b :: p :: r) = .ok () ↔ Spec.V01.inPortOk pn := by
  simp only [packetOutValid, cmpNum_num h, Spec.V01.inPortOk]
  constructor
  · intro h2
    split at h2
    · omega
    · cases h2
  · intro h2
    rw [if_pos (by omega)]

theorem ok_packetOut : MsgOk packetOut ⟨"01.PacketOut", 1, 13, "01.Header", Spec.V01.packetOut⟩ where
  name := rfl
  ver := rfl
  code := rfl
  hdr := rfl
  pack := by
    intro v x d hd
    simp only [msgDen] at hd
    split at hd
    · rename_i c hdr vs
      split at hd
      · rename_i hcn
        subst hcn
        split at hd
        · rename_i x' d' hx hd'
          cases hd
          obtain ⟨b, pt, l, acts, data, bn, pn, as, dd, hw, hb, hp, ha, hdat, rfl⟩ := packetOut_den_inv hd'
          cases hw
          obtain ⟨raw, rfl, _, _⟩ := rest_den_inv hdat
          have hrp : (binAttr).pack data = .ok raw := (enc_rest.pack _ _ hdat raw).mpr rfl
          have hrs : (binAttr).size data = .ok raw.length := enc_rest.size _ _ raw hdat rfl
          have p2 : (256 : Nat) ^ 2 = 65536 := by decide
          have p4 : (256 : Nat) ^ 4 = 4294967296 := by decide
          cases hae : Spec.V01.actions.enc as with
          | none =>
            have hpk : ∀ bb, actions.pack acts ≠ .ok bb := by
              intro bb h
              have := (enc_actions.pack _ _ ha bb).mp h
              rw [hae] at this; cases this
            refine .none (by simp only [Spec.V01.packetOut, hae]) ?_
            simp only [MsgCls.pack, packetOut, packetOutPrep]
            cases hsz : actions.size acts with
            | error e => simp
            | ok n =>
              simp only
              intro p h
              have h0 : ∀ b', packAttrs packetOutFields [b, pt, .int n, acts, data] = .ok b' ↔ (none : Option Bytes) = some b' := by
                intro b'
                simp only [packetOutFields, packAttrs_cons, reduceCtorEq, iff_false]
                rintro ⟨_, _, _, ⟨_, _, _, ⟨_, _, _, ⟨_, _, h9, _⟩, _⟩, _⟩, _⟩
                exact hpk _ h9
              have := (genericPack_spec (m := packetOut) (enc := none) hx (by decide) (by decide) h0 (by simp) p).mp h
              simp at this
          | some ab =>
            have hpk := (enc_actions.pack _ _ ha ab).mpr hae
            have hsz := enc_actions.size _ _ ab ha hae
            simp only [MsgCls.pack, show packetOut.prep = packetOutPrep from rfl, packetOutPrep, hsz]
            have hk : ∀ b', packAttrs packetOutFields [b, pt, .int (ab.length : Nat), acts, data] = .ok b' ↔
                (if bn < 4294967296 ∧ pn < 65536 ∧ ab.length < 65536 then
                  some (be 4 bn ++ be 2 pn ++ be 2 ab.length ++ ab ++ raw) else none) = some b' := by
              intro b'
              simp only [packetOutFields, packAttrs_cons, packAttrs_nil, ubint, ubPack_num hb, ubPack_num hp,
                ubPack_num (show numOf (.int (ab.length : Nat)) = some ab.length by simp [numOf]), packNum_ok,
                Int.toNat_natCast, p2, p4, hpk, hrp]
              constructor
              · rintro ⟨_, _, ⟨_, h1, rfl⟩, ⟨_, _, ⟨_, h2, rfl⟩, ⟨_, _, ⟨_, h3, rfl⟩, ⟨_, _, h4, ⟨_, _, h5, rfl, rfl⟩, rfl⟩, rfl⟩, rfl⟩, rfl⟩
                cases h4; cases h5
                simp [h1, h2, h3]
              · intro h
                split at h
                · rename_i h2
                  cases h
                  exact ⟨_, _, ⟨by omega, h2.1, rfl⟩, ⟨_, _, ⟨by omega, h2.2.1, rfl⟩, ⟨_, _, ⟨by omega, h2.2.2, rfl⟩,
                    ⟨_, _, rfl, ⟨_, _, rfl, rfl, rfl⟩, rfl⟩, rfl⟩, rfl⟩, by simp⟩
                · cases h
            have hks : ∀ b', (if bn < 4294967296 ∧ pn < 65536 ∧ ab.length < 65536 then
                  some (be 4 bn ++ be 2 pn ++ be 2 ab.length ++ ab ++ raw) else none) = some b' →
                sizeAttrs packetOutFields [b, pt, .int (ab.length : Nat), acts, data] = .ok b'.length := by
              intro b' h
              split at h
              · cases h
                simp [packetOutFields, sizeAttrs, ubint, hsz, hrs]
              · cases h
            refine ⟨fun p => ?_, fun bd h1 hbig => ?_⟩
            rotate_left
            · simp only [Spec.V01.packetOut, hae] at h1
              split at h1
              · rename_i h4
                cases h1
                have h5 : pn < 65536 := by have := h4.2.1; unfold Spec.V01.inPortOk at this; omega
                have hv := (packetOutValid_iff (b := b) (r := [.int (ab.length : Nat), acts, data]) hp).mpr h4.2.1
                exact genericPack_refuse (m := packetOut) hx (by decide) (by decide) (hks _ (by rw [if_pos ⟨h4.1, h5, h4.2.2⟩])) hv hbig
              · cases h1
            rw [genericPack_spec (m := packetOut) hx (by decide) (by decide) hk hks]
            rw [show packetOut.valid = packetOutValid from rfl, packetOutValid_iff hp]
            simp only [Spec.V01.packetOut, hae, show packetOut.ver = 1 from rfl, show packetOut.code = 13 from rfl]
            constructor
            · rintro ⟨hin, bd, h1, h2, h3, rfl⟩
              split at h1
              · rename_i h4
                cases h1
                exact ⟨_, by rw [if_pos ⟨h4.1, hin, h4.2.2⟩], h2, h3, rfl⟩
              · cases h1
            · rintro ⟨bd, h1, h2, h3, rfl⟩
              split at h1
              · rename_i h4
                cases h1
                have h5 : pn < 65536 := by have := h4.2.1; unfold Spec.V01.inPortOk at this; omega
                exact ⟨h4.2.1, _, by rw [if_pos ⟨h4.1, h5, h4.2.2⟩], h2, h3, rfl⟩
              · cases h1
        · cases hd
      · cases hd
    · cases hd
  unpack := by
    intro d body he ho
    obtain ⟨bn, pn, as, data, ab, rfl, hae, hb, hp, hl, rfl⟩ := packetOut_enc_inv he
    have ho : Spec.V01.actions.ok as := ho
    have hp2 : pn < 65536 := by unfold Spec.V01.inPortOk at hp; omega
    have e1 := ubUnpack_be (w := 4) .none [] (be 2 pn ++ be 2 ab.length ++ ab ++ data) (n := bn) (by simpa using hb) (off := 0) (by simp)
    have e2 := ubUnpack_be (w := 2) .none (be 4 bn) (be 2 ab.length ++ ab ++ data) (n := pn) (by simpa using hp2) (off := 4) (by simp)
    have e3 := ubUnpack_be (w := 2) .none (be 4 bn ++ be 2 pn) (ab ++ data) (n := ab.length) (by simpa using hl) (off := 6) (by simp)
    simp only [List.nil_append, List.append_assoc, refApply] at e1 e2 e3
    have e4 : slice (be 4 bn ++ (be 2 pn ++ (be 2 ab.length ++ (ab ++ data)))) 8 (8 + ab.length) = ab := by
      have : be 4 bn ++ (be 2 pn ++ (be 2 ab.length ++ (ab ++ data))) = (be 4 bn ++ be 2 pn ++ be 2 ab.length) ++ ab ++ data := by
        simp
      rw [this]
      have := slice_mid (be 4 bn ++ be 2 pn ++ be 2 ab.length) ab data
      simpa using this
    have e5 : (be 4 bn ++ (be 2 pn ++ (be 2 ab.length ++ (ab ++ data)))).drop (8 + ab.length) = data := by
      have : be 4 bn ++ (be 2 pn ++ (be 2 ab.length ++ (ab ++ data))) = ((be 4 bn ++ be 2 pn ++ be 2 ab.length) ++ ab) ++ data := by
        simp
      rw [this]
      exact List.drop_left' (by simp; omega)
    obtain ⟨ds, rfl, hel⟩ := list_enc_inv hae
    obtain ⟨xs, hx1, hx2⟩ := unpackItems_dec enc_action dec_action nonEmpty_action ds ab [] hel ho
    have hden : Spec.V01.actions.den (.list true xs) = some (.arr ds) := by
      simp [Spec.V01.actions, Spec.list, hx2]
    have hus := enc_actions.usize _ _ ab (by simp) hden hae
    have hact : actions.unpack ab 0 = .ok (.list true xs) := by
      simp at hx1
      simp [actions, listAttr, hx1]
    refine ⟨[.ub 4 (.int bn), .ub 2 (.int pn), .ub 2 (.int ab.length), .list true xs, .bin (.bytes data)], ?_, ?_⟩
    · simp only [packetOut, packetOutUnpack, List.append_assoc, e1, e2, e3, gotNum, Int.toNat_natCast, e4, hact, hus, binAttr, e5]
    · simp [Spec.V01.packetOut, numOf, hden, Spec.rest]

/-! ## all messages -/

/-- A plain message of the table. -/
theorem ok_plain {m : MsgCls} {name code fs t} (h : Impl t m.body fs) (hm : m = msg name code m.body) (hc : code < 256) :
    MsgOk m (Spec.V01.plain name code fs) := by
  rw [hm] at h ⊢
  exact h.msg rfl rfl rfl rfl (by decide : (1 : Nat) < 256) hc rfl rfl rfl rfl

macro "plain_ok" : tactic => `(tactic| (refine ok_plain (t := true) ?_ rfl (by decide); simp only [msg]; impl))

theorem ok_plainMsgs : ∀ p ∈ Spec.V01.plainMsgs, ∃ m, lib.find p.2.1 = some m ∧ lib.named p.1 = some m ∧
    MsgOk m (Spec.V01.plain p.1 p.2.1 p.2.2) := by
  simp only [Spec.V01.plainMsgs, List.forall_mem_cons, Spec.V01.switchConfig]
  refine ⟨⟨hello, rfl, rfl, ?_⟩, ⟨echoRequest, rfl, rfl, ?_⟩, ⟨echoReply, rfl, rfl, ?_⟩, ⟨vendorHeader, rfl, rfl, ?_⟩, ⟨featuresRequest, rfl, rfl, ?_⟩,
    ⟨featuresReply, rfl, rfl, ?_⟩, ⟨getConfigRequest, rfl, rfl, ?_⟩, ⟨getConfigReply, rfl, rfl, ?_⟩, ⟨setConfig, rfl, rfl, ?_⟩, ⟨packetIn, rfl, rfl, ?_⟩,
    ⟨flowRemoved, rfl, rfl, ?_⟩, ⟨portStatus, rfl, rfl, ?_⟩, ⟨flowMod, rfl, rfl, ?_⟩, ⟨portMod, rfl, rfl, ?_⟩, ⟨barrierRequest, rfl, rfl, ?_⟩,
    ⟨barrierReply, rfl, rfl, ?_⟩, ⟨queueGetConfigRequest, rfl, rfl, ?_⟩, ⟨queueGetConfigReply, rfl, rfl, ?_⟩, by simp⟩
  · unfold hello; plain_ok
  · unfold echoRequest; plain_ok
  · unfold echoReply; plain_ok
  · unfold vendorHeader; plain_ok
  · unfold featuresRequest; plain_ok
  · unfold featuresReply; plain_ok
  · unfold getConfigRequest; plain_ok
  · unfold getConfigReply switchConfigFields; plain_ok
  · unfold setConfig switchConfigFields; plain_ok
  · unfold packetIn; plain_ok
  · unfold flowRemoved; plain_ok
  · unfold portStatus; plain_ok
  · unfold flowMod; plain_ok
  · unfold portMod; plain_ok
  · unfold barrierRequest; plain_ok
  · unfold barrierReply; plain_ok
  · unfold queueGetConfigRequest; plain_ok
  · unfold queueGetConfigReply; plain_ok

theorem lib_ok : LibOk lib Spec.V01.messages where
  ver := by
    intro s hs
    simp only [Spec.V01.messages, List.mem_append, List.mem_map] at hs
    rcases hs with ⟨p, hp, rfl⟩ | hs
    · have : ∀ p ∈ Spec.V01.plainMsgs, p.2.1 < 22 := by simp [Spec.V01.plainMsgs]
      have := this p hp
      exact ⟨rfl, by simp [Spec.V01.plain]; omega, by simp [Spec.V01.plain, lib, types]; omega⟩
    · simp only [List.mem_cons, List.not_mem_nil, or_false] at hs
      rcases hs with rfl | rfl | rfl | rfl <;> exact ⟨rfl, by decide, by decide⟩
  cls := by
    intro s hs
    simp only [Spec.V01.messages, List.mem_append, List.mem_map] at hs
    rcases hs with ⟨p, hp, rfl⟩ | hs
    · exact ok_plainMsgs p hp
    · simp only [List.mem_cons, List.not_mem_nil, or_false] at hs
      rcases hs with rfl | rfl | rfl | rfl
      · exact ⟨_, rfl, rfl, ok_errorMsg⟩
      · exact ⟨_, rfl, rfl, ok_packetOut⟩
      · exact ⟨_, rfl, rfl, ok_statsRequest⟩
      · exact ⟨_, rfl, rfl, ok_statsReply⟩

end Pyof.V01
