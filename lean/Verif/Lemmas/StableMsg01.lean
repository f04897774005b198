import Verif.Lemmas.StableMsg
import Verif.Lemmas.StableTot
import Verif.Lemmas.Errs
/-!
# Decoding arbitrary bytes and encoding the result again: the messages of OpenFlow 1.0
-/
namespace Pyof
open Spec

/-- A format with an attribute that is never empty has no empty encoding. -/
theorem NonEmpty.noEmpty {f : Fmt} (h : NonEmpty f) : ∀ d, f.enc d = some [] → f.ok d := fun d hd => absurd hd (h d)

theorem noEmpty_nil {cls : String} : ∀ d, (Spec.struct cls []).enc d = some [] → (Spec.struct cls []).ok d := by
  intro d hd
  obtain ⟨ds, rfl, hd⟩ := struct_enc_inv hd
  obtain ⟨rfl, _⟩ := encAll_nil_inv hd
  trivial

theorem noEmpty_rest {cls n : String} : ∀ d, (Spec.struct cls [(n, Spec.rest)]).enc d = some [] →
    (Spec.struct cls [(n, Spec.rest)]).ok d := by
  intro d hd
  obtain ⟨ds, rfl, hd⟩ := struct_enc_inv hd
  obtain ⟨d1, r, x, y, rfl, _, h, _⟩ := encAll_cons_inv hd
  obtain ⟨rfl, _⟩ := encAll_nil_inv h
  exact ⟨trivial, trivial⟩

namespace V01

theorem stab_plain {m : MsgCls} {name code fs t k} (h : StabRun m.body fs t true k)
    (hok : MsgOk m (Spec.V01.plain name code fs)) (hm : m = msg name code m.body)
    (hempty : ∀ d, (Spec.struct name fs).enc d = some [] → (Spec.struct name fs).ok d) :
    MsgStab m (Spec.V01.plain name code fs) (fun _ _ => True) (fun _ => True) k :=
  h.msg hok (by rw [hm]; rfl) rfl hempty fun _ _ _ => rfl

macro "plain_stab" : tactic => `(tactic| (
  refine stab_plain (t := true) ?_ (by assumption) rfl ?_
  · simp only [msg]
    apply run_of
    · repeat run1
    · rfl
    · decide
  · first
    | exact noEmpty_nil
    | exact noEmpty_rest
    | exact NonEmpty.noEmpty (by nonempty)
    | exact NonEmpty.noEmpty ((nonEmpty_uint 4 none none).struct (List.mem_cons_of_mem _ List.mem_cons_self))))

theorem stab_plainMsgs : ∀ p ∈ Spec.V01.plainMsgs, ∀ m, lib.find p.2.1 = some m →
    MsgOk m (Spec.V01.plain p.1 p.2.1 p.2.2) → MsgStab m (Spec.V01.plain p.1 p.2.1 p.2.2) (fun _ _ => True) (fun _ => True) 16 := by
  simp only [Spec.V01.plainMsgs, List.forall_mem_cons, Spec.V01.switchConfig]
  refine ⟨?_, ?_, ?_, ?_, ?_, ?_, ?_, ?_, ?_, ?_, ?_, ?_, ?_, ?_, ?_, ?_, ?_, ?_, by simp⟩ <;> intro m hm hok <;> cases hm
  · unfold hello at *; plain_stab
  · unfold echoRequest at *; plain_stab
  · unfold echoReply at *; plain_stab
  · unfold vendorHeader at *; plain_stab
  · unfold featuresRequest at *; plain_stab
  · unfold featuresReply at *; plain_stab
  · unfold getConfigRequest at *; plain_stab
  · unfold getConfigReply switchConfigFields at *; plain_stab
  · unfold setConfig switchConfigFields at *; plain_stab
  · unfold packetIn at *; plain_stab
  · unfold flowRemoved at *; plain_stab
  · unfold portStatus at *; plain_stab
  · unfold flowMod at *; plain_stab
  · unfold portMod at *; plain_stab
  · unfold barrierRequest at *; plain_stab
  · unfold barrierReply at *; plain_stab
  · unfold queueGetConfigRequest at *; plain_stab
  · unfold queueGetConfigReply at *; plain_stab

/-! ## ErrorMsg -/

theorem stab_errorMsg : MsgStab errorMsg ⟨"01.ErrorMsg", 1, 1, "01.Header", Spec.V01.errorMsg⟩ (fun _ _ => True) (fun _ => True) 0 := by
  intro body vs _ _ hu
  have hu : errorUnpack body = .ok vs := hu
  obtain ⟨t, c, bb, ht, hc, rfl⟩ := two_words (errorUnpack_ok hu)
  have hu0 := hu
  rw [errorUnpack_bytes ht hc] at hu
  split at hu
  · cases hu
    have hden : Spec.V01.errorMsg.den (.obj "01.ErrorMsg" [.ub 2 (.enum t), .enum c, .bin (.bytes bb)]) =
        some (.record [.num t, .num c, .raw bb]) := by
      simp [Spec.V01.errorMsg, Spec.struct, denAll, Spec.V01.u16, Spec.uint, numOf, Spec.rest]
    refine ⟨fun _ => ⟨_, hden⟩, fun d hd _ => ?_⟩
    rw [hden] at hd
    cases hd
    refine ⟨be 2 t ++ be 2 c ++ bb, ?_, by simp, _, hu0, hden⟩
    simp [Spec.V01.errorMsg, Spec.struct, encAll, Spec.V01.u16, Spec.uint, Spec.rest, ht, hc]
  · split at hu <;> cases hu

/-! ## StatsRequest, StatsReply -/

/-- The two numbers in front of the body. -/
theorem statsFields_read {body : Bytes} {t f x : Val} {e : Nat} (hb : body ≠ [])
    (h : unpackAttrs statsFields body 0 = .ok ([t, f, x], e)) :
    ∃ tn fn bb, tn < 65536 ∧ fn < 65536 ∧ body = be 2 tn ++ be 2 fn ++ bb ∧ tn ∈ statsTypes ∧ t = .ub 2 (.enum tn) ∧
      f = .ub 2 (.int fn) ∧ x = .bin (.bytes bb) := by
  have h4 : 4 ≤ body.length := by
    obtain ⟨v, vs, k, h0, h1, hk, h2⟩ := first_attr h hb
    cases h0
    obtain ⟨v, vs, k2, h0, h3, hk2, h5⟩ := first_attr h2 hb
    cases h0
    have h3 : ubUnpack 2 .none body (0 + k) = .ok f := h3
    obtain ⟨n, h7, _⟩ := ubUnpack_read h3
    have hk : k = 2 := by simpa [ubint, eq_comm] using hk
    omega
  obtain ⟨tn, fn, bb, ht, hf, rfl⟩ := two_words h4
  refine ⟨tn, fn, bb, ht, hf, rfl, ?_⟩
  have hm : tn ∈ statsTypes := by
    obtain ⟨v, vs, k, h0, h1, hk, h2⟩ := first_attr h hb
    have e1 := ubUnpack_be (w := 2) (.enum statsTypes) [] (be 2 fn ++ bb) (n := tn) (by simpa using ht) (off := 0) (by simp)
    have h1 : ubUnpack 2 (.enum statsTypes) (be 2 tn ++ be 2 fn ++ bb) 0 = .ok v := h1
    simp only [List.nil_append, List.append_assoc] at e1 h1
    rw [h1] at e1
    by_cases hmem : tn ∈ statsTypes
    · exact hmem
    · simp [refApply, hmem] at e1
  obtain ⟨e', he⟩ := statsFields_unpack (bb := bb) ht hf hm
  rw [h] at he
  cases he
  exact ⟨hm, rfl, rfl, rfl⟩

/-- The items of a body. -/
theorem items_stab {c : Attr} {g : Fmt} {t tot k raw xs} (he : Enc c g) (h : Stab c.unpack g t tot k) (hl : raw.length + k < 65536)
    (hu : unpackItems c raw 0 = .ok xs) :
    (tot = true → ∃ ds, optMap g.den xs = some ds) ∧
    ∀ ds, optMap g.den xs = some ds → ∃ b, encList g ds = some b ∧ b.length ≤ raw.length + k ∧
      ∃ xs', unpackItems c b 0 = .ok xs' ∧ optMap g.den xs' = some ds := by
  obtain ⟨h1, h2⟩ := unpackItems_stab he h raw _ 0 xs rfl (by simpa using hl) hu
  refine ⟨h1, fun ds hds => ?_⟩
  obtain ⟨b, h3, _, h4, h5, h6⟩ := h2 ds hds
  refine ⟨b, h3, by simpa using h5, h6 b 0 b.length (by simpa using h4) (by simp)⟩

theorem stats_den {cls item room t f body tn fn xs g ds} (ht : numOf t = some tn) (hf : numOf f = some fn)
    (hb : Spec.bodyItems body = some xs) (hg : item tn = some g) (hd : optMap g.den xs = some ds) :
    (Spec.V01.stats cls item room).den (.obj cls [t, f, body]) = some (.record [.num tn, .num fn, .arr ds]) := by
  simp [Spec.V01.stats, ht, hf, hb, hg, hd]

theorem stab_statsRequest : MsgStab statsRequest
    ⟨"01.StatsRequest", 1, 16, "01.Header", Spec.V01.stats "01.StatsRequest" Spec.V01.requestItem Spec.V01.requestRoom⟩
    (fun _ _ => True) (fun _ => True) 16 := by
  have table : ∀ t c, requestClass t = some c → ∃ g tt, Spec.V01.requestItem t = some g ∧ Enc c g ∧ Stab c.unpack g tt true 16 := by
    intro t c h
    unfold requestClass at h
    split at h <;> cases h
    · exact ⟨_, _, rfl, enc_flowStatsRequest, stab_flowStatsRequest.mono (by decide)⟩
    · exact ⟨_, _, rfl, enc_aggregateStatsRequest, stab_aggregateStatsRequest.mono (by decide)⟩
    · exact ⟨_, _, rfl, enc_portStatsRequest, stab_portStatsRequest.mono (by decide)⟩
    · exact ⟨_, _, rfl, enc_queueStatsRequest, stab_queueStatsRequest.mono (by decide)⟩
    · exact ⟨_, _, rfl, enc_vendorStatsRequest, stab_vendorStatsRequest.mono (by decide)⟩
  intro body vs hb hl hu
  have hu : statsRequestUnpack body = .ok vs := hu
  have hu0 := hu
  unfold statsRequestUnpack at hu
  cases h1 : unpackAttrs statsFields body 0 with
  | error e => rw [h1] at hu; cases hu
  | ok p =>
    obtain ⟨us, e⟩ := p
    have hlen := unpackAttrs_len h1
    match us, hlen with
    | [t, f, x], _ =>
      obtain ⟨tn, fn, bb, ht, hf, rfl, hm, rfl, rfl, rfl⟩ := statsFields_read hb h1
      rw [h1] at hu
      simp only [Int.toNat_natCast] at hu
      cases hc : requestClass tn with
      | none =>
        rw [hc] at hu
        simp only at hu
        split at hu
        · rename_i hbb
          have hbb : bb = [] := hbb
          cases hu
          subst hbb
          have hit : Spec.V01.requestItem tn = none := by
            simp only [statsTypes, List.mem_cons, List.not_mem_nil, or_false] at hm
            rcases hm with rfl | rfl | rfl | rfl | rfl | rfl | rfl <;> first | rfl | cases hc
          have hden : (Spec.V01.stats "01.StatsRequest" Spec.V01.requestItem Spec.V01.requestRoom).den
              (.obj "01.StatsRequest" [.enum tn, .ub 2 (.int fn), .list true []]) = some (.record [.num tn, .num fn, .arr []]) := by
            simp [Spec.V01.stats, numOf, Spec.bodyItems, hit]
          refine ⟨fun _ => ⟨_, hden⟩, fun d hd _ => ?_⟩
          rw [hden] at hd
          cases hd
          exact ⟨be 2 tn ++ be 2 fn, by simp [stats_enc_eq, ht, hf, hit], by simp, _, by simpa using hu, hden⟩
        · cases hu
      | some c =>
        rw [hc] at hu
        simp only at hu
        obtain ⟨g, tt, hg, he, hs⟩ := table tn c hc
        rw [show rawBody (.bin (.bytes bb)) = bb from rfl] at hu
        cases h2 : unpackItems c bb 0 with
        | error e => rw [h2] at hu; cases hu
        | ok xs =>
          rw [h2] at hu
          cases hu
          obtain ⟨h3, h4⟩ := items_stab he hs (by simp at hl; omega) h2
          obtain ⟨ds, hds⟩ := h3 rfl
          have hden := stats_den (cls := "01.StatsRequest") (room := Spec.V01.requestRoom) (t := .enum tn) (f := .ub 2 (.int fn))
            (body := .list true xs) (tn := tn) (fn := fn) (by simp [numOf]) (by simp [numOf]) rfl hg hds
          refine ⟨fun _ => ⟨_, hden⟩, fun d hd _ => ?_⟩
          rw [hden] at hd
          cases hd
          obtain ⟨b, h5, h6, xs', h7, h8⟩ := h4 ds hds
          obtain ⟨e', he'⟩ := statsFields_unpack (bb := b) ht hf hm
          refine ⟨be 2 tn ++ be 2 fn ++ b, ?_, by simp; omega, [.enum tn, .ub 2 (.int fn), .list true xs'], ?_, ?_⟩
          · simp [stats_enc_eq, ht, hf, hg, h5]
          · show statsRequestUnpack _ = _
            simp only [statsRequestUnpack, he', Int.toNat_natCast, rawBody, hc, h7]
          · exact stats_den (by simp [numOf]) (by simp [numOf]) rfl hg h8

/-- A `DescStats` whose attributes hold nothing: what an empty body is decoded to. -/
def noDesc : Val := .obj "01.DescStats" [.chr .none 256, .chr .none 256, .chr .none 256, .chr .none 32, .chr .none 256]

theorem desc_reply {fn : Nat} {b : Bytes} {u : Val} (hf : fn < 65536) (h : descStats.unpack b 0 = .ok u) :
    statsReply.unpack (be 2 0 ++ be 2 fn ++ b) = .ok [.enum (0 : Nat), .ub 2 (.int fn), u] := by
  obtain ⟨e', he'⟩ := statsFields_unpack (t := 0) (bb := b) (by decide) hf (by decide)
  rw [show statsReply.unpack = statsReplyUnpack from rfl, statsReplyUnpack, he']
  generalize descStats = c at h ⊢
  simp [rawBody, h]

theorem stab_statsReply : MsgStab statsReply
    ⟨"01.StatsReply", 1, 17, "01.Header", Spec.V01.stats "01.StatsReply" Spec.V01.replyItem Spec.V01.replyRoom⟩
    (fun _ => complete "01.StatsReply") (fun _ => True) 16 := by
  have table : ∀ t c, replyClass t = some c → ∃ g tt tot, Spec.V01.replyItem t = some g ∧ Enc c g ∧ Stab c.unpack g tt tot 16 ∧
      Tot c.unpack g 16 := by
    intro t c h
    unfold replyClass at h
    split at h <;> cases h
    · exact ⟨_, _, false, rfl, enc_flowStats, stab_flowStats.mono (by decide), tot_flowStats.mono (by decide)⟩
    · exact ⟨_, _, true, rfl, enc_aggregateStatsReply, stab_aggregateStatsReply.mono (by decide), stab_aggregateStatsReply.total.mono (by decide)⟩
    · exact ⟨_, _, true, rfl, enc_tableStats, stab_tableStats.mono (by decide), stab_tableStats.total.mono (by decide)⟩
    · exact ⟨_, _, true, rfl, enc_portStats, stab_portStats.mono (by decide), stab_portStats.total.mono (by decide)⟩
    · exact ⟨_, _, true, rfl, enc_queueStats, stab_queueStats.mono (by decide), stab_queueStats.total.mono (by decide)⟩
    · exact ⟨_, _, true, rfl, enc_vendorStats, stab_vendorStats.mono (by decide), stab_vendorStats.total.mono (by decide)⟩
  intro body vs hb hl hu
  have hu : statsReplyUnpack body = .ok vs := hu
  have hu0 := hu
  unfold statsReplyUnpack at hu
  cases h1 : unpackAttrs statsFields body 0 with
  | error e => rw [h1] at hu; cases hu
  | ok p =>
    obtain ⟨us, e⟩ := p
    have hlen := unpackAttrs_len h1
    match us, hlen with
    | [t, f, x], _ =>
      obtain ⟨tn, fn, bb, ht, hf, rfl, hm, rfl, rfl, rfl⟩ := statsFields_read hb h1
      rw [h1] at hu
      simp only [Int.toNat_natCast, rawBody] at hu
      split at hu
      · rename_i h0
        have h0 : tn = 0 := by omega
        subst h0
        cases h2 : descStats.unpack bb 0 with
        | error e => rw [h2] at hu; cases hu
        | ok u =>
          rw [h2] at hu
          cases hu
          by_cases hbb : bb = []
          · subst hbb
            cases (show descStats.unpack [] 0 = .ok noDesc from rfl).symm.trans h2
            refine ⟨fun hT => absurd (hT (by decide)) (by simp [clean, cleanAll, noDesc]), fun d hd _ => ?_⟩
            simp [Spec.V01.stats, numOf, noDesc, Spec.bodyItems, Spec.V01.replyItem, Spec.V01.descStats, optMap, Spec.struct, denAll,
              Spec.text] at hd
          obtain ⟨us, e2, h3, rfl⟩ := objUnpack_ok (cls := "01.DescStats") h2
          obtain ⟨_, h4, h5⟩ := stab_descStats bb 0 _ hbb (by simp at hl ⊢; omega) h2
          obtain ⟨d0, hd0⟩ := h4 rfl
          have hden := stats_den (cls := "01.StatsReply") (room := Spec.V01.replyRoom) (t := .enum (0 : Nat)) (f := .ub 2 (.int fn))
              (body := .obj "01.DescStats" us) (tn := 0) (fn := fn) (item := Spec.V01.replyItem) (g := Spec.V01.descStats)
              (xs := [.obj "01.DescStats" us]) (ds := [d0]) (by simp [numOf]) (by simp [numOf]) rfl rfl (by simp [optMap, hd0])
          refine ⟨fun _ => ⟨_, hden⟩, fun d hd _ => ?_⟩
          rw [hden] at hd
          cases hd
          obtain ⟨b, h6, h7, h8⟩ := h5 d0 hd0
          have hbn : b ≠ [] := fun h => nonEmpty_descStats d0 (h ▸ h6)
          obtain ⟨u', h9, h10, _⟩ := h8 b 0 _ [] (.whole hbn)
          obtain ⟨us', e3, _, rfl⟩ := objUnpack_ok (cls := "01.DescStats") h9
          obtain ⟨e', he'⟩ := statsFields_unpack (bb := b) ht hf hm
          refine ⟨be 2 0 ++ be 2 fn ++ b, ?_, by simp at h7 ⊢; omega, [.enum (0 : Nat), .ub 2 (.int fn), .obj "01.DescStats" us'], ?_, ?_⟩
          · show (Spec.V01.stats _ _ _).enc _ = _
            rw [stats_enc_eq, if_pos ⟨ht, hf⟩, show Spec.V01.replyItem 0 = some Spec.V01.descStats from rfl]
            simp only [encList, h6]
            simp
          · exact desc_reply hf h9
          · exact stats_den (by simp [numOf]) (by simp [numOf]) rfl rfl (by simp [optMap, h10])
      · rename_i h0
        have h0 : tn ≠ 0 := by omega
        cases hc : replyClass tn with
        | none =>
          exfalso
          unfold replyClass at hc
          simp only [statsTypes, List.mem_cons, List.not_mem_nil, or_false] at hm
          rcases hm with rfl | rfl | rfl | rfl | rfl | rfl | rfl <;> first | exact h0 rfl | cases hc
        | some c =>
          rw [hc] at hu
          simp only at hu
          obtain ⟨g, tt, tot, hg, he, hs, htot⟩ := table tn c hc
          cases h2 : unpackItems c bb 0 with
          | error e => rw [h2] at hu; cases hu
          | ok xs =>
            rw [h2] at hu
            cases hu
            obtain ⟨h3, h4⟩ := items_stab he hs (by simp at hl; omega) h2
            have hden : ∀ ds, optMap g.den xs = some ds → _ := fun ds hds => stats_den (cls := "01.StatsReply")
              (room := Spec.V01.replyRoom) (t := .enum tn) (f := .ub 2 (.int fn))
              (body := .list true xs) (tn := tn) (fn := fn) (by simp [numOf]) (by simp [numOf]) rfl hg hds
            refine ⟨fun hT => ?_, fun d hd _ => ?_⟩
            · have hc := hT (by decide)
              simp only [clean, cleanAll, Bool.and_eq_true] at hc
              obtain ⟨ds, hds⟩ := tot_items htot (by simp at hl; omega) h2 hc.1.2.2.1
              exact ⟨_, hden ds hds⟩
            · obtain ⟨_, _, _, tn', fn', xs', ds, hv, ht', hf', hb', rfl, h5, h6⟩ := stats_den_inv hd
              cases hv
              cases ht'
              cases hf'
              cases hb'
              have hds := h5 g hg
              obtain ⟨b, h5, h6, xs', h7, h8⟩ := h4 ds hds
              obtain ⟨e', he'⟩ := statsFields_unpack (bb := b) ht hf hm
              refine ⟨be 2 tn ++ be 2 fn ++ b, ?_, by simp; omega, [.enum tn, .ub 2 (.int fn), .list true xs'], ?_, ?_⟩
              · simp [stats_enc_eq, ht, hf, hg, h5]
              · show statsReplyUnpack _ = _
                simp only [statsReplyUnpack, he', Int.toNat_natCast, rawBody, hc, h7]
                rw [if_neg (by omega)]
              · exact stats_den (by simp [numOf]) (by simp [numOf]) rfl hg h8

/-! ## PacketOut -/

/-- The content has an input port `pack` accepts. -/
def portOk (ok : Nat → Prop) : Data → Prop
  | .record (_ :: .num p :: _) => ok p
  | _ => False

theorem packetOut_unpack {bn pn : Nat} {ab data : Bytes} {xs ds} (hb : bn < 4294967296) (hp : pn < 65536) (hl : ab.length < 65536)
    (hx : unpackItems action ab 0 = .ok xs) (hx2 : optMap Spec.V01.action.den xs = some ds) (hel : encList Spec.V01.action ds = some ab) :
    packetOutUnpack (be 4 bn ++ be 2 pn ++ be 2 ab.length ++ ab ++ data) =
      .ok [.ub 4 (.int bn), .ub 2 (.int pn), .ub 2 (.int ab.length), .list true xs, .bin (.bytes data)] := by
  have e1 := ubUnpack_be (w := 4) .none [] (be 2 pn ++ be 2 ab.length ++ ab ++ data) (n := bn) (by simpa using hb) (off := 0) (by simp)
  have e2 := ubUnpack_be (w := 2) .none (be 4 bn) (be 2 ab.length ++ ab ++ data) (n := pn) (by simpa using hp) (off := 4) (by simp)
  have e3 := ubUnpack_be (w := 2) .none (be 4 bn ++ be 2 pn) (ab ++ data) (n := ab.length) (by simpa using hl) (off := 6) (by simp)
  simp only [List.nil_append, List.append_assoc, refApply] at e1 e2 e3
  have e0 : be 4 bn ++ (be 2 pn ++ (be 2 ab.length ++ (ab ++ data))) = (be 4 bn ++ be 2 pn ++ be 2 ab.length) ++ ab ++ data := by
    simp
  have e4 : slice (be 4 bn ++ (be 2 pn ++ (be 2 ab.length ++ (ab ++ data)))) 8 (8 + ab.length) = ab := by
    rw [e0]
    have := slice_mid (be 4 bn ++ be 2 pn ++ be 2 ab.length) ab data
    simpa using this
  have e5 : (be 4 bn ++ (be 2 pn ++ (be 2 ab.length ++ (ab ++ data)))).drop (8 + ab.length) = data := by
    rw [e0]
    exact List.drop_left' (by simp; omega)
  have hden : Spec.V01.actions.den (.list true xs) = some (.arr ds) := by
    simp [Spec.V01.actions, Spec.list, hx2]
  have hus := enc_actions.usize _ _ ab (by simp) hden hel
  have hact : actions.unpack ab 0 = .ok (.list true xs) := by
    simp [actions, listAttr, hx]
  simp only [packetOutUnpack, List.append_assoc, e1, e2, e3, gotNum, Int.toNat_natCast, e4, hact, hus, binAttr, e5]

theorem stab_packetOut : MsgStab packetOut ⟨"01.PacketOut", 1, 13, "01.Header", Spec.V01.packetOut⟩ (fun _ _ => True)
    (portOk Spec.V01.inPortOk) 6 := by
  intro body vs hb hl hu
  have hu : packetOutUnpack body = .ok vs := hu
  unfold packetOutUnpack at hu
  cases h1 : ubUnpack 4 .none body 0 with
  | error e => rw [h1] at hu; cases hu
  | ok b =>
  rw [h1] at hu
  simp only at hu
  cases h2 : ubUnpack 2 .none body 4 with
  | error e => rw [h2] at hu; cases hu
  | ok p =>
  rw [h2] at hu
  simp only at hu
  cases h3 : ubUnpack 2 .none body 6 with
  | error e => rw [h3] at hu; cases hu
  | ok l =>
  rw [h3] at hu
  simp only at hu
  generalize hsl : slice body 8 (8 + gotNum l) = raw at hu
  have hrl : raw.length = min (8 + gotNum l) body.length - 8 := by rw [← hsl, slice_length]
  cases h4 : actions.unpack raw 0 with
  | error e => rw [h4] at hu; cases hu
  | ok acts =>
  rw [h4] at hu
  simp only at hu
  cases h5 : actions.usize acts with
  | error e => rw [h5] at hu; cases hu
  | ok n =>
  rw [h5] at hu
  simp only [binAttr] at hu
  cases hu
  obtain ⟨bn, hb1, _, hb2, _, hb3, _⟩ := ubUnpack_read h1
  obtain ⟨pn, hp1, _, hp2, _, hp3, _⟩ := ubUnpack_read h2
  obtain ⟨ln, hl1, _, hl2, _, hl3, _⟩ := ubUnpack_read h3
  cases h6 : unpackItems action raw 0 with
  | error e => simp [actions, listAttr, h6] at h4
  | ok xs =>
  have h4' : actions.unpack raw 0 = .ok (.list true xs) := by simp [actions, listAttr, h6]
  cases h4'.symm.trans h4
  obtain ⟨h7, h8⟩ := items_stab enc_action stab_action (raw := raw) (by omega) h6
  obtain ⟨ds, hds⟩ := h7 rfl
  obtain ⟨ab, h9, h10, xs', h11, h12⟩ := h8 ds hds
  have hda : Spec.V01.actions.den (.list true xs) = some (.arr ds) := by simp [Spec.V01.actions, Spec.list, hds]
  have hn : n = ab.length := by
    have := enc_actions.usize _ _ ab (by simp) hda h9
    rw [h5] at this
    exact Except.ok.inj this
  subst hn
  have hden : Spec.V01.packetOut.den (.obj "01.PacketOut" [b, p, l, .list true xs, .bin (.bytes (body.drop (8 + ab.length)))]) =
      some (.record [.num bn, .num pn, .arr ds, .raw (body.drop (8 + ab.length))]) := by
    simp [Spec.V01.packetOut, hb3, hp3, hda, Spec.rest]
  refine ⟨fun _ => ⟨_, hden⟩, fun d hd hP => ?_⟩
  rw [hden] at hd
  cases hd
  have hP : Spec.V01.inPortOk pn := hP
  have ha : Spec.V01.actions.enc (.arr ds) = some ab := h9
  refine ⟨be 4 bn ++ be 2 pn ++ be 2 ab.length ++ ab ++ body.drop (8 + ab.length), ?_, ?_, _,
    packetOut_unpack (by simpa using hb2) (by simpa using hp2) (by omega) h11 h12 h9, ?_⟩
  · have : ab.length < 65536 := by omega
    have hb2 : bn < 4294967296 := by simpa using hb2
    simp only [Spec.V01.packetOut, ha, hb2, hP, this, and_self, if_true]
  · simp
    omega
  · simp [Spec.V01.packetOut, numOf, Spec.V01.actions, Spec.list, h12, Spec.rest]

end V01
end Pyof
