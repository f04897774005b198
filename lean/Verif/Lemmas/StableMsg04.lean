import Verif.Lemmas.StableMsg01
import Verif.Lemmas.StableTot
import Verif.Lemmas.V04Msg
import Verif.Lemmas.V04Multi
import Verif.Lemmas.Errors
/-!
# Decoding arbitrary bytes and encoding the result again: the messages of OpenFlow 1.3
-/
namespace Pyof
open Spec

theorem noEmpty_list {cls n : String} {f : Fmt} (hf : NonEmpty f) : ∀ d, (Spec.struct cls [(n, Spec.list f)]).enc d = some [] →
    (Spec.struct cls [(n, Spec.list f)]).ok d := by
  intro d hd
  obtain ⟨ds, rfl, hd⟩ := struct_enc_inv hd
  obtain ⟨d1, r, x, y, rfl, h1, h, hxy⟩ := encAll_cons_inv hd
  obtain ⟨rfl, rfl⟩ := encAll_nil_inv h
  obtain ⟨es, rfl, h2⟩ := list_enc_inv h1
  cases es with
  | nil => exact ⟨fun x hx => (by cases hx), trivial⟩
  | cons e es =>
    simp only [encList] at h2
    cases h3 : f.enc e with
    | none => rw [h3] at h2; simp at h2
    | some b =>
      cases h4 : encList f es with
      | none => rw [h3, h4] at h2; simp at h2
      | some b' =>
        rw [h3, h4] at h2
        simp only [Option.some.injEq] at h2
        have : b = [] := by
          rw [← h2] at hxy
          simp at hxy
          exact hxy.1
        exact absurd (this ▸ h3) (hf e)

namespace V04

theorem stab_plain {m : MsgCls} {name code fs t k} (h : StabRun m.body fs t true k)
    (hok : MsgOk m (Spec.V04.plain name code fs)) (hm : m = msg name code m.body)
    (hempty : ∀ d, (Spec.struct name fs).enc d = some [] → (Spec.struct name fs).ok d) :
    MsgStab m (Spec.V04.plain name code fs) (fun _ => complete name) (fun _ => True) k :=
  h.msg hok (by rw [hm]; rfl) rfl hempty fun _ _ _ => rfl

/-- A message whose last attribute may have no content. -/
theorem stab_open {m : MsgCls} {name code fs t tot k} (h : StabRun m.body fs t tot k)
    (hok : MsgOk m (Spec.V04.plain name code fs)) (hm : m = msg name code m.body)
    (hempty : ∀ d, (Spec.struct name fs).enc d = some [] → (Spec.struct name fs).ok d) (ho : name ∈ openMsgs)
    (hT : ∀ body vs e, body ≠ [] → body.length + k < 65536 → unpackAttrs m.body body 0 = .ok (vs, e) → cleanAll vs = true →
      sound name vs = true → ∃ ds, denAll fs vs = some ds) :
    MsgStab m (Spec.V04.plain name code fs) (fun _ => complete name) (fun _ => True) k := by
  have hun : m.unpack = fun buff => match unpackAttrs m.body buff 0 with | .ok (vs, _) => .ok vs | .error e => .error e := by rw [hm]; rfl
  intro body vs hb hl hu
  refine ⟨fun hc => ?_, (h.msg (T := fun _ _ => False) hok hun rfl hempty (fun _ _ h => h.elim) body vs hb hl hu).2⟩
  have hc := hc ho
  simp only [clean, Bool.and_eq_true] at hc
  rw [hun] at hu
  simp only at hu
  cases h1 : unpackAttrs m.body body 0 with
  | error e => rw [h1] at hu; cases hu
  | ok p =>
    rw [h1] at hu
    cases hu
    obtain ⟨ds, hds⟩ := hT body p.1 p.2 hb hl h1 hc.1 hc.2
    exact ⟨.record ds, by simp [Spec.V04.plain, Spec.struct, hds]⟩

theorem TotRun.top {cs fs k} (h : TotRun cs fs k) (name : String) : ∀ body vs e, body ≠ [] → body.length + k < 65536 →
    unpackAttrs cs body 0 = .ok (vs, e) → cleanAll vs = true → sound name vs = true → ∃ ds, denAll fs vs = some ds :=
  fun body vs e hb hl hu hc _ => h body 0 vs e hb (by simpa using hl) hu hc

macro "plain_stab4" : tactic => `(tactic| (
  refine stab_plain (t := true) ?_ (by assumption) rfl ?_
  · simp only [msg]
    apply run_of
    · repeat run1
    · rfl
    · decide
  · first
    | exact noEmpty_nil
    | exact noEmpty_rest
    | exact NonEmpty.noEmpty ((nonEmpty_uint 4 none none).struct (List.mem_cons_of_mem _ List.mem_cons_self))
    | exact NonEmpty.noEmpty (by nonempty)))
macro "open_stab4" : tactic => `(tactic| (
  refine stab_open (t := true) (tot := false) ?_ (by assumption) rfl ?_ (by decide) (TotRun.top ?_ _)
  · simp only [msg]
    apply run_part
    · repeat run1
    · decide
  · exact NonEmpty.noEmpty (by nonempty)
  · simp only [msg]
    apply TotRun.mono
    · repeat trun1
    · decide))

theorem stab_plainMsgs : ∀ p ∈ Spec.V04.plainMsgs, ∀ m, lib.find p.2.1 = some m →
    MsgOk m (Spec.V04.plain p.1 p.2.1 p.2.2) → MsgStab m (Spec.V04.plain p.1 p.2.1 p.2.2) (fun _ => complete p.1) (fun _ => True) 32 := by
  simp only [Spec.V04.plainMsgs, List.forall_mem_cons, Spec.V04.switchConfig, Spec.V04.role, Spec.V04.async]
  refine ⟨?_, ?_, ?_, ?_, ?_, ?_, ?_, ?_, ?_, ?_, ?_, ?_, ?_, ?_, ?_, ?_, ?_, ?_, ?_, ?_, ?_, ?_, ?_, ?_, by simp⟩ <;> intro m hm hok <;> cases hm
  · have h : Stab helloElems.unpack (Spec.list Spec.V04.helloElem) true false 0 := stab_list enc_helloElem stab_helloElem
    have h2 : Tot helloElems.unpack (Spec.list Spec.V04.helloElem) 0 := tot_list tot_helloElem
    refine stab_open (t := true) (tot := false) ?_ (by assumption) rfl ?_ (by decide) (TotRun.top ?_ _)
    · simp only [hello, msg]
      apply run_part
      · repeat run1
      · decide
    · exact noEmpty_list nonEmpty_ownLen
    · simp only [hello, msg]
      apply TotRun.mono
      · repeat trun1
      · decide
  · unfold echoRequest at *; plain_stab4
  · unfold echoReply at *; plain_stab4
  · unfold experimenter at *; plain_stab4
  · unfold featuresRequest at *; plain_stab4
  · unfold featuresReply at *; plain_stab4
  · unfold getConfigRequest at *; plain_stab4
  · unfold getConfigReply switchConfigFields at *; plain_stab4
  · unfold setConfig switchConfigFields at *; plain_stab4
  · unfold packetIn at *; plain_stab4
  · unfold flowRemoved at *; plain_stab4
  · unfold portStatus at *; plain_stab4
  · unfold flowMod at *; open_stab4
  · unfold groupMod at *; open_stab4
  · unfold portMod at *; plain_stab4
  · unfold tableMod at *; plain_stab4
  · unfold barrierRequest at *; plain_stab4
  · unfold barrierReply at *; plain_stab4
  · unfold roleRequest roleFields at *; plain_stab4
  · unfold roleReply roleFields at *; plain_stab4
  · unfold getAsyncRequest at *; plain_stab4
  · unfold getAsyncReply asyncFields at *; plain_stab4
  · unfold setAsync asyncFields at *; plain_stab4
  · unfold meterMod at *
    refine stab_open (t := true) (tot := false) ?_ (by assumption) rfl ?_ (by decide) ?_
    · simp only [msg]
      apply run_part
      · repeat run1
      · decide
    · exact NonEmpty.noEmpty (by nonempty)
    · intro body vs e hb hl hu _ hs
      have run : StabRun [("command", ubint 2 (.enum [0, 1, 2])), ("flags", ubint 2 .mask), ("meter_id", ubint 4)]
        [("command", uint 2 (some [0, 1, 2])), ("flags", Spec.V04.u16), ("meter_id", Spec.V04.u32)] true true 0 := by runs
      exact tot_noItems (m := "bands") run hb (by simp; omega) hu (sound_last hs (.inr rfl))

/-! ## ErrorMsg -/

theorem stab_errorMsg : MsgStab errorMsg ⟨"04.ErrorMsg", 4, 1, "04.Header", Spec.V04.errorMsg⟩ (fun _ _ => True) (fun _ => True) 0 := by
  intro body vs _ _ hu
  have hu : errorUnpack body = .ok vs := hu
  obtain ⟨t, c, bb, ht, hc, rfl⟩ := two_words (errorUnpack_ok hu)
  have hu0 := hu
  rw [errorUnpack_bytes ht hc] at hu
  split at hu
  · cases hu
    have hden : Spec.V04.errorMsg.den (.obj "04.ErrorMsg" [.ub 2 (.enum t), .enum c, .bin (.bytes bb)]) =
        some (.record [.num t, .num c, .raw bb]) := by
      simp [Spec.V04.errorMsg, Spec.struct, denAll, Spec.V04.u16, Spec.uint, numOf, Spec.rest]
    refine ⟨fun _ => ⟨_, hden⟩, fun d hd _ => ?_⟩
    rw [hden] at hd
    cases hd
    refine ⟨be 2 t ++ be 2 c ++ bb, ?_, by simp, _, hu0, hden⟩
    simp [Spec.V04.errorMsg, Spec.struct, encAll, Spec.V04.u16, Spec.uint, Spec.rest, ht, hc]
  · split at hu <;> cases hu

/-! ## PacketOut -/

theorem packetOut_unpack {bn pn : Nat} {ab data : Bytes} {xs ds} (hb : bn < 4294967296) (hp : pn < 4294967296) (hl : ab.length < 65536)
    (hx : unpackItems action ab 0 = .ok xs) (hx2 : optMap Spec.V04.action.den xs = some ds) (hel : encList Spec.V04.action ds = some ab) :
    packetOutUnpack (be 4 bn ++ be 4 pn ++ be 2 ab.length ++ [0, 0, 0, 0, 0, 0] ++ ab ++ data) =
      .ok [.ub 4 (.int bn), .ub 4 (.int pn), .ub 2 (.int ab.length), .pad 6, .list true xs, .bin (.bytes data)] := by
  generalize hz : ([0, 0, 0, 0, 0, 0] : Bytes) = z
  have hz : z.length = 6 := by rw [← hz]; rfl
  have e1 := ubUnpack_be (w := 4) .none [] (be 4 pn ++ be 2 ab.length ++ z ++ ab ++ data) (n := bn) (by simpa using hb) (off := 0) (by simp)
  have e2 := ubUnpack_be (w := 4) .none (be 4 bn) (be 2 ab.length ++ z ++ ab ++ data) (n := pn) (by simpa using hp) (off := 4) (by simp)
  have e3 := ubUnpack_be (w := 2) .none (be 4 bn ++ be 4 pn) (z ++ ab ++ data) (n := ab.length) (by simpa using hl) (off := 8) (by simp)
  simp only [List.nil_append, List.append_assoc, refApply] at e1 e2 e3
  have e0 : be 4 bn ++ (be 4 pn ++ (be 2 ab.length ++ (z ++ (ab ++ data)))) = (be 4 bn ++ be 4 pn ++ be 2 ab.length ++ z) ++ ab ++ data := by
    simp
  have e4 : slice (be 4 bn ++ (be 4 pn ++ (be 2 ab.length ++ (z ++ (ab ++ data))))) 16 (16 + ab.length) = ab := by
    rw [e0]
    have := slice_mid (be 4 bn ++ be 4 pn ++ be 2 ab.length ++ z) ab data
    simpa [hz] using this
  have e5 : (be 4 bn ++ (be 4 pn ++ (be 2 ab.length ++ (z ++ (ab ++ data))))).drop (16 + ab.length) = data := by
    rw [e0]
    exact List.drop_left' (by simp; omega)
  have hden : Spec.V04.actions.den (.list true xs) = some (.arr ds) := by
    simp [Spec.V04.actions, Spec.list, hx2]
  have hus := enc_actions.usize _ _ ab (by simp) hden hel
  have hact : actions.unpack ab 0 = .ok (.list true xs) := by
    simp [actions, listAttr, hx]
  simp only [packetOutUnpack, List.append_assoc, e1, e2, e3, gotNum, Int.toNat_natCast, e4, hact, hus, binAttr, e5]

theorem stab_packetOut : MsgStab packetOut ⟨"04.PacketOut", 4, 13, "04.Header", Spec.V04.packetOut⟩ (fun _ => complete "04.PacketOut")
    (V01.portOk Spec.V04.inPortOk) 32 := by
  intro body vs hb hl hu
  have hu : packetOutUnpack body = .ok vs := hu
  unfold packetOutUnpack at hu
  cases h1 : ubUnpack 4 .none body 0 with
  | error e => rw [h1] at hu; cases hu
  | ok b =>
  rw [h1] at hu
  simp only at hu
  cases h2 : ubUnpack 4 .none body 4 with
  | error e => rw [h2] at hu; cases hu
  | ok p =>
  rw [h2] at hu
  simp only at hu
  cases h3 : ubUnpack 2 .none body 8 with
  | error e => rw [h3] at hu; cases hu
  | ok l =>
  rw [h3] at hu
  simp only at hu
  generalize hsl : slice body 16 (16 + gotNum l) = raw at hu
  have hrl : raw.length = min (16 + gotNum l) body.length - 16 := by rw [← hsl, slice_length]
  cases h4 : actions.unpack raw 0 with
  | error e => rw [h4] at hu; cases hu
  | ok acts =>
  rw [h4] at hu
  simp only at hu
  cases h5 : actions.usize acts with
  | error e => rw [h5] at hu; cases hu
  | ok n =>
  rw [h5] at hu
  simp only [binAttr] at hu
  cases hu
  obtain ⟨bn, hb1, _, hb2, _, hb3, _⟩ := ubUnpack_read h1
  obtain ⟨pn, hp1, _, hp2, _, hp3, _⟩ := ubUnpack_read h2
  obtain ⟨ln, hl1, _, hl2, _, hl3, _⟩ := ubUnpack_read h3
  cases h6 : unpackItems action raw 0 with
  | error e => simp [actions, listAttr, h6] at h4
  | ok xs =>
  have h4' : actions.unpack raw 0 = .ok (.list true xs) := by simp [actions, listAttr, h6]
  cases h4'.symm.trans h4
  obtain ⟨h7, h8⟩ := V01.items_stab enc_action stab_action (raw := raw) (by omega) h6
  refine ⟨fun h => ?_, fun d hd hP => ?_⟩
  · have hc := h (by decide)
    simp only [clean, cleanAll, Bool.and_eq_true] at hc
    obtain ⟨ds, hds⟩ := tot_items tot_action (buff := raw) (by omega) h6 hc.1.2.2.2.2.1
    exact ⟨_, by simp only [Spec.V04.packetOut, if_true, hb3, hp3, Spec.V04.actions, Spec.list, hds, Option.map_some, Spec.rest]; rfl⟩
  obtain ⟨b', p', l', pd, acts', data', bn', pn', as, dd, hv, hb4, hp4, ha4, hr4, rfl⟩ := packetOut_den_inv hd
  cases hv
  cases hb3.symm.trans hb4
  cases hp3.symm.trans hp4
  rcases list_den_inv ha4 with ⟨h, _⟩ | ⟨g, xs', ds, h, hds, rfl⟩
  · cases h
  cases h
  simp only [Spec.rest, Option.some.injEq] at hr4
  subst hr4
  obtain ⟨ab, h9, h10, xs', h11, h12⟩ := h8 ds hds
  have hda : Spec.V04.actions.den (.list true xs) = some (.arr ds) := by simp [Spec.V04.actions, Spec.list, hds]
  have hn : n = ab.length := by
    have := enc_actions.usize _ _ ab (by simp) hda h9
    rw [h5] at this
    exact Except.ok.inj this
  subst hn
  have hP : Spec.V04.inPortOk pn := hP
  have ha : Spec.V04.actions.enc (.arr ds) = some ab := h9
  have hb2 : bn < 4294967296 := by simpa using hb2
  have hp2 : pn < 4294967296 := by simpa using hp2
  have hz := packetOut_unpack (data := body.drop (16 + ab.length)) hb2 hp2 (by omega) h11 h12 h9
  refine ⟨be 4 bn ++ be 4 pn ++ be 2 ab.length ++ [0, 0, 0, 0, 0, 0] ++ ab ++ body.drop (16 + ab.length), ?_, ?_, _, (show packetOutUnpack _ = _ from hz), ?_⟩
  · have : ab.length < 65536 := by omega
    simp only [Spec.V04.packetOut, ha, hb2, hP, this, and_self, if_true]
  · simp
    omega
  · simp [Spec.V04.packetOut, numOf, Spec.V04.actions, Spec.list, h12, Spec.rest]

/-! ## MultipartRequest, MultipartReply -/

/-- What an empty body is decoded to has no content. -/
theorem nilNone_obj {cls n m : String} {c : Attr} {cs f fs} (h : f.den c.proto = none) :
    NilNone (objUnpack cls ((n, c) :: cs)) (Spec.struct cls ((m, f) :: fs)) := by
  intro u hu
  obtain ⟨vs, e, h1, rfl⟩ := objUnpack_ok hu
  refine ⟨by simp, ?_⟩
  rw [nil_length _ _ _ _ h1]
  simp [Spec.struct, denAll, h]

/-- The two dictionaries of the code against the table of the specification. -/
def KindStab (simple : Nat → Option Attr) (array : Nat → Option (String × Attr)) (k : Spec.V04.Body) (t : Nat) : Prop :=
  match k with
  | .one g => ∃ a tt, simple t = some a ∧ NonEmpty g ∧ Stab a.unpack g tt true 23 ∧ NilNone a.unpack g ∧ NilDirty a.unpack ∧
      ∀ buff o u, a.unpack buff o = .ok u → ∃ c vs, u = .obj c vs
  | .many g _ => simple t = none ∧ ∃ c a tt tot, array t = some (c, a) ∧ Enc a g ∧ Stab a.unpack g tt tot 23 ∧ Tot a.unpack g 23
  | .opaque => simple t = none ∧ array t = none

theorem gives_obj {cls cs} : ∀ buff o u, objUnpack cls cs buff o = .ok u → ∃ c vs, u = .obj c vs := by
  intro buff o u hu
  obtain ⟨vs, e, _, rfl⟩ := objUnpack_ok hu
  exact ⟨_, _, rfl⟩

theorem kstab_request (t : Nat) : KindStab requestSimple requestArray (Spec.V04.requestBody t) t := by
  unfold Spec.V04.requestBody
  split
  · exact ⟨_, _, rfl, nonEmpty_flowStatsRequest, stab_flowStatsRequest.mono (by decide), nilNone_obj rfl, nilDirty_obj rfl, gives_obj⟩
  · exact ⟨_, _, rfl, nonEmpty_aggregateStatsRequest, stab_aggregateStatsRequest.mono (by decide), nilNone_obj rfl, nilDirty_obj rfl, gives_obj⟩
  · exact ⟨_, _, rfl, nonEmpty_portStatsRequest, stab_portStatsRequest.mono (by decide), nilNone_obj rfl, nilDirty_obj rfl, gives_obj⟩
  · exact ⟨_, _, rfl, nonEmpty_queueStatsRequest, stab_queueStatsRequest.mono (by decide), nilNone_obj rfl, nilDirty_obj rfl, gives_obj⟩
  · exact ⟨_, _, rfl, nonEmpty_groupStatsRequest, stab_groupStatsRequest.mono (by decide), nilNone_obj rfl, nilDirty_obj rfl, gives_obj⟩
  · exact ⟨_, _, rfl, nonEmpty_meterMultipartRequest, stab_meterMultipartRequest.mono (by decide), nilNone_obj rfl, nilDirty_obj rfl, gives_obj⟩
  · exact ⟨rfl, _, _, _, _, rfl, item_tableFeatures.enc, stab_tableFeatures.mono (by decide), tot_tableFeatures.mono (by decide)⟩
  · exact ⟨_, _, rfl, nonEmpty_experimenterMultipart, stab_experimenterMultipart.mono (by decide), nilNone_obj rfl, nilDirty_obj rfl, gives_obj⟩
  · rename_i h1 h2 h3 h4 h5 h6 h7 h8
    constructor
    · unfold requestSimple; split <;> first | rfl | (rename_i h; exact absurd rfl (by assumption))
    · unfold requestArray; split <;> first | rfl | (rename_i h; exact absurd rfl (by assumption))

theorem kstab_reply (t : Nat) : KindStab replySimple replyArray (Spec.V04.replyBody t) t := by
  unfold Spec.V04.replyBody
  split
  · exact ⟨_, _, rfl, nonEmpty_desc, stab_desc.mono (by decide), nilNone_obj rfl, nilDirty_obj rfl, gives_obj⟩
  · exact ⟨rfl, _, _, _, _, rfl, enc_flowStats, stab_flowStats.mono (by decide), tot_flowStats.mono (by decide)⟩
  · exact ⟨rfl, _, _, _, _, rfl, enc_aggregateStatsReply, stab_aggregateStatsReply.mono (by decide), stab_aggregateStatsReply.total.mono (by decide)⟩
  · exact ⟨rfl, _, _, _, _, rfl, enc_tableStats, stab_tableStats.mono (by decide), stab_tableStats.total.mono (by decide)⟩
  · exact ⟨rfl, _, _, _, _, rfl, enc_portStats, stab_portStats.mono (by decide), stab_portStats.total.mono (by decide)⟩
  · exact ⟨rfl, _, _, _, _, rfl, enc_queueStats, stab_queueStats.mono (by decide), stab_queueStats.total.mono (by decide)⟩
  · exact ⟨rfl, _, _, _, _, rfl, enc_groupStats, stab_groupStats.mono (by decide), stab_groupStats.total.mono (by decide)⟩
  · exact ⟨rfl, _, _, _, _, rfl, enc_groupDescStats, stab_groupDescStats.mono (by decide), tot_groupDescStats.mono (by decide)⟩
  · exact ⟨_, _, rfl, nonEmpty_groupFeatures, stab_groupFeatures.mono (by decide), nilNone_obj rfl, nilDirty_obj rfl, gives_obj⟩
  · exact ⟨rfl, _, _, _, _, rfl, item_meterStats.enc, stab_meterStats.mono (by decide), tot_meterStats.mono (by decide)⟩
  · exact ⟨rfl, _, _, _, _, rfl, enc_meterConfig, stab_meterConfig.mono (by decide), tot_meterConfig.mono (by decide)⟩
  · exact ⟨_, _, rfl, nonEmpty_meterFeatures, stab_meterFeatures.mono (by decide), nilNone_obj rfl, nilDirty_obj rfl, gives_obj⟩
  · exact ⟨rfl, _, _, _, _, rfl, item_tableFeatures.enc, stab_tableFeatures.mono (by decide), tot_tableFeatures.mono (by decide)⟩
  · exact ⟨rfl, _, _, _, _, rfl, enc_port, stab_port.mono (by decide), stab_port.total.mono (by decide)⟩
  · exact ⟨_, _, rfl, nonEmpty_experimenterMultipart, stab_experimenterMultipart.mono (by decide), nilNone_obj rfl, nilDirty_obj rfl, gives_obj⟩
  · constructor
    · unfold replySimple; split <;> first | rfl | (rename_i h; exact absurd rfl (by assumption))
    · unfold replyArray; split <;> first | rfl | (rename_i h; exact absurd rfl (by assumption))

/-- The two numbers in front of the body. -/
theorem multipartFields_read {r : Ref} {body : Bytes} {vs : List Val} {e : Nat} (hb : body ≠ [])
    (h : unpackAttrs (multipartFields r) body 0 = .ok (vs, e)) :
    ∃ (tn fn : Nat) (u : Val), 4 ≤ body.length ∧ tn < 65536 ∧ fn < 65536 ∧ tn ∈ multipartTypes ∧ (∀ ms, r.members = some ms → fn ∈ ms) ∧
      numOf u = some fn ∧ vs = [.ub 2 (.enum tn), u, .pad 4, .bin (.bytes (body.drop 8))] := by
  obtain ⟨t, vs, k, rfl, h1, hk, h⟩ := first_attr h hb
  have hk : k = 2 := by simpa [ubint, eq_comm] using hk
  subst hk
  obtain ⟨f, vs, k, rfl, h2, hk, h⟩ := first_attr h hb
  have hk : k = 2 := by simpa [ubint, eq_comm] using hk
  subst hk
  obtain ⟨p, vs, k, rfl, h3, hk, h⟩ := first_attr h hb
  have h3 : Except.ok (Val.pad 4) = Except.ok p := h3
  cases h3
  have hk : k = 4 := by simpa [padAttr, eq_comm] using hk
  subst hk
  obtain ⟨x, vs, k, rfl, h4, hk, h⟩ := first_attr h hb
  have h4 : Except.ok (Val.bin (.bytes (body.drop (0 + 2 + 2 + 4)))) = Except.ok x := h4
  cases h4
  have hvs : vs = [] := by
    have := unpackAttrs_len h
    cases vs with
    | nil => rfl
    | cons _ _ => simp at this
  subst hvs
  have h1 : ubUnpack 2 (.enum multipartTypes) body 0 = .ok t := h1
  have h2 : ubUnpack 2 r body (0 + 2) = .ok f := h2
  obtain ⟨tn, a1, a2, a3, a4, a5, a6, a7, x, a8, rfl⟩ := ubUnpack_read h1
  obtain ⟨fn, b1, b2, b3, b4, b5, b6, b7, _⟩ := ubUnpack_read h2
  have hm : tn ∈ multipartTypes := a6 _ rfl
  simp only [refApply, hm, if_true, Option.some.injEq] at a8
  subst a8
  exact ⟨tn, fn, f, by omega, by simpa using a3, by simpa using b3, hm, b6, b5, rfl⟩

theorem stab_multipart {m : MsgCls} {s : MsgFmt} {simple array kind flags} {r : Ref}
    (hun : m.unpack = multipartUnpack (multipartFields r) simple array)
    (hfmt : s.fmt = Spec.V04.multipart s.name kind flags)
    (hk : ∀ t, KindStab simple array (kind t) t) (ho : s.name ∈ openMsgs) :
    MsgStab m s (fun _ => complete s.name) (fun _ => True) 32 := by
  intro body vs hb hl hu
  rw [hun] at hu ⊢
  rw [hfmt]
  unfold multipartUnpack at hu
  cases h1 : unpackAttrs (multipartFields r) body 0 with
  | error e => rw [h1] at hu; cases hu
  | ok p =>
  obtain ⟨us, e⟩ := p
  obtain ⟨tn, fn, u, h4, ht, hf, hm, hfm, hnu, rfl⟩ := multipartFields_read hb h1
  rw [h1] at hu
  simp only [Int.toNat_natCast] at hu
  rw [show rawBody (.bin (.bytes (body.drop 8))) = body.drop 8 from rfl] at hu
  have hraw : (body.drop 8).length = body.length - 8 := by simp
  generalize hrb : body.drop 8 = raw at hu hraw
  have fin : ∀ (x : Val) (d : Data), (kind tn).den x = some d →
      (Spec.V04.multipart s.name kind flags).den (.obj s.name [.enum tn, u, .pad 4, x]) = some (.record [.num tn, .num fn, d]) := by
    intro x d hd
    simp [Spec.V04.multipart, Spec.V04.fieldNum, hnu, hd]
  have inv : ∀ (x : Val) d, (Spec.V04.multipart s.name kind flags).den (.obj s.name [.enum tn, u, .pad 4, x]) = some d →
      ∃ d', (kind tn).den x = some d' ∧ d = .record [.num tn, .num fn, d'] := by
    intro x d hd
    obtain ⟨t', f', p', body', tn', fn', d', hv, h5, h6, h7, rfl⟩ := multipart_den_inv hd
    cases hv
    cases hnu.symm.trans h6
    have : tn' = tn := by simpa [Spec.V04.fieldNum, eq_comm] using h5
    subst this
    exact ⟨d', h7, rfl⟩
  have enc : ∀ d b, (kind tn).enc d = some b → (Spec.V04.multipart s.name kind flags).enc (.record [.num tn, .num fn, d]) =
      some (be 2 tn ++ be 2 fn ++ [0, 0, 0, 0] ++ b) := by
    intro d b hd
    simp [Spec.V04.multipart, ht, hf, hd]
  -- decoding the new bytes
  have back : ∀ (b : Bytes) (x : Val) (d : Data), (kind tn).den x = some d →
      (∀ (u : Val) (e : Nat), unpackAttrs (multipartFields r) (be 2 tn ++ be 2 fn ++ [0, 0, 0, 0] ++ b) 0 =
        .ok ([.ub 2 (.enum tn), u, .pad 4, .bin (.bytes b)], e) →
        multipartUnpack (multipartFields r) simple array (be 2 tn ++ be 2 fn ++ [0, 0, 0, 0] ++ b) = .ok [.enum tn, u, .pad 4, x]) →
      ∃ vs', multipartUnpack (multipartFields r) simple array (be 2 tn ++ be 2 fn ++ [0, 0, 0, 0] ++ b) = .ok vs' ∧
        (Spec.V04.multipart s.name kind flags).den (.obj s.name vs') = some (.record [.num tn, .num fn, d]) := by
    intro b x d hd hx
    obtain ⟨u', e', h5, h6⟩ := multipartFields_unpack (r := r) (bb := b) ht hf hm hfm
    refine ⟨_, hx u' e' h5, ?_⟩
    simp [Spec.V04.multipart, Spec.V04.fieldNum, h6, hd]
  have hkt := hk tn
  have hTt : ∀ x, complete s.name [.enum tn, u, .pad 4, x] → clean x = true := by
    intro x hx
    have hc := hx ho
    simp only [clean, cleanAll, Bool.and_eq_true] at hc
    exact hc.1.2.2.2.1
  generalize hkk : kind tn = kt at *
  cases kt with
  | one g =>
    obtain ⟨a, tt, h5, hne, hs, hnil, hdirty, hobj⟩ := hkt
    rw [h5] at hu
    simp only at hu
    cases h6 : a.unpack raw 0 with
    | error e => rw [h6] at hu; cases hu
    | ok x =>
    rw [h6] at hu
    cases hu
    obtain ⟨c, ws, rfl⟩ := hobj _ _ _ h6
    by_cases hrn : raw = []
    · subst hrn
      obtain ⟨_, h7⟩ := hnil _ h6
      refine ⟨fun hx => ?_, fun d hd _ => ?_⟩
      · have := hTt _ hx
        rw [hdirty _ h6] at this
        cases this
      · obtain ⟨d', h8, _⟩ := inv _ _ hd
        simp only [Spec.V04.Body.den] at h8
        rw [h7] at h8
        cases h8
    obtain ⟨h7, h8, h9⟩ := hs raw 0 _ hrn (by omega) h6
    refine ⟨fun hx => ?_, fun d hd _ => ?_⟩
    · obtain ⟨d, hd⟩ := h8 rfl
      exact ⟨_, fin _ d hd⟩
    · obtain ⟨d', hd', rfl⟩ := inv _ _ hd
      obtain ⟨b, h10, h11, h12⟩ := h9 d' hd'
      have hbn : b ≠ [] := fun h => hne d' (h ▸ h10)
      obtain ⟨x', h13, h14, _⟩ := h12 b 0 _ [] (.whole hbn)
      obtain ⟨c', ws', rfl⟩ := hobj _ _ _ h13
      refine ⟨_, enc d' b h10, by simp; omega, ?_⟩
      refine back b (.obj c' ws') d' h14 fun u' e' h15 => ?_
      simp only [multipartUnpack, h15, Int.toNat_natCast, h5, rawBody, h13]
  | many g single =>
    obtain ⟨h5, c, a, tt, tot, h6, he, hs, ht'⟩ := hkt
    rw [h5] at hu
    simp only [h6] at hu
    cases h7 : unpackItems a raw 0 with
    | error e => rw [h7] at hu; cases hu
    | ok xs =>
    rw [h7] at hu
    cases hu
    obtain ⟨h8, h9⟩ := V01.items_stab he hs (raw := raw) (by omega) h7
    refine ⟨fun hx => ?_, fun d hd _ => ?_⟩
    · obtain ⟨ds, hds⟩ := tot_items ht' (by omega) h7 (by simpa [clean] using hTt _ hx)
      exact ⟨_, fin _ (.arr ds) (by simp [Spec.V04.Body.den, Spec.V04.arrayItems, bodyItems, hds])⟩
    · obtain ⟨d', hd', rfl⟩ := inv _ _ hd
      simp only [Spec.V04.Body.den, Spec.V04.arrayItems, bodyItems, Option.map_eq_some_iff] at hd'
      obtain ⟨ds, hds, rfl⟩ := hd'
      obtain ⟨b, h10, h11, xs', h13, h14⟩ := h9 ds hds
      refine ⟨_, enc (.arr ds) b h10, by simp; omega, ?_⟩
      refine back b (.list true xs') (.arr ds) (by simp [Spec.V04.Body.den, Spec.V04.arrayItems, bodyItems, h14]) fun u' e' h15 => ?_
      simp only [multipartUnpack, h15, Int.toNat_natCast, h5, h6, rawBody, h13]
  | «opaque» =>
    obtain ⟨h5, h6⟩ := hkt
    rw [h5] at hu
    simp only [h6] at hu
    cases hu
    have hden : ∀ b : Bytes, (Spec.V04.Body.opaque).den (.bin (.bytes b)) = some (.raw b) := fun _ => rfl
    refine ⟨fun _ => ⟨_, fin _ _ (hden raw)⟩, fun d hd _ => ?_⟩
    obtain ⟨d', hd', rfl⟩ := inv _ _ hd
    cases (hden raw).symm.trans hd'
    refine ⟨_, enc (.raw raw) raw rfl, by simp; omega, ?_⟩
    refine back raw (.bin (.bytes raw)) _ (hden raw) fun u' e' h15 => ?_
    simp only [multipartUnpack, h15, Int.toNat_natCast, h5, h6, rawBody]

end V04
end Pyof
