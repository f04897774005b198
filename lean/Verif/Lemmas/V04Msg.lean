import Verif.Lemmas.V04Multi
/-! OpenFlow 1.3: all messages. -/
namespace Pyof.V04
open Spec

/-! ## ErrorMsg -/

theorem errorFields_unpack {t c : Nat} {bb : Bytes} (ht : t < 65536) (hc : c < 65536) (hm : t ∈ errorCodes.map (·.1)) :
    ∃ e, unpackAttrs errorFields (be 2 t ++ be 2 c ++ bb) 0 =
      .ok ([.ub 2 (.enum t), .ub 2 (.int c), .bin (.bytes bb)], e) := by
  have hne : be 2 t ++ be 2 c ++ bb ≠ [] := by simp [be]
  have e1 := ubUnpack_be (w := 2) (.enum (errorCodes.map (·.1))) [] (be 2 c ++ bb) (n := t) (by simpa using ht) (off := 0) (by simp)
  have e2 := ubUnpack_be (w := 2) .none (be 2 t) bb (n := c) (by simpa using hc) (off := 2) (by simp)
  have e3 : (be 2 t ++ (be 2 c ++ bb)).drop 4 = bb := by
    rw [← List.append_assoc]; exact List.drop_left' (by simp)
  simp only [List.nil_append, List.append_assoc, refApply, if_pos hm] at e1 e2 hne ⊢
  exact ⟨_, by
    simp only [errorFields, unpackAttrs, unpackAttr, ubint, hne, e1, e2, e3, binAttr, binSizeRaw, binPackRaw, if_false, Nat.zero_add]
    rfl⟩

theorem impl_error : Impl true [("error_type", ubint 2), ("code", ubint 2), ("data", binAttr)]
    [("error_type", Spec.V04.u16), ("code", Spec.V04.u16), ("data", rest)] := by impl

theorem error_codes {t c : Nat} (h : c < Spec.V04.errorCodes t) :
    t ∈ errorCodes.map (·.1) ∧ ∃ ms, errorCodes.lookup t = some ms ∧ c ∈ ms := by
  unfold Spec.V04.errorCodes at h
  split at h <;> first | (exact ⟨by decide, _, rfl, by simpa using h⟩) | omega

theorem ok_errorMsg : MsgOk errorMsg ⟨"04.ErrorMsg", 4, 1, "04.Header", Spec.V04.errorMsg⟩ where
  name := rfl
  ver := rfl
  code := rfl
  hdr := rfl
  pack := by
    intro v x d hd
    simp only [msgDen] at hd
    split at hd
    · rename_i c hdr vs
      split at hd
      · rename_i hcn
        subst hcn
        split at hd
        · rename_i x' d' hx hd'
          cases hd
          have hd' : (Spec.struct "04.ErrorMsg" [("error_type", Spec.V04.u16), ("code", Spec.V04.u16), ("data", rest)]).den
            (.obj "04.ErrorMsg" vs) = some d := hd'
          obtain ⟨ws, ds, hw, h1, rfl⟩ := struct_den_inv hd'
          cases hw
          have h10 := impl_error.encs _ _ h1
          have h11 : ∀ b, packAttrs errorMsg.body vs = .ok b ↔
              encAll [("error_type", Spec.V04.u16), ("code", Spec.V04.u16), ("data", rest)] ds = some b := by
            intro b
            rw [← h10.1 b]
            obtain ⟨t, r, dt, et, rfl, h2, h3, rfl⟩ := denAll_cons_inv h1
            obtain ⟨c, r2, dc, ec, rfl, h4, h5, rfl⟩ := denAll_cons_inv h3
            obtain ⟨dd, r3, dr, er, rfl, h6, h7, rfl⟩ := denAll_cons_inv h5
            obtain ⟨rfl, rfl⟩ := denAll_nil_inv h7
            rfl
          have h12 : ∀ b, encAll [("error_type", Spec.V04.u16), ("code", Spec.V04.u16), ("data", rest)] ds = some b →
              sizeAttrs errorMsg.body vs = .ok b.length := by
            intro b hb
            rw [← h10.2 b hb]
            obtain ⟨t, r, dt, et, rfl, h2, h3, rfl⟩ := denAll_cons_inv h1
            obtain ⟨c, r2, dc, ec, rfl, h4, h5, rfl⟩ := denAll_cons_inv h3
            obtain ⟨dd, r3, dr, er, rfl, h6, h7, rfl⟩ := denAll_cons_inv h5
            obtain ⟨rfl, rfl⟩ := denAll_nil_inv h7
            rfl
          simp only [MsgCls.pack, show errorMsg.prep vs = .ok vs from rfl]
          exact .generic hx rfl rfl rfl (by decide : 4 < 256) (by decide : 1 < 256) rfl h11 h12
        · cases hd
      · cases hd
    · cases hd
  unpack := by
    intro d body he ho
    have he : (Spec.struct "04.ErrorMsg" [("error_type", Spec.V04.u16), ("code", Spec.V04.u16), ("data", rest)]).enc d =
      some body := he
    obtain ⟨ds, rfl, he⟩ := struct_enc_inv he
    obtain ⟨dt, r, x1, y1, rfl, h2, h3, rfl⟩ := encAll_cons_inv he
    obtain ⟨dc, r2, x2, y2, rfl, h4, h5, rfl⟩ := encAll_cons_inv h3
    obtain ⟨dd, r3, x3, y3, rfl, h6, h7, rfl⟩ := encAll_cons_inv h5
    obtain ⟨rfl, rfl⟩ := encAll_nil_inv h7
    obtain ⟨t, rfl, ht, rfl⟩ := uint_enc_inv h2
    obtain ⟨c, rfl, hc, rfl⟩ := uint_enc_inv h4
    have ho : c < Spec.V04.errorCodes t := ho
    obtain ⟨hm, ms, hl, hcm⟩ := error_codes ho
    obtain ⟨e, hu⟩ := errorFields_unpack (bb := x3) (by simpa using ht) (by simpa using hc) hm
    refine ⟨[.ub 2 (.enum t), .enum c, .bin (.bytes x3)], ?_, ?_⟩
    · simp only [errorMsg, errorUnpack]
      rw [List.append_nil, ← List.append_assoc, hu]
      simp [hl, hcm]
    · cases dd <;> simp [Spec.rest] at h6
      subst h6
      simp [Spec.V04.errorMsg, Spec.struct, denAll, Spec.V04.u16, Spec.uint, numOf, Spec.rest]

/-! ## PacketOut -/

theorem packetOut_den_inv {v d} (h : Spec.V04.packetOut.den v = some d) :
    ∃ b p l pd acts data bn pn as dd, v = .obj "04.PacketOut" [b, p, l, pd, acts, data] ∧ numOf b = some bn ∧ numOf p = some pn ∧
      Spec.V04.actions.den acts = some as ∧ rest.den data = some dd ∧ d = .record [.num bn, .num pn, as, dd] := by
  simp only [Spec.V04.packetOut] at h
  split at h
  · split at h
    · rename_i hc
      subst hc
      split at h
      · cases h
        exact ⟨_, _, _, _, _, _, _, _, _, _, rfl, by assumption, by assumption, by assumption, by assumption, rfl⟩
      · cases h
    · cases h
  · cases h

theorem packetOut_enc_inv {d b} (h : Spec.V04.packetOut.enc d = some b) :
    ∃ bn pn as data ab, d = .record [.num bn, .num pn, as, .raw data] ∧ Spec.V04.actions.enc as = some ab ∧ bn < 4294967296 ∧
      Spec.V04.inPortOk pn ∧ ab.length < 65536 ∧ b = be 4 bn ++ be 4 pn ++ be 2 ab.length ++ [0, 0, 0, 0, 0, 0] ++ ab ++ data := by
  simp only [Spec.V04.packetOut] at h
  split at h
  · split at h
    · split at h
      · rename_i h2
        cases h
        exact ⟨_, _, _, _, _, rfl, by assumption, h2.1, h2.2.1, h2.2.2, rfl⟩
      · cases h
    · cases h
  · cases h

theorem packetOutValid_iff {b p r pn} (h : numOf p = some pn) :
    packetOutValid (b :: p :: r) = .ok () ↔ Spec.V04.inPortOk pn := by
  simp only [packetOutValid, cmpNum_num h, Spec.V04.inPortOk]
  constructor
  · intro h2
    split at h2
    · omega
    · cases h2
  · intro h2
    rw [if_pos (by omega)]

theorem ok_packetOut : MsgOk packetOut ⟨"04.PacketOut", 4, 13, "04.Header", Spec.V04.packetOut⟩ where
  name := rfl
  ver := rfl
  code := rfl
  hdr := rfl
  pack := by
    intro v x d hd
    simp only [msgDen] at hd
    split at hd
    · rename_i c hdr vs
      split at hd
      · rename_i hcn
        subst hcn
        split at hd
        · rename_i x' d' hx hd'
          cases hd
          obtain ⟨b, pt, l, pd, acts, data, bn, pn, as, dd, hw, hb, hp, ha, hdat, rfl⟩ := packetOut_den_inv hd'
          cases hw
          obtain ⟨raw, rfl, _, _⟩ := rest_den_inv hdat
          have hrp : (binAttr).pack data = .ok raw := (enc_rest.pack _ _ hdat raw).mpr rfl
          have hrs : (binAttr).size data = .ok raw.length := enc_rest.size _ _ raw hdat rfl
          have p2 : (256 : Nat) ^ 2 = 65536 := by decide
          have p4 : (256 : Nat) ^ 4 = 4294967296 := by decide
          cases hae : Spec.V04.actions.enc as with
          | none =>
            have hpk : ∀ bb, actions.pack acts ≠ .ok bb := by
              intro bb h
              have := (enc_actions.pack _ _ ha bb).mp h
              rw [hae] at this; cases this
            refine .none (by simp only [Spec.V04.packetOut, hae]) ?_
            simp only [MsgCls.pack, packetOut, packetOutPrep]
            cases hsz : actions.size acts with
            | error e => simp
            | ok n =>
              simp only
              intro p h
              have h0 : ∀ b', packAttrs packetOutFields [b, pt, .int n, pd, acts, data] = .ok b' ↔ (none : Option Bytes) = some b' := by
                intro b'
                simp only [packetOutFields, packAttrs_cons, reduceCtorEq, iff_false]
                rintro ⟨_, _, _, ⟨_, _, _, ⟨_, _, _, ⟨_, _, _, ⟨_, _, h9, _⟩, _⟩, _⟩, _⟩, _⟩
                exact hpk _ h9
              have := (genericPack_spec (m := packetOut) (enc := none) hx (by decide) (by decide) h0 (by simp) p).mp h
              simp at this
          | some ab =>
            have hpk := (enc_actions.pack _ _ ha ab).mpr hae
            have hsz := enc_actions.size _ _ ab ha hae
            simp only [MsgCls.pack, show packetOut.prep = packetOutPrep from rfl, packetOutPrep, hsz]
            have hk : ∀ b', packAttrs packetOutFields [b, pt, .int (ab.length : Nat), pd, acts, data] = .ok b' ↔
                (if bn < 4294967296 ∧ pn < 4294967296 ∧ ab.length < 65536 then
                  some (be 4 bn ++ be 4 pn ++ be 2 ab.length ++ [0, 0, 0, 0, 0, 0] ++ ab ++ raw) else none) = some b' := by
              intro b'
              simp only [packetOutFields, packAttrs_cons, packAttrs_nil, ubint, ubPack_num hb, ubPack_num hp,
                ubPack_num (show numOf (.int (ab.length : Nat)) = some ab.length by simp [numOf]), packNum_ok,
                Int.toNat_natCast, p2, p4, hpk, hrp, padAttr]
              constructor
              · rintro ⟨_, _, ⟨_, h1, rfl⟩, ⟨_, _, ⟨_, h2, rfl⟩, ⟨_, _, ⟨_, h3, rfl⟩, ⟨_, _, h6, ⟨_, _, h4, ⟨_, _, h5, rfl, rfl⟩, rfl⟩, rfl⟩, rfl⟩, rfl⟩, rfl⟩
                cases h4; cases h5; cases h6
                simp [h1, h2, h3, List.replicate]
              · intro h
                split at h
                · rename_i h2
                  cases h
                  exact ⟨_, _, ⟨by omega, h2.1, rfl⟩, ⟨_, _, ⟨by omega, h2.2.1, rfl⟩, ⟨_, _, ⟨by omega, h2.2.2, rfl⟩,
                    ⟨_, _, rfl, ⟨_, _, rfl, ⟨_, _, rfl, rfl, rfl⟩, rfl⟩, rfl⟩, rfl⟩, rfl⟩, by simp [List.replicate]⟩
                · cases h
            have hks : ∀ b', (if bn < 4294967296 ∧ pn < 4294967296 ∧ ab.length < 65536 then
                  some (be 4 bn ++ be 4 pn ++ be 2 ab.length ++ [0, 0, 0, 0, 0, 0] ++ ab ++ raw) else none) = some b' →
                sizeAttrs packetOutFields [b, pt, .int (ab.length : Nat), pd, acts, data] = .ok b'.length := by
              intro b' h
              split at h
              · cases h
                simp [packetOutFields, sizeAttrs, ubint, hsz, hrs, padAttr]
                omega
              · cases h
            refine ⟨fun p => ?_, fun bd h1 hbig => ?_⟩
            rotate_left
            · simp only [Spec.V04.packetOut, hae] at h1
              split at h1
              · rename_i h4
                cases h1
                have h5 : pn < 4294967296 := by have := h4.2.1; unfold Spec.V04.inPortOk at this; omega
                have hv := (packetOutValid_iff (b := b) (r := [.int (ab.length : Nat), pd, acts, data]) hp).mpr h4.2.1
                exact genericPack_refuse (m := packetOut) hx (by decide) (by decide) (hks _ (by rw [if_pos ⟨h4.1, h5, h4.2.2⟩])) hv hbig
              · cases h1
            rw [genericPack_spec (m := packetOut) hx (by decide) (by decide) hk hks]
            rw [show packetOut.valid = packetOutValid from rfl, packetOutValid_iff hp]
            simp only [Spec.V04.packetOut, hae, show packetOut.ver = 4 from rfl, show packetOut.code = 13 from rfl]
            constructor
            · rintro ⟨hin, bd, h1, h2, h3, rfl⟩
              split at h1
              · rename_i h4
                cases h1
                exact ⟨_, by rw [if_pos ⟨h4.1, hin, h4.2.2⟩], h2, h3, rfl⟩
              · cases h1
            · rintro ⟨bd, h1, h2, h3, rfl⟩
              split at h1
              · rename_i h4
                cases h1
                have h5 : pn < 4294967296 := by have := h4.2.1; unfold Spec.V04.inPortOk at this; omega
                exact ⟨h4.2.1, _, by rw [if_pos ⟨h4.1, h5, h4.2.2⟩], h2, h3, rfl⟩
              · cases h1
        · cases hd
      · cases hd
    · cases hd
  unpack := by
    intro d body he ho
    obtain ⟨bn, pn, as, data, ab, rfl, hae, hb, hp, hl, rfl⟩ := packetOut_enc_inv he
    have ho : Spec.V04.actions.ok as := ho
    have hp2 : pn < 4294967296 := by unfold Spec.V04.inPortOk at hp; omega
    have e1 := ubUnpack_be (w := 4) .none [] (be 4 pn ++ be 2 ab.length ++ [0, 0, 0, 0, 0, 0] ++ ab ++ data) (n := bn) (by simpa using hb) (off := 0) (by simp)
    have e2 := ubUnpack_be (w := 4) .none (be 4 bn) (be 2 ab.length ++ [0, 0, 0, 0, 0, 0] ++ ab ++ data) (n := pn) (by simpa using hp2) (off := 4) (by simp)
    have e3 := ubUnpack_be (w := 2) .none (be 4 bn ++ be 4 pn) ([0, 0, 0, 0, 0, 0] ++ ab ++ data) (n := ab.length) (by simpa using hl) (off := 8) (by simp)
    have e4 := slice_mid (be 4 bn ++ be 4 pn ++ be 2 ab.length ++ [0, 0, 0, 0, 0, 0]) ab data
    have e5 : ((be 4 bn ++ be 4 pn ++ be 2 ab.length ++ [0, 0, 0, 0, 0, 0]) ++ ab ++ data).drop (16 + ab.length) = data :=
      List.drop_left' (by simp; omega)
    rw [show (be 4 bn ++ be 4 pn ++ be 2 ab.length ++ [0, 0, 0, 0, 0, 0] : Bytes).length = 16 by simp] at e4
    simp only [List.nil_append, List.append_assoc, refApply] at e1 e2 e3 e4 e5
    obtain ⟨ds, rfl, hel⟩ := list_enc_inv hae
    obtain ⟨xs, hx1, hx2⟩ := unpackItems_dec enc_action dec_action nonEmpty_action ds ab [] hel ho
    have hden : Spec.V04.actions.den (.list true xs) = some (.arr ds) := by
      simp [Spec.V04.actions, Spec.list, hx2]
    have hus := enc_actions.usize _ _ ab (by simp) hden hae
    have hact : actions.unpack ab 0 = .ok (.list true xs) := by
      simp at hx1
      simp [actions, listAttr, hx1]
    refine ⟨[.ub 4 (.int bn), .ub 4 (.int pn), .ub 2 (.int ab.length), .pad 6, .list true xs, .bin (.bytes data)], ?_, ?_⟩
    · simp only [packetOut, packetOutUnpack, List.append_assoc, e1, e2, e3, gotNum, Int.toNat_natCast, e4, hact, hus, binAttr, e5]
    · simp [Spec.V04.packetOut, numOf, hden, Spec.rest]

/-! ## all messages -/

/-- A plain message of the table. -/
theorem ok_plain {m : MsgCls} {name code fs t} (h : Impl t m.body fs) (hm : m = msg name code m.body) (hc : code < 256) :
    MsgOk m (Spec.V04.plain name code fs) := by
  rw [hm] at h ⊢
  exact h.msg rfl rfl rfl rfl (by decide : (4 : Nat) < 256) hc rfl rfl rfl rfl

macro "plain_ok" : tactic => `(tactic| (refine ok_plain (t := true) ?_ rfl (by decide); simp only [msg]; impl))

theorem ok_plainMsgs : ∀ p ∈ Spec.V04.plainMsgs, ∃ m, lib.find p.2.1 = some m ∧ lib.named p.1 = some m ∧
    MsgOk m (Spec.V04.plain p.1 p.2.1 p.2.2) := by
  simp only [Spec.V04.plainMsgs, List.forall_mem_cons, Spec.V04.switchConfig, Spec.V04.role, Spec.V04.async]
  refine ⟨⟨hello, rfl, rfl, ?_⟩, ⟨echoRequest, rfl, rfl, ?_⟩, ⟨echoReply, rfl, rfl, ?_⟩, ⟨experimenter, rfl, rfl, ?_⟩, ⟨featuresRequest, rfl, rfl, ?_⟩, ⟨featuresReply, rfl, rfl, ?_⟩, ⟨getConfigRequest, rfl, rfl, ?_⟩, ⟨getConfigReply, rfl, rfl, ?_⟩, ⟨setConfig, rfl, rfl, ?_⟩, ⟨packetIn, rfl, rfl, ?_⟩, ⟨flowRemoved, rfl, rfl, ?_⟩, ⟨portStatus, rfl, rfl, ?_⟩, ⟨flowMod, rfl, rfl, ?_⟩, ⟨groupMod, rfl, rfl, ?_⟩, ⟨portMod, rfl, rfl, ?_⟩, ⟨tableMod, rfl, rfl, ?_⟩, ⟨barrierRequest, rfl, rfl, ?_⟩, ⟨barrierReply, rfl, rfl, ?_⟩, ⟨roleRequest, rfl, rfl, ?_⟩, ⟨roleReply, rfl, rfl, ?_⟩, ⟨getAsyncRequest, rfl, rfl, ?_⟩, ⟨getAsyncReply, rfl, rfl, ?_⟩, ⟨setAsync, rfl, rfl, ?_⟩, ⟨meterMod, rfl, rfl, ?_⟩, by simp⟩
  · unfold hello; plain_ok
  · unfold echoRequest; plain_ok
  · unfold echoReply; plain_ok
  · unfold experimenter; plain_ok
  · unfold featuresRequest; plain_ok
  · unfold featuresReply; plain_ok
  · unfold getConfigRequest; plain_ok
  · unfold getConfigReply switchConfigFields; plain_ok
  · unfold setConfig switchConfigFields; plain_ok
  · unfold packetIn; plain_ok
  · unfold flowRemoved; plain_ok
  · unfold portStatus; plain_ok
  · unfold flowMod; plain_ok
  · unfold groupMod; plain_ok
  · unfold portMod; plain_ok
  · unfold tableMod; plain_ok
  · unfold barrierRequest; plain_ok
  · unfold barrierReply; plain_ok
  · unfold roleRequest roleFields; plain_ok
  · unfold roleReply roleFields; plain_ok
  · unfold getAsyncRequest; plain_ok
  · unfold getAsyncReply asyncFields; plain_ok
  · unfold setAsync asyncFields; plain_ok
  · unfold meterMod; plain_ok

theorem lib_ok : LibOk lib Spec.V04.messages where
  ver := by
    intro s hs
    simp only [Spec.V04.messages, List.mem_append, List.mem_map] at hs
    rcases hs with ⟨p, hp, rfl⟩ | hs
    · have : ∀ p ∈ Spec.V04.plainMsgs, p.2.1 < 30 := by simp [Spec.V04.plainMsgs]
      have := this p hp
      exact ⟨rfl, by simp [Spec.V04.plain]; omega, by simp [Spec.V04.plain, lib, types]; omega⟩
    · simp only [List.mem_cons, List.not_mem_nil, or_false] at hs
      rcases hs with rfl | rfl | rfl | rfl <;> exact ⟨rfl, by decide, by decide⟩
  cls := by
    intro s hs
    simp only [Spec.V04.messages, List.mem_append, List.mem_map] at hs
    rcases hs with ⟨p, hp, rfl⟩ | hs
    · exact ok_plainMsgs p hp
    · simp only [List.mem_cons, List.not_mem_nil, or_false] at hs
      rcases hs with rfl | rfl | rfl | rfl
      · exact ⟨_, rfl, rfl, ok_errorMsg⟩
      · exact ⟨_, rfl, rfl, ok_packetOut⟩
      · exact ⟨_, rfl, rfl, ok_multipartRequest⟩
      · exact ⟨_, rfl, rfl, ok_multipartReply⟩

end Pyof.V04
