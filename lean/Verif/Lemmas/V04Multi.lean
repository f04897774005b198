import Verif.Lemmas.V04Body
/-! OpenFlow 1.3: multipart messages. -/
namespace Pyof.V04
open Spec

theorem dec_weaken {c f} (h : Dec c f false) (t) : Dec c f t :=
  ⟨fun d b pre post he ho _ hne => h.unpack d b pre post he ho (by simp) hne, h.empty⟩

/-- The two dictionaries of the code against the table of the specification. -/
def KindOk (simple : Nat → Option Attr) (array : Nat → Option (String × Attr)) (k : Spec.V04.Body) (t : Nat) : Prop :=
  match k with
  | .one g => ∃ a name, simple t = some a ∧ StatsItem bodyClasses a g name ∧ Dec a g true
  | .many g single => simple t = none ∧ ∃ a name, array t = some (name, a) ∧ StatsItem bodyClasses a g name ∧
      (if single then Dec a g true else Dec a g false)
  | .opaque => simple t = none ∧ array t = none

theorem kind_request (t : Nat) : KindOk requestSimple requestArray (Spec.V04.requestBody t) t := by
  unfold Spec.V04.requestBody
  split
  · exact ⟨_, _, rfl, item_flowStatsRequest, dec_weaken dec_flowStatsRequest _⟩
  · exact ⟨_, _, rfl, item_aggregateStatsRequest, dec_weaken dec_aggregateStatsRequest _⟩
  · exact ⟨_, _, rfl, item_portStatsRequest, dec_weaken dec_portStatsRequest _⟩
  · exact ⟨_, _, rfl, item_queueStatsRequest, dec_weaken dec_queueStatsRequest _⟩
  · exact ⟨_, _, rfl, item_groupStatsRequest, dec_weaken dec_groupStatsRequest _⟩
  · exact ⟨_, _, rfl, item_meterMultipartRequest, dec_weaken dec_meterMultipartRequest _⟩
  · exact ⟨rfl, _, _, rfl, item_tableFeatures, dec_tableFeatures⟩
  · exact ⟨_, _, rfl, item_experimenterMultipart, dec_weaken dec_experimenterMultipart _⟩
  · refine ⟨?_, ?_⟩
    · unfold requestSimple; split <;> first | rfl | simp_all
    · unfold requestArray; split <;> first | rfl | simp_all

theorem kind_reply (t : Nat) : KindOk replySimple replyArray (Spec.V04.replyBody t) t := by
  unfold Spec.V04.replyBody
  split
  · exact ⟨_, _, rfl, item_desc, dec_weaken dec_desc _⟩
  · exact ⟨rfl, _, _, rfl, item_flowStats, dec_flowStats⟩
  · exact ⟨rfl, _, _, rfl, item_aggregateStatsReply, dec_aggregateStatsReply⟩
  · exact ⟨rfl, _, _, rfl, item_tableStats, dec_tableStats⟩
  · exact ⟨rfl, _, _, rfl, item_portStats, dec_portStats⟩
  · exact ⟨rfl, _, _, rfl, item_queueStats, dec_queueStats⟩
  · exact ⟨rfl, _, _, rfl, item_groupStats, dec_groupStats⟩
  · exact ⟨rfl, _, _, rfl, item_groupDescStats, dec_groupDescStats⟩
  · exact ⟨_, _, rfl, item_groupFeatures, dec_weaken dec_groupFeatures _⟩
  · exact ⟨rfl, _, _, rfl, item_meterStats, dec_meterStats⟩
  · exact ⟨rfl, _, _, rfl, item_meterConfig, dec_meterConfig⟩
  · exact ⟨_, _, rfl, item_meterFeatures, dec_weaken dec_meterFeatures _⟩
  · exact ⟨rfl, _, _, rfl, item_tableFeatures, dec_tableFeatures⟩
  · exact ⟨rfl, _, _, rfl, item_port, dec_port⟩
  · exact ⟨_, _, rfl, item_experimenterMultipart, dec_weaken dec_experimenterMultipart _⟩
  · refine ⟨?_, ?_⟩
    · unfold replySimple; split <;> first | rfl | simp_all
    · unfold replyArray; split <;> first | rfl | simp_all

/-- What `pack` puts into the `body` attribute. -/
def PrepSpec (r : Res (List Val)) (t f p : Val) (e : Option Bytes) : Prop :=
  match e with
  | none => ∃ x, r = .error x
  | some bb => ∃ body', r = .ok [t, f, p, body'] ∧ (binAttr).pack body' = .ok bb ∧ (binAttr).size body' = .ok bb.length

theorem prep_obj {simple array t f p c vs e} (h : ∀ b, selfPack bodyClasses (.obj c vs) = some (.ok b) ↔ e = some b)
    (h0 : (selfPack bodyClasses (.obj c vs)).isSome) :
    PrepSpec (multipartPrep simple array [t, f, p, .obj c vs]) t f p e := by
  cases hs : selfPack bodyClasses (.obj c vs) with
  | none => rw [hs] at h0; cases h0
  | some r =>
    cases r with
    | error x =>
      cases e with
      | none => exact ⟨x, by simp [multipartPrep, pyTrue, hs]⟩
      | some b => have := (h b).mpr rfl; rw [hs] at this; cases this
    | ok b =>
      rw [(h b).mp hs]
      exact ⟨.bytes b, by simp [multipartPrep, pyTrue, hs], rfl, rfl⟩

theorem selfPack_obj {a g name c vs d} (si : StatsItem bodyClasses a g name) (hd : g.den (.obj c vs) = some d) :
    (∀ b, selfPack bodyClasses (.obj c vs) = some (.ok b) ↔ g.enc d = some b) ∧ (selfPack bodyClasses (.obj c vs)).isSome := by
  obtain ⟨ws, hw⟩ := si.inv _ _ hd
  cases hw
  simp only [selfPack, si.lookup]
  exact ⟨fun b => by rw [← si.enc.pack _ _ hd b]; simp, rfl⟩

theorem prep_spec {simple array} {kind : Nat → Spec.V04.Body} (hk : ∀ t, KindOk simple array (kind t) t) {t f p body tn d}
    (ht : Spec.V04.fieldNum t = some tn) (hd : (kind tn).den body = some d) :
    PrepSpec (multipartPrep simple array [t, f, p, body]) t f p ((kind tn).enc d) := by
  have hkey : bodyKey t = .ok (tn : Int) := by rcases fieldNum_inv ht with rfl | rfl <;> rfl
  have := hk tn
  revert this hd
  cases kind tn with
  | one g =>
    intro hd ⟨a, name, h1, si, _⟩
    simp only [Spec.V04.Body.den] at hd
    split at hd
    · obtain ⟨h2, h3⟩ := selfPack_obj si hd
      exact prep_obj h2 h3
    · cases hd
  | many g single =>
    intro hd ⟨h1, a, name, h2, si, _⟩
    simp only [Spec.V04.Body.den] at hd
    split at hd
    · rename_i xs hxs
      cases ho : optMap g.den xs with
      | none => simp [ho] at hd
      | some ds =>
        simp [ho] at hd
        subst hd
        have hlist : ∀ b x ys, xs = x :: ys → PrepSpec (multipartPrep simple array [t, f, p, .list b xs]) t f p (encList g ds) := by
          intro b x ys hx
          have hflat : addItems (isObj name) xs = .ok xs := addItems_flat fun x hx => by
            obtain ⟨d, hd⟩ := optMap_mem ho x hx
            obtain ⟨vs, rfl⟩ := si.inv _ _ hd
            exact ⟨by simp [isObj], by simp⟩
          have hpk := packItems_enc si.enc xs ds ho
          have htr : pyTrue (.list b xs) = true := by rw [hx]; rfl
          have e : multipartPrep simple array [t, f, p, .list b xs] =
              match packItems a xs with
              | .error e => .error e
              | .ok b => .ok [t, f, p, .bytes b] := by
            simp only [multipartPrep, htr, if_true, hkey, Int.toNat_natCast, h1, h2, Option.isNone_none, and_true, Int.natCast_nonneg, hflat]
            cases packItems a xs <;> rfl
          rw [e]
          cases hp : packItems a xs with
          | error e =>
            cases he : encList g ds with
            | none => exact ⟨e, rfl⟩
            | some bb => rw [(hpk bb).mpr he] at hp; cases hp
          | ok bb =>
            rw [(hpk bb).mp hp]
            exact ⟨.bytes bb, rfl, rfl, rfl⟩
        unfold Spec.V04.arrayItems at hxs
        split at hxs
        · cases hxs
          exact hlist false _ _ rfl
        · unfold Spec.bodyItems at hxs
          split at hxs
          · cases hxs
            obtain ⟨d, es, h3, h4, rfl⟩ := optMap_cons_inv ho
            cases h4
            obtain ⟨h5, h6⟩ := selfPack_obj si h3
            have h7 : (Spec.V04.Body.many g single).enc (.arr [d]) = g.enc d := by
              simp only [Spec.V04.Body.enc, Spec.list, encList]
              cases g.enc d <;> simp
            rw [h7]
            exact prep_obj h5 h6
          · cases hxs
            cases xs with
            | nil =>
              cases ho
              exact ⟨.list true [], by simp [multipartPrep, pyTrue], rfl, rfl⟩
            | cons x xs => exact hlist true _ _ rfl
          · cases hxs; cases ho
            exact ⟨.none, by simp [multipartPrep, pyTrue], rfl, rfl⟩
          · cases hxs; cases ho
            exact ⟨.bytes [], by simp [multipartPrep, pyTrue], rfl, rfl⟩
          · cases hxs
    · cases hd
  | «opaque» =>
    intro hd _
    simp only [Spec.V04.Body.den] at hd
    have hd' : rest.den body = some d := by
      split at hd
      · cases hd
      · exact hd
    obtain ⟨raw, rfl, hbp, _⟩ := rest_den_inv hd'
    have hp := (enc_rest.pack _ _ hd' raw).mpr rfl
    have hs := enc_rest.size _ _ raw hd' rfl
    show PrepSpec _ t f p (some raw)
    by_cases htr : pyTrue body = true
    · cases body with
      | bytes b => cases b with
        | nil => simp [pyTrue] at htr
        | cons x xs => simp at hd
      | none => simp [pyTrue] at htr
      | bin x =>
        have : binPackRaw x = .ok raw := by
          cases x <;> simp [Spec.rest] at hd' <;> simpa [binPackRaw] using hbp
        exact ⟨.bytes raw, by simp [multipartPrep, htr, selfPack, this], rfl, rfl⟩
      | foreign b n =>
        have : b = raw := by simp [Spec.rest] at hd'; exact hd'.2
        subst this
        exact ⟨.bytes b, by simp [multipartPrep, htr, selfPack], rfl, rfl⟩
      | _ => simp [Spec.rest] at hd'
    · exact ⟨body, by simp [multipartPrep, htr], hp, hs⟩

theorem multipart_den_inv {cls kind flags v d} (h : (Spec.V04.multipart cls kind flags).den v = some d) :
    ∃ t f p body tn fn x, v = .obj cls [t, f, p, body] ∧ Spec.V04.fieldNum t = some tn ∧ numOf f = some fn ∧
      (kind tn).den body = some x ∧ d = .record [.num tn, .num fn, x] := by
  simp only [Spec.V04.multipart] at h
  split at h
  · split at h
    · rename_i hc
      subst hc
      split at h
      · rename_i tn fn ht hf
        simp only [Option.map_eq_some_iff] at h
        obtain ⟨x, hb, h⟩ := h
        exact ⟨_, _, _, _, tn, fn, x, rfl, ht, hf, hb, h.symm⟩
      · cases h
    · cases h
  · cases h

theorem multipart_enc_inv {cls kind flags d b} (h : (Spec.V04.multipart cls kind flags).enc d = some b) :
    ∃ t f x bb, d = .record [.num t, .num f, x] ∧ t < 65536 ∧ f < 65536 ∧ (kind t).enc x = some bb ∧
      b = be 2 t ++ be 2 f ++ [0, 0, 0, 0] ++ bb := by
  simp only [Spec.V04.multipart] at h
  split at h
  · rename_i t f x
    split at h
    · rename_i hl
      cases hb : (kind t).enc x with
      | none => simp [hb] at h
      | some bb =>
        simp [hb] at h
        exact ⟨t, f, x, bb, rfl, hl.1, hl.2, hb, by simp [← h]⟩
    · cases h
  · cases h

/-- The declaration of both classes, up to the enum of the flags. -/
def multipartFields (r : Ref) : Fields :=
  [("multipart_type", ubint 2 (.enum multipartTypes)), ("flags", ubint 2 r), ("pad", padAttr 4), ("body", binAttr)]

theorem multipartFields_pack {r t f p tn fn body bb} (ht : numOf t = some tn) (hf : numOf f = some fn)
    (hb : (binAttr).pack body = .ok bb) (hs : (binAttr).size body = .ok bb.length) :
    (∀ b, packAttrs (multipartFields r) [t, f, p, body] = .ok b ↔
      (if tn < 65536 ∧ fn < 65536 then some (be 2 tn ++ be 2 fn ++ [0, 0, 0, 0] ++ bb) else none) = some b) ∧
    (∀ b, (if tn < 65536 ∧ fn < 65536 then some (be 2 tn ++ be 2 fn ++ [0, 0, 0, 0] ++ bb) else none) = some b →
      sizeAttrs (multipartFields r) [t, f, p, body] = .ok b.length) := by
  have p2 : (256 : Nat) ^ 2 = 65536 := by decide
  constructor
  · intro b
    simp only [multipartFields, packAttrs_cons, packAttrs_nil, ubint, ubPack_num ht, ubPack_num hf, packNum_ok, Int.toNat_natCast, p2, hb, padAttr]
    constructor
    · rintro ⟨_, _, ⟨_, h1, rfl⟩, ⟨_, _, ⟨_, h2, rfl⟩, ⟨_, _, h4, ⟨_, _, h3, rfl, rfl⟩, rfl⟩, rfl⟩, rfl⟩
      cases h3; cases h4
      simp [h1, h2, List.replicate]
    · intro h
      split at h
      · rename_i h2
        cases h
        exact ⟨_, _, ⟨by omega, h2.1, rfl⟩, ⟨_, _, ⟨by omega, h2.2, rfl⟩, ⟨_, _, rfl, ⟨_, _, rfl, rfl, rfl⟩, rfl⟩, rfl⟩, by simp [List.replicate]⟩
      · cases h
  · intro b h
    split at h
    · cases h
      simp [multipartFields, sizeAttrs, ubint, padAttr, hs]
      omega
    · cases h

theorem multipartFields_unpack {r : Ref} {t f : Nat} {bb : Bytes} (ht : t < 65536) (hf : f < 65536) (hm : t ∈ multipartTypes)
    (hfm : ∀ ms, r.members = some ms → f ∈ ms) :
    ∃ u e, unpackAttrs (multipartFields r) (be 2 t ++ be 2 f ++ [0, 0, 0, 0] ++ bb) 0 =
      .ok ([.ub 2 (.enum t), u, .pad 4, .bin (.bytes bb)], e) ∧ numOf u = some f := by
  have hne : be 2 t ++ be 2 f ++ [0, 0, 0, 0] ++ bb ≠ [] := by simp [be]
  have e1 := ubUnpack_be (w := 2) (.enum multipartTypes) [] (be 2 f ++ [0, 0, 0, 0] ++ bb) (n := t) (by simpa using ht) (off := 0) (by simp)
  have e2 := ubUnpack_be (w := 2) r (be 2 t) ([0, 0, 0, 0] ++ bb) (n := f) (by simpa using hf) (off := 2) (by simp)
  have e3 : (be 2 t ++ (be 2 f ++ ([0, 0, 0, 0] ++ bb))).drop 8 = bb := by
    rw [show be 2 t ++ (be 2 f ++ ([0, 0, 0, 0] ++ bb)) = (be 2 t ++ be 2 f ++ [0, 0, 0, 0]) ++ bb by simp]
    exact List.drop_left' (by simp)
  simp only [List.nil_append, List.append_assoc, refApply, if_pos hm] at e1 e2 hne ⊢
  have e4 : ∃ u, ubUnpack 2 r (be 2 t ++ (be 2 f ++ ([0, 0, 0, 0] ++ bb))) 2 = .ok u ∧ numOf u = some f ∧
      (∃ x, u = .ub 2 x) := by
    rw [e2]
    cases r with
    | none => exact ⟨_, rfl, by simp [numOf], _, rfl⟩
    | mask => exact ⟨_, rfl, by simp [numOf], _, rfl⟩
    | enum ms => exact ⟨.ub 2 (.enum f), by simp [hfm ms rfl], by simp [numOf], _, rfl⟩
  obtain ⟨u, e4, h4, x, rfl⟩ := e4
  generalize hB : be 2 t ++ (be 2 f ++ ([0, 0, 0, 0] ++ bb)) = B at e1 e3 e4 hne ⊢
  exact ⟨.ub 2 x, _, by
    simp only [multipartFields, unpackAttrs, unpackAttr, ubint, hne, e1, e4, e3, binAttr, binSizeRaw, binPackRaw, if_false, Nat.zero_add, padAttr]
    rfl, h4⟩

theorem ok_multipart {m : MsgCls} {s : MsgFmt} {simple array kind flags} {r : Ref} (hname : m.name = s.name)
    (hbody : m.body = multipartFields r) (hr : flags = r.members)
    (hprep : m.prep = multipartPrep simple array) (hun : m.unpack = multipartUnpack (multipartFields r) simple array)
    (hvalid : m.valid = fun _ => .ok ()) (hver : m.ver = s.ver) (hcode : m.code = s.code)
    (hhdr : s.hdr = hdrName s.ver) (hv : s.ver < 256) (hc : s.code < 256)
    (hfmt : s.fmt = Spec.V04.multipart s.name kind flags)
    (hk : ∀ t, KindOk simple array (kind t) t) : MsgOk m s where
  name := hname
  ver := hver
  code := hcode
  hdr := hhdr
  pack := by
    intro v x d hd
    simp only [msgDen] at hd
    split at hd
    · rename_i c hdr vs
      split at hd
      · rename_i hcn
        subst hcn
        split at hd
        · rename_i x' d' hx hd'
          cases hd
          rw [hfmt] at hd'
          obtain ⟨t, f, pd, body, tn, fn, y, hw, ht, hf, hb, rfl⟩ := multipart_den_inv hd'
          cases hw
          have ht' : numOf t = some tn := by rcases fieldNum_inv ht with rfl | rfl <;> simp [numOf]
          simp only [MsgCls.pack, hprep]
          have hp := prep_spec hk (f := f) (p := pd) ht hb
          revert hp
          cases he : (kind tn).enc y with
          | none =>
            rintro ⟨e, hp⟩
            exact .none (by simp [hfmt, Spec.V04.multipart, he]) (by simp [hp])
          | some bb =>
            rintro ⟨body', h1, h2, h3⟩
            rw [h1]
            have h5 := multipartFields_pack (r := r) (p := pd) ht' hf h2 h3
            simp only
            have h4 : (Spec.V04.multipart s.name kind flags).enc (.record [.num tn, .num fn, y]) =
                (if tn < 65536 ∧ fn < 65536 then some (be 2 tn ++ be 2 fn ++ [0, 0, 0, 0] ++ bb) else none) := by
              simp [Spec.V04.multipart, he]
            refine .generic hx hhdr hver hcode hv hc (by rw [hvalid]) ?_ ?_ <;> rw [hbody, hfmt, h4]
            · exact h5.1
            · exact h5.2
        · cases hd
      · cases hd
    · cases hd
  unpack := by
    intro d body he ho
    rw [hfmt] at he ho ⊢
    obtain ⟨t, f, x, bb, rfl, ht, hf, hb, rfl⟩ := multipart_enc_inv he
    obtain ⟨hm, hfl, hok⟩ := ho
    obtain ⟨u, e, hu, hn⟩ := multipartFields_unpack (r := r) (bb := bb) ht hf hm (hr ▸ hfl)
    rw [hun]
    simp only [multipartUnpack, hu, Int.toNat_natCast, rawBody]
    have hkt := hk t
    have hden : ∀ w, (kind t).den w = some x →
        (Spec.V04.multipart s.name kind flags).den (.obj s.name [.enum t, u, .pad 4, w]) = some (.record [.num t, .num f, x]) := by
      intro w hw
      simp [Spec.V04.multipart, Spec.V04.fieldNum, hn, hw]
    revert hkt hden hb hok
    cases kind t with
    | one g =>
      intro hb hok ⟨a, name, h1, si, hd⟩ hden
      have hne : bb ≠ [] := fun h => si.ne x (h ▸ hb)
      obtain ⟨w, h2, h3, _⟩ := hd.unpack x bb [] [] hb hok (by simp) (by simpa using hne)
      obtain ⟨vs, rfl⟩ := si.inv _ _ h3
      simp at h2
      exact ⟨[.enum t, u, .pad 4, .obj name vs], by simp [h1, h2], hden _ (by simpa [Spec.V04.Body.den] using h3)⟩
    | many g single =>
      intro hb hok ⟨h0, a, name, h1, si, hd⟩ hden
      obtain ⟨ds, rfl, hb⟩ := list_enc_inv (f := g) hb
      have : ∃ xs, unpackItems a bb 0 = .ok xs ∧ optMap g.den xs = some ds := by
        cases single with
        | true =>
          rw [if_pos rfl] at hd
          simpa using unpackItems_le_one si.enc hd si.ne [] hb (hok.1 rfl) hok.2
        | false => simpa using unpackItems_dec si.enc hd si.ne ds bb [] hb hok.2
      obtain ⟨xs, h2, h3⟩ := this
      exact ⟨[.enum t, u, .pad 4, .list true xs], by simp [h0, h1, h2],
        hden _ (by simp [Spec.V04.Body.den, Spec.V04.arrayItems, Spec.bodyItems, h3])⟩
    | «opaque» =>
      intro hb hok ⟨h0, h1⟩ hden
      have : x = .raw bb := by cases x <;> simp [Spec.V04.Body.enc, Spec.rest] at hb; rw [hb]
      subst this
      exact ⟨[.enum t, u, .pad 4, .bin (.bytes bb)], by simp [h0, h1],
        hden _ (by simp [Spec.V04.Body.den, Spec.rest])⟩

theorem ok_multipartRequest : MsgOk multipartRequest
    ⟨"04.MultipartRequest", 4, 18, "04.Header", Spec.V04.multipart "04.MultipartRequest" Spec.V04.requestBody (some [0, 1])⟩ :=
  ok_multipart (r := .enum [0, 1]) rfl rfl rfl rfl rfl rfl rfl rfl rfl (by decide) (by decide) rfl kind_request
theorem ok_multipartReply : MsgOk multipartReply
    ⟨"04.MultipartReply", 4, 19, "04.Header", Spec.V04.multipart "04.MultipartReply" Spec.V04.replyBody none⟩ :=
  ok_multipart (r := .none) rfl rfl rfl rfl rfl rfl rfl rfl rfl (by decide) (by decide) rfl kind_reply

end Pyof.V04
