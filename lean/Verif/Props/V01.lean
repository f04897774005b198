import Verif.Props.Messages
import Verif.Props.Struct
import Verif.Lemmas.V01Facts
/-!
# C29, C41: OpenFlow 1.0 actions and statistics
-/
namespace Pyof.Props
open Pyof.Spec

/-! ## C29 actions -/

/-- `xs.map f = ys.map some` says the same as `optMap`. -/
theorem optMap_iff {α β} {f : α → Option β} : ∀ {xs : List α} {ys : List β}, xs.map f = ys.map some ↔ optMap f xs = some ys := by
  intro xs
  induction xs with
  | nil => intro ys; cases ys <;> simp [optMap]
  | cons x xs ih =>
    intro ys
    cases ys with
    | nil =>
      simp only [List.map_cons, List.map_nil, optMap]
      cases f x <;> cases optMap f xs <;> simp
    | cons y ys =>
      simp only [List.map_cons, List.cons.injEq, ih, optMap]
      cases f x <;> cases optMap f xs <;> simp

theorem packItems_parts {it : Attr} : ∀ {xs : List Val} {b : Bytes}, packItems it xs = .ok b ↔
    ∃ parts, Each (fun x part => it.pack x = .ok part) xs parts ∧ b = parts.flatten := by
  intro xs
  induction xs with
  | nil =>
    intro b
    constructor
    · intro h; simp [packItems] at h; exact ⟨[], .nil, by simp [h]⟩
    · rintro ⟨parts, h, rfl⟩; cases h; rfl
  | cons x xs ih =>
    intro b
    simp only [packItems]
    constructor
    · intro h
      split at h
      · cases h
      · rename_i b1 h1
        split at h
        · cases h
        · rename_i b2 h2
          cases h
          obtain ⟨parts, h3, rfl⟩ := ih.mp h2
          exact ⟨b1 :: parts, .cons h1 h3, rfl⟩
    · rintro ⟨parts, h, rfl⟩
      cases h with
      | cons h1 h2 => simp only [h1, ih.mpr ⟨_, h2, rfl⟩]; rfl

/-- C29.  A list of actions packs to the actions' own encodings one after the other. -/
theorem C29_concat {g : Bool} {xs : List Val} {ds : List Data} (hx : xs.map Spec.V01.action.den = ds.map some) (b : Bytes) :
    V01.actions.pack (.list g xs) = .ok b ↔ ∃ parts, Each (fun x part => V01.action.pack x = .ok part) xs parts ∧ b = parts.flatten := by
  rw [← packItems_parts]
  have : addItems (isSub V01.actionSubs) xs = .ok xs := addItems_flat (by
    intro x hx'
    obtain ⟨d, hd⟩ := optMap_mem (optMap_iff.mp hx) x hx'
    exact ⟨V01.itemOk_action.isItem x d hd, (V01.itemOk_action.notList x d hd).1⟩)
  simp only [V01.actions, listAttr, this]

example := (C29_concat (g := true) (xs := [.obj "01.ActionOutput" [.enum 0, .int 8, .int 3, .int 0], .obj "01.ActionStripVlan" [.enum 3, .int 8, .pad 4]])
  (ds := [.tag "01.ActionOutput" (.record [.num 0, .num 8, .num 3, .num 0]), .tag "01.ActionStripVlan" (.record [.num 3, .num 8, .unit])])
  rfl [0, 0, 0, 8, 0, 3, 0, 0, 0, 3, 0, 8, 0, 0, 0, 0]).1 (by decide +kernel)

/-- C29.  A list of actions, each of the class that belongs to its type number, comes back with the same classes and fields
in the same order, wherever it starts.  (The class is part of the content.)  Length attributes need not be right. -/
theorem C29_round_trip {g : Bool} {xs : List Val} {ds : List Data} (hx : xs.map Spec.V01.action.den = ds.map some)
    {b : Bytes} (hb : V01.actions.pack (.list g xs) = .ok b) (pre : Bytes) :
    ∃ ys, V01.actions.unpack (pre ++ b) pre.length = .ok (.list true ys) ∧ ys.map Spec.V01.action.den = ds.map some := by
  have h1 := optMap_iff.mp hx
  have hden : Spec.V01.actions.den (.list g xs) = some (.arr ds) := by simp [Spec.V01.actions, Spec.list, h1]
  have he := (V01.enc_actions.pack _ _ hden b).mp hb
  refine C14_round_trip V01.enc_action V01.dec_action V01.nonEmpty_action V01.itemOk_action xs g ds b pre hx ?_ hb
  replace he : encList Spec.V01.action ds = some b := he
  clear hb hden h1 hx
  revert b
  induction ds with
  | nil => intro b _ d hd; cases hd
  | cons d ds ih =>
    intro b he
    obtain ⟨b1, b2, h2, h3, _⟩ := encList_cons_inv he
    intro d' hd'
    rcases List.mem_cons.mp hd' with rfl | h
    · exact V01.action_ok h2
    · exact ih h3 d' h

example := C29_round_trip (g := true) (xs := [.obj "01.ActionOutput" [.enum 0, .int 8, .int 3, .int 0], .obj "01.ActionStripVlan" [.enum 3, .int 8, .pad 4]])
  (ds := [.tag "01.ActionOutput" (.record [.num 0, .num 8, .num 3, .num 0]), .tag "01.ActionStripVlan" (.record [.num 3, .num 8, .unit])])
  (b := [0, 0, 0, 8, 0, 3, 0, 0, 0, 3, 0, 8, 0, 0, 0, 0]) rfl (by decide +kernel) [9, 9]

/-- C29.  The content names the class: what decodes to a content tagged `c` is an object of class `c` with a type number of
that class. -/
theorem C29_class {v : Val} {c : String} {d : Data} (h : Spec.V01.action.den v = some (.tag c d)) :
    ∃ vs t ds, v = .obj c vs ∧ d = .record (.num t :: ds) ∧ Spec.V01.actionSel t = some c := by
  have h : (union Spec.V01.actionSel Spec.V01.actionLay).den v = some (.tag c d) := h
  obtain ⟨c', vs, t, ds, rfl, h2, h3, h4⟩ := union_den_inv h
  cases h4
  exact ⟨vs, t, ds, rfl, rfl, h3⟩

def exActions01 : List Val :=
  [.obj "01.ActionOutput" [.enum 0, .int 8, .int 2, .int 65535],
   .obj "01.ActionDLAddr" [.enum 5, .int 16, .str "00:00:00:00:01:02".toList, .pad 6],
   .obj "01.ActionEnqueue" [.enum 11, .int 16, .int 3, .pad 6, .int 7]]
example : V01.actions.pack (.list true exActions01) =
    .ok [0, 0, 0, 8, 0, 2, 255, 255, 0, 5, 0, 16, 0, 0, 0, 0, 1, 2, 0, 0, 0, 0, 0, 0, 0, 11, 0, 16, 0, 3, 0, 0, 0, 0, 0, 0, 0, 0, 0, 7] := by
  decide +kernel
example : exActions01.map Spec.V01.action.den =
    [Data.tag "01.ActionOutput" (.record [.num 0, .num 8, .num 2, .num 65535]),
     .tag "01.ActionDLAddr" (.record [.num 5, .num 16, .raw [0, 0, 0, 0, 1, 2], .unit]),
     .tag "01.ActionEnqueue" (.record [.num 11, .num 16, .num 3, .unit, .num 7])].map some := by
  have h : groups ':' 16 1 6
      ['0', '0', ':', '0', '0', ':', '0', '0', ':', '0', '0', ':', '0', '1', ':', '0', '2'] = some [0, 0, 0, 0, 1, 2] := by decide +kernel
  simp [exActions01, Spec.V01.action, union, Spec.V01.actionLay, Spec.V01.actionTail, Spec.V01.actionSel, struct, denAll, uint, numOf, hw, hwRead, h, pad]

/-! ## C41 statistics

`Spec.V01.requestItem` and `Spec.V01.replyItem` name the structure of each statistics type. -/

/-- C41, StatsRequest.  A body that is an object or `FixedTypeList` of objects of the class of `body_type` packs to type, flags and
the objects one after the other … -/
theorem C41_request_pack {hdr t f body : Val} {x tn fn : Nat} {g : Fmt} {xs : List Val} {ds : List Data}
    (hx : hdrDen "01.Header" 1 16 hdr = some x) (ht : numOf t = some tn) (hf : numOf f = some fn)
    (hg : Spec.V01.requestItem tn = some g) (hb : bodyItems body = some xs) (hd : xs.map g.den = ds.map some) (p : Bytes) :
    pyPack libs (.obj "01.StatsRequest" [hdr, t, f, body]) = .ok p ↔
      ∃ bb, encList g ds = some bb ∧ tn < 65536 ∧ fn < 65536 ∧ 12 + bb.length < 65536 ∧ x < 4294967296 ∧
        p = packet 1 16 x (be 2 tn ++ be 2 fn ++ bb) := by
  have hv : msgDen ⟨"01.StatsRequest", 1, 16, "01.Header", Spec.V01.stats "01.StatsRequest" Spec.V01.requestItem Spec.V01.requestRoom⟩
      (.obj "01.StatsRequest" [hdr, t, f, body]) = some (x, .record [.num tn, .num fn, .arr ds]) := by
    simp [msgDen, hx, Spec.V01.stats, ht, hf, hb, hg, optMap_iff.mp hd]
  obtain ⟨m, k⟩ := known_v01 (s := ⟨"01.StatsRequest", 1, 16, "01.Header", Spec.V01.stats "01.StatsRequest" Spec.V01.requestItem Spec.V01.requestRoom⟩) (by simp [Spec.V01.messages])
  rw [(k.pack hv).ok p]
  simp only [Spec.V01.stats, hg]
  constructor
  · rintro ⟨b, h1, h2, h3, rfl⟩
    split at h1
    · rename_i h4
      rw [Option.map_eq_some_iff] at h1
      obtain ⟨bb, h5, rfl⟩ := h1
      simp only [List.length_append, be_length] at h2
      exact ⟨bb, h5, h4.1, h4.2, by omega, h3, rfl⟩
    · cases h1
  · rintro ⟨bb, h1, h2, h3, h4, h5, rfl⟩
    refine ⟨_, by rw [if_pos ⟨h2, h3⟩, h1]; rfl, ?_, h5, rfl⟩
    simp only [List.length_append, be_length]
    omega

/-- … and unpacking the packet gives the same objects in the same order. -/
theorem C41_request_round_trip {hdr t f body : Val} {x tn fn : Nat} {g : Fmt} {xs : List Val} {ds : List Data}
    (hx : hdrDen "01.Header" 1 16 hdr = some x) (ht : numOf t = some tn) (hf : numOf f = some fn)
    (hg : Spec.V01.requestItem tn = some g) (hb : bodyItems body = some xs) (hd : xs.map g.den = ds.map some)
    (hok : ∀ d ∈ ds, g.ok d) (hr : Spec.V01.requestRoom tn ds.length) {p : Bytes}
    (hp : pyPack libs (.obj "01.StatsRequest" [hdr, t, f, body]) = .ok p) :
    ∃ hdr' t' f' body' ys, pyUnpack libs (.bytes p) = .ok (.obj "01.StatsRequest" [hdr', t', f', body']) ∧
      hdrDen "01.Header" 1 16 hdr' = some x ∧ numOf t' = some tn ∧ numOf f' = some fn ∧ bodyItems body' = some ys ∧
      ys.map g.den = ds.map some := by
  have hv : msgDen ⟨"01.StatsRequest", 1, 16, "01.Header", Spec.V01.stats "01.StatsRequest" Spec.V01.requestItem Spec.V01.requestRoom⟩
      (.obj "01.StatsRequest" [hdr, t, f, body]) = some (x, .record [.num tn, .num fn, .arr ds]) := by
    simp [msgDen, hx, Spec.V01.stats, ht, hf, hb, hg, optMap_iff.mp hd]
  have hm : tn ∈ Spec.V01.statsTypes := by
    unfold Spec.V01.requestItem at hg
    split at hg <;> first | (simp [Spec.V01.statsTypes]; done) | cases hg
  obtain ⟨w, h1, h2, _⟩ := C19_round_trip (s := ⟨"01.StatsRequest", 1, 16, "01.Header", Spec.V01.stats "01.StatsRequest" Spec.V01.requestItem Spec.V01.requestRoom⟩) (by simp [Spec.V01.messages]) hv
    ⟨hm, hr, fun g' hg' => by rw [hg] at hg'; cases hg'; exact hok⟩ hp
  obtain ⟨hdr', vs, rfl, h3, h4⟩ := msgDen_inv h2
  obtain ⟨t', f', body', tn', fn', ys, ds', h5, h6, h7, h8, h9, h10, _⟩ := V01.stats_den_inv h4
  cases h5
  cases h9
  exact ⟨hdr', t', f', body', ys, h1, h3, h6, h7, h8, optMap_iff.mpr (h10 g hg)⟩

/-- C41, StatsRequest.  A successful `pack()` leaves `body_type`, `flags` and `body` as they were, whatever they are. -/
theorem C41_request_unchanged {hdr : Val} {vs : List Val} :
    ∃ hdr', pyPost libs (.obj "01.StatsRequest" (hdr :: vs)) = .obj "01.StatsRequest" (hdr' :: vs) := by
  obtain ⟨m, k⟩ := known_v01 (s := ⟨"01.StatsRequest", 1, 16, "01.Header", Spec.V01.stats "01.StatsRequest" Spec.V01.requestItem Spec.V01.requestRoom⟩) (by simp [Spec.V01.messages])
  have : m = V01.statsRequest := Option.some.inj (k.find.symm.trans (rfl : V01.lib.find 16 = some V01.statsRequest))
  subst this
  have := k.pyPost_eq (vs := hdr :: vs)
  rw [this]
  simp only [MsgCls.post, show V01.statsRequest.after = id from rfl, id]
  split
  · exact ⟨_, rfl⟩
  · split
    · exact ⟨_, rfl⟩
    · split <;> exact ⟨_, rfl⟩

/-- C41, StatsReply.  A body that is an object or `FixedTypeList` of objects of the class of `body_type` packs to type, flags and
the objects one after the other … -/
theorem C41_reply_pack {hdr t f body : Val} {x tn fn : Nat} {g : Fmt} {xs : List Val} {ds : List Data}
    (hx : hdrDen "01.Header" 1 17 hdr = some x) (ht : numOf t = some tn) (hf : numOf f = some fn)
    (hg : Spec.V01.replyItem tn = some g) (hb : bodyItems body = some xs) (hd : xs.map g.den = ds.map some) (p : Bytes) :
    pyPack libs (.obj "01.StatsReply" [hdr, t, f, body]) = .ok p ↔
      ∃ bb, encList g ds = some bb ∧ tn < 65536 ∧ fn < 65536 ∧ 12 + bb.length < 65536 ∧ x < 4294967296 ∧
        p = packet 1 17 x (be 2 tn ++ be 2 fn ++ bb) := by
  have hv : msgDen ⟨"01.StatsReply", 1, 17, "01.Header", Spec.V01.stats "01.StatsReply" Spec.V01.replyItem Spec.V01.replyRoom⟩
      (.obj "01.StatsReply" [hdr, t, f, body]) = some (x, .record [.num tn, .num fn, .arr ds]) := by
    simp [msgDen, hx, Spec.V01.stats, ht, hf, hb, hg, optMap_iff.mp hd]
  obtain ⟨m, k⟩ := known_v01 (s := ⟨"01.StatsReply", 1, 17, "01.Header", Spec.V01.stats "01.StatsReply" Spec.V01.replyItem Spec.V01.replyRoom⟩) (by simp [Spec.V01.messages])
  rw [(k.pack hv).ok p]
  simp only [Spec.V01.stats, hg]
  constructor
  · rintro ⟨b, h1, h2, h3, rfl⟩
    split at h1
    · rename_i h4
      rw [Option.map_eq_some_iff] at h1
      obtain ⟨bb, h5, rfl⟩ := h1
      simp only [List.length_append, be_length] at h2
      exact ⟨bb, h5, h4.1, h4.2, by omega, h3, rfl⟩
    · cases h1
  · rintro ⟨bb, h1, h2, h3, h4, h5, rfl⟩
    refine ⟨_, by rw [if_pos ⟨h2, h3⟩, h1]; rfl, ?_, h5, rfl⟩
    simp only [List.length_append, be_length]
    omega

/-- … and unpacking the packet gives the same objects in the same order. -/
theorem C41_reply_round_trip {hdr t f body : Val} {x tn fn : Nat} {g : Fmt} {xs : List Val} {ds : List Data}
    (hx : hdrDen "01.Header" 1 17 hdr = some x) (ht : numOf t = some tn) (hf : numOf f = some fn)
    (hg : Spec.V01.replyItem tn = some g) (hb : bodyItems body = some xs) (hd : xs.map g.den = ds.map some)
    (hok : ∀ d ∈ ds, g.ok d) (hr : Spec.V01.replyRoom tn ds.length) {p : Bytes}
    (hp : pyPack libs (.obj "01.StatsReply" [hdr, t, f, body]) = .ok p) :
    ∃ hdr' t' f' body' ys, pyUnpack libs (.bytes p) = .ok (.obj "01.StatsReply" [hdr', t', f', body']) ∧
      hdrDen "01.Header" 1 17 hdr' = some x ∧ numOf t' = some tn ∧ numOf f' = some fn ∧ bodyItems body' = some ys ∧
      ys.map g.den = ds.map some := by
  have hv : msgDen ⟨"01.StatsReply", 1, 17, "01.Header", Spec.V01.stats "01.StatsReply" Spec.V01.replyItem Spec.V01.replyRoom⟩
      (.obj "01.StatsReply" [hdr, t, f, body]) = some (x, .record [.num tn, .num fn, .arr ds]) := by
    simp [msgDen, hx, Spec.V01.stats, ht, hf, hb, hg, optMap_iff.mp hd]
  have hm : tn ∈ Spec.V01.statsTypes := by
    unfold Spec.V01.replyItem at hg
    split at hg <;> first | (simp [Spec.V01.statsTypes]; done) | cases hg
  obtain ⟨w, h1, h2, _⟩ := C19_round_trip (s := ⟨"01.StatsReply", 1, 17, "01.Header", Spec.V01.stats "01.StatsReply" Spec.V01.replyItem Spec.V01.replyRoom⟩) (by simp [Spec.V01.messages]) hv
    ⟨hm, hr, fun g' hg' => by rw [hg] at hg'; cases hg'; exact hok⟩ hp
  obtain ⟨hdr', vs, rfl, h3, h4⟩ := msgDen_inv h2
  obtain ⟨t', f', body', tn', fn', ys, ds', h5, h6, h7, h8, h9, h10, _⟩ := V01.stats_den_inv h4
  cases h5
  cases h9
  exact ⟨hdr', t', f', body', ys, h1, h3, h6, h7, h8, optMap_iff.mpr (h10 g hg)⟩

/-- C41, StatsReply.  A successful `pack()` leaves `body_type`, `flags` and `body` as they were, whatever they are. -/
theorem C41_reply_unchanged {hdr : Val} {vs : List Val} :
    ∃ hdr', pyPost libs (.obj "01.StatsReply" (hdr :: vs)) = .obj "01.StatsReply" (hdr' :: vs) := by
  obtain ⟨m, k⟩ := known_v01 (s := ⟨"01.StatsReply", 1, 17, "01.Header", Spec.V01.stats "01.StatsReply" Spec.V01.replyItem Spec.V01.replyRoom⟩) (by simp [Spec.V01.messages])
  have : m = V01.statsReply := Option.some.inj (k.find.symm.trans (rfl : V01.lib.find 17 = some V01.statsReply))
  subst this
  have := k.pyPost_eq (vs := hdr :: vs)
  rw [this]
  simp only [MsgCls.post, show V01.statsReply.after = id from rfl, id]
  split
  · exact ⟨_, rfl⟩
  · split
    · exact ⟨_, rfl⟩
    · split <;> exact ⟨_, rfl⟩

/-- `StatsReply(xid=7, body_type=OFPST_QUEUE, flags=0, body=FixedTypeList([QueueStats(…), QueueStats(…)]))` -/
def exStats : Val := .obj "01.StatsReply" [.obj "01.Header" [.ub 1 (.int 1), .enum 17, .none, .int 7], .enum 5, .int 0,
  .list true [.obj "01.QueueStats" [.int 1, .pad 2, .int 2, .int 3, .int 4, .int 5],
    .obj "01.QueueStats" [.int 6, .pad 2, .int 7, .int 8, .int 9, .int 10]]]
example : pyPack libs exStats = .ok ([1, 17, 0, 76, 0, 0, 0, 7, 0, 5, 0, 0] ++
    [0, 1, 0, 0, 0, 0, 0, 2, 0, 0, 0, 0, 0, 0, 0, 3, 0, 0, 0, 0, 0, 0, 0, 4, 0, 0, 0, 0, 0, 0, 0, 5] ++
    [0, 6, 0, 0, 0, 0, 0, 7, 0, 0, 0, 0, 0, 0, 0, 8, 0, 0, 0, 0, 0, 0, 0, 9, 0, 0, 0, 0, 0, 0, 0, 10]) := by decide +kernel
example : Spec.V01.replyItem 5 = some Spec.V01.queueStats ∧ Spec.V01.replyRoom 5 2 := ⟨rfl, by decide, by decide⟩
example : pyPost libs exStats = .obj "01.StatsReply" [.obj "01.Header" [.ub 1 (.int 1), .enum 17, .int 76, .int 7], .enum 5, .int 0,
  .list true [.obj "01.QueueStats" [.int 1, .pad 2, .int 2, .int 3, .int 4, .int 5],
    .obj "01.QueueStats" [.int 6, .pad 2, .int 7, .int 8, .int 9, .int 10]]] := by decide +kernel

/-- C41.  A `pack()` that raises does change the body: with flags that do not fit, the object is replaced by its bytes. -/
theorem C41_failed_pack_counterexample :
    pyPack libs (.obj "01.StatsRequest" [.obj "01.Header" [.ub 1 (.int 1), .enum 16, .none, .int 7], .enum 4, .int 65536,
      .obj "01.PortStatsRequest" [.int 1, .pad 6]]) = .error .pack ∧
    pyRaised libs (.obj "01.StatsRequest" [.obj "01.Header" [.ub 1 (.int 1), .enum 16, .none, .int 7], .enum 4, .int 65536,
      .obj "01.PortStatsRequest" [.int 1, .pad 6]]) =
    .obj "01.StatsRequest" [.obj "01.Header" [.ub 1 (.int 1), .enum 16, .int 20, .int 7], .enum 4, .int 65536,
      .bytes [0, 1, 0, 0, 0, 0, 0, 0]] := by decide +kernel

example (p : Bytes) := C41_request_pack (hdr := .obj "01.Header" [.ub 1 (.int 1), .enum 16, .none, .int 7]) (t := .enum 4) (f := .int 0)
  (body := .obj "01.PortStatsRequest" [.int 1, .pad 6]) (ds := [.record [.num 1, .unit]]) (x := 7) (tn := 4) (fn := 0) rfl rfl rfl rfl rfl rfl p
example := C41_request_round_trip (hdr := .obj "01.Header" [.ub 1 (.int 1), .enum 16, .none, .int 7]) (t := .enum 4) (f := .int 0)
  (body := .obj "01.PortStatsRequest" [.int 1, .pad 6]) (ds := [.record [.num 1, .unit]]) (x := 7) (tn := 4) (fn := 0) rfl rfl rfl rfl rfl rfl
  (by simp only [List.mem_singleton]; rintro _ rfl; show_ok) (by intro h; cases h) (p := [1, 16, 0, 20, 0, 0, 0, 7, 0, 4, 0, 0, 0, 1, 0, 0, 0, 0, 0, 0]) (by decide +kernel)
example (p : Bytes) := C41_reply_pack (hdr := .obj "01.Header" [.ub 1 (.int 1), .enum 17, .none, .int 7]) (t := .enum 5) (f := .int 0)
  (body := .list true [.obj "01.QueueStats" [.int 1, .pad 2, .int 2, .int 3, .int 4, .int 5]])
  (ds := [.record [.num 1, .unit, .num 2, .num 3, .num 4, .num 5]]) (x := 7) (tn := 5) (fn := 0) rfl rfl rfl rfl rfl rfl p
example {p : Bytes} (hp : pyPack libs exStats = .ok p) := C41_reply_round_trip (x := 7) (tn := 5) (fn := 0)
  (ds := [.record [.num 1, .unit, .num 2, .num 3, .num 4, .num 5], .record [.num 6, .unit, .num 7, .num 8, .num 9, .num 10]]) rfl rfl rfl rfl rfl rfl
  (by simp only [List.mem_cons, List.not_mem_nil, or_false]; rintro _ (rfl | rfl) <;> show_ok) ⟨by decide, by decide⟩ hp



end Pyof.Props
