import Verif.Props.Messages
import Verif.Props.V01
import Verif.Lemmas.KeepsV04
/-!
# C42, C51, C52, C53: multipart bodies, length-delimited structures, packing leaves contents alone
-/
namespace Pyof.Props
open Pyof.Spec

/-! ## C53 packing leaves the content unchanged -/

/-- C53.  A successful `pack()` changes only computed lengths: the content of the message is afterwards what it was before. -/
theorem C53_content_kept {s : MsgFmt} (hs : s ∈ messages) {v : Val} {x : Nat} {d : Data} (hv : msgDen s v = some (x, d)) :
    msgDen s (pyPost libs v) = some (x, d) := msgDen_post hs hv

example : ∃ s ∈ messages, ∃ d, msgDen s exFlowMod04 = some (9, d) ∧ pyPost libs exFlowMod04 ≠ exFlowMod04 :=
  ⟨V04.messages[12]'(by decide +kernel), List.mem_append.mpr (.inr (List.getElem_mem _)), _, rfl, by decide +kernel⟩

/-! ## C42 multipart messages

`Spec.V04.requestBody` and `Spec.V04.replyBody` say for every multipart type whether its body is one structure (and
which), an array of structures, or uninterpreted. -/

private theorem multipart_pack {s : MsgFmt} (hs : s ∈ V04.messages) {kind flags} (hf : s.fmt = Spec.V04.multipart s.name kind flags)
    {hdr t f pd body : Val} {x tn fn : Nat} {d : Data} (hx : hdrDen s.hdr s.ver s.code hdr = some x)
    (ht : Spec.V04.fieldNum t = some tn) (hfl : numOf f = some fn) (hb : (kind tn).den body = some d) (p : Bytes) :
    pyPack libs (.obj s.name [hdr, t, f, pd, body]) = .ok p ↔
      ∃ bb, (kind tn).enc d = some bb ∧ tn < 65536 ∧ fn < 65536 ∧ 16 + bb.length < 65536 ∧ x < 4294967296 ∧
        p = packet s.ver s.code x (be 2 tn ++ be 2 fn ++ [0, 0, 0, 0] ++ bb) := by
  have hv : msgDen s (.obj s.name [hdr, t, f, pd, body]) = some (x, .record [.num tn, .num fn, d]) := by
    simp [msgDen, hx, hf, Spec.V04.multipart, ht, hfl, hb]
  obtain ⟨m, k⟩ := known_v04 hs
  rw [(k.pack hv).ok p, hf]
  simp only [Spec.V04.multipart]
  constructor
  · rintro ⟨b, h1, h2, h3, rfl⟩
    split at h1
    · rename_i h4
      rw [Option.map_eq_some_iff] at h1
      obtain ⟨bb, h5, rfl⟩ := h1
      simp only [List.length_append, be_length, List.length_cons, List.length_nil] at h2
      exact ⟨bb, h5, h4.1, h4.2, by omega, h3, rfl⟩
    · cases h1
  · rintro ⟨bb, h1, h2, h3, h4, h5, rfl⟩
    refine ⟨_, by rw [if_pos ⟨h2, h3⟩, h1]; rfl, ?_, h5, rfl⟩
    simp only [List.length_append, be_length, List.length_cons, List.length_nil]
    omega

private theorem multipart_round_trip {s : MsgFmt} (hs : s ∈ V04.messages) {kind flags} (hf : s.fmt = Spec.V04.multipart s.name kind flags)
    {hdr t f pd body : Val} {x tn fn : Nat} {d : Data} (hx : hdrDen s.hdr s.ver s.code hdr = some x)
    (ht : Spec.V04.fieldNum t = some tn) (hfl : numOf f = some fn) (hb : (kind tn).den body = some d)
    (hm : tn ∈ Spec.V04.multipartTypes) (hfm : ∀ ms, flags = some ms → fn ∈ ms) (hok : (kind tn).ok d) {p : Bytes}
    (hp : pyPack libs (.obj s.name [hdr, t, f, pd, body]) = .ok p) :
    ∃ hdr' t' f' pd' body', pyUnpack libs (.bytes p) = .ok (.obj s.name [hdr', t', f', pd', body']) ∧
      hdrDen s.hdr s.ver s.code hdr' = some x ∧ Spec.V04.fieldNum t' = some tn ∧ numOf f' = some fn ∧ (kind tn).den body' = some d := by
  have hv : msgDen s (.obj s.name [hdr, t, f, pd, body]) = some (x, .record [.num tn, .num fn, d]) := by
    simp [msgDen, hx, hf, Spec.V04.multipart, ht, hfl, hb]
  obtain ⟨w, h1, h2, _⟩ := C20_round_trip hs hv (by rw [hf]; exact ⟨hm, hfm, hok⟩) hp
  obtain ⟨hdr', vs, rfl, h3, h4⟩ := msgDen_inv h2
  rw [hf] at h4
  obtain ⟨t', f', pd', body', tn', fn', d', h5, h6, h7, h8, h9⟩ := V04.multipart_den_inv h4
  cases h5
  cases h9
  exact ⟨hdr', t', f', pd', body', h1, h3, h6, h7, h8⟩

private theorem multipart_unchanged {s : MsgFmt} (hs : s ∈ V04.messages) {kind flags} (hf : s.fmt = Spec.V04.multipart s.name kind flags)
    {hdr t f pd body : Val} {x tn fn : Nat} {d : Data} (hx : hdrDen s.hdr s.ver s.code hdr = some x)
    (ht : Spec.V04.fieldNum t = some tn) (hfl : numOf f = some fn) (hb : (kind tn).den body = some d) :
    ∃ hdr' t' f' pd' body', pyPost libs (.obj s.name [hdr, t, f, pd, body]) = .obj s.name [hdr', t', f', pd', body'] ∧
      hdrDen s.hdr s.ver s.code hdr' = some x ∧ Spec.V04.fieldNum t' = some tn ∧ numOf f' = some fn ∧ (kind tn).den body' = some d := by
  have hv : msgDen s (.obj s.name [hdr, t, f, pd, body]) = some (x, .record [.num tn, .num fn, d]) := by
    simp [msgDen, hx, hf, Spec.V04.multipart, ht, hfl, hb]
  have h2 := msgDen_post (List.mem_append.mpr (.inr hs)) hv
  obtain ⟨hdr', vs, he, h3, h4⟩ := msgDen_inv h2
  rw [hf] at h4
  obtain ⟨t', f', pd', body', tn', fn', d', h5, h6, h7, h8, h9⟩ := V04.multipart_den_inv h4
  cases h5
  cases h9
  exact ⟨hdr', t', f', pd', body', he, h3, h6, h7, h8⟩

private def requestMsg : MsgFmt :=
  ⟨"04.MultipartRequest", 4, 18, "04.Header", Spec.V04.multipart "04.MultipartRequest" Spec.V04.requestBody (some [0, 1])⟩
private def replyMsg : MsgFmt :=
  ⟨"04.MultipartReply", 4, 19, "04.Header", Spec.V04.multipart "04.MultipartReply" Spec.V04.replyBody none⟩
private theorem requestMsg_mem : requestMsg ∈ V04.messages := by simp [V04.messages, requestMsg]
private theorem replyMsg_mem : replyMsg ∈ V04.messages := by simp [V04.messages, replyMsg]

/-- C42, MultipartRequest.  A body of the kind that belongs to the type packs to type, flags, four zeros and the encoding of the
body … -/
theorem C42_request_pack {hdr t f pd body : Val} {x tn fn : Nat} {d : Data} (hx : hdrDen "04.Header" 4 18 hdr = some x)
    (ht : Spec.V04.fieldNum t = some tn) (hf : numOf f = some fn) (hb : (Spec.V04.requestBody tn).den body = some d) (p : Bytes) :
    pyPack libs (.obj "04.MultipartRequest" [hdr, t, f, pd, body]) = .ok p ↔
      ∃ bb, (Spec.V04.requestBody tn).enc d = some bb ∧ tn < 65536 ∧ fn < 65536 ∧ 16 + bb.length < 65536 ∧ x < 4294967296 ∧
        p = packet 4 18 x (be 2 tn ++ be 2 fn ++ [0, 0, 0, 0] ++ bb) :=
  multipart_pack requestMsg_mem rfl hx ht hf hb p

/-- … unpacking the packet gives the same body … -/
theorem C42_request_round_trip {hdr t f pd body : Val} {x tn fn : Nat} {d : Data} (hx : hdrDen "04.Header" 4 18 hdr = some x)
    (ht : Spec.V04.fieldNum t = some tn) (hf : numOf f = some fn) (hb : (Spec.V04.requestBody tn).den body = some d)
    (hm : tn ∈ Spec.V04.multipartTypes) (hfm : fn < 2) (hok : (Spec.V04.requestBody tn).ok d) {p : Bytes}
    (hp : pyPack libs (.obj "04.MultipartRequest" [hdr, t, f, pd, body]) = .ok p) :
    ∃ hdr' t' f' pd' body', pyUnpack libs (.bytes p) = .ok (.obj "04.MultipartRequest" [hdr', t', f', pd', body']) ∧
      hdrDen "04.Header" 4 18 hdr' = some x ∧ Spec.V04.fieldNum t' = some tn ∧ numOf f' = some fn ∧
      (Spec.V04.requestBody tn).den body' = some d :=
  multipart_round_trip requestMsg_mem rfl hx ht hf hb hm (fun ms h => by cases h; simp; omega) hok hp

/-- … and the body in memory has the content it had before `pack()`. -/
theorem C42_request_unchanged {hdr t f pd body : Val} {x tn fn : Nat} {d : Data} (hx : hdrDen "04.Header" 4 18 hdr = some x)
    (ht : Spec.V04.fieldNum t = some tn) (hf : numOf f = some fn) (hb : (Spec.V04.requestBody tn).den body = some d) :
    ∃ hdr' t' f' pd' body', pyPost libs (.obj "04.MultipartRequest" [hdr, t, f, pd, body]) =
        .obj "04.MultipartRequest" [hdr', t', f', pd', body'] ∧
      hdrDen "04.Header" 4 18 hdr' = some x ∧ Spec.V04.fieldNum t' = some tn ∧ numOf f' = some fn ∧
      (Spec.V04.requestBody tn).den body' = some d :=
  multipart_unchanged requestMsg_mem rfl hx ht hf hb

/-- C42, MultipartReply. -/
theorem C42_reply_pack {hdr t f pd body : Val} {x tn fn : Nat} {d : Data} (hx : hdrDen "04.Header" 4 19 hdr = some x)
    (ht : Spec.V04.fieldNum t = some tn) (hf : numOf f = some fn) (hb : (Spec.V04.replyBody tn).den body = some d) (p : Bytes) :
    pyPack libs (.obj "04.MultipartReply" [hdr, t, f, pd, body]) = .ok p ↔
      ∃ bb, (Spec.V04.replyBody tn).enc d = some bb ∧ tn < 65536 ∧ fn < 65536 ∧ 16 + bb.length < 65536 ∧ x < 4294967296 ∧
        p = packet 4 19 x (be 2 tn ++ be 2 fn ++ [0, 0, 0, 0] ++ bb) :=
  multipart_pack replyMsg_mem rfl hx ht hf hb p

theorem C42_reply_round_trip {hdr t f pd body : Val} {x tn fn : Nat} {d : Data} (hx : hdrDen "04.Header" 4 19 hdr = some x)
    (ht : Spec.V04.fieldNum t = some tn) (hf : numOf f = some fn) (hb : (Spec.V04.replyBody tn).den body = some d)
    (hm : tn ∈ Spec.V04.multipartTypes) (hok : (Spec.V04.replyBody tn).ok d) {p : Bytes}
    (hp : pyPack libs (.obj "04.MultipartReply" [hdr, t, f, pd, body]) = .ok p) :
    ∃ hdr' t' f' pd' body', pyUnpack libs (.bytes p) = .ok (.obj "04.MultipartReply" [hdr', t', f', pd', body']) ∧
      hdrDen "04.Header" 4 19 hdr' = some x ∧ Spec.V04.fieldNum t' = some tn ∧ numOf f' = some fn ∧
      (Spec.V04.replyBody tn).den body' = some d :=
  multipart_round_trip replyMsg_mem rfl hx ht hf hb hm (fun ms h => by cases h) hok hp

theorem C42_reply_unchanged {hdr t f pd body : Val} {x tn fn : Nat} {d : Data} (hx : hdrDen "04.Header" 4 19 hdr = some x)
    (ht : Spec.V04.fieldNum t = some tn) (hf : numOf f = some fn) (hb : (Spec.V04.replyBody tn).den body = some d) :
    ∃ hdr' t' f' pd' body', pyPost libs (.obj "04.MultipartReply" [hdr, t, f, pd, body]) =
        .obj "04.MultipartReply" [hdr', t', f', pd', body'] ∧
      hdrDen "04.Header" 4 19 hdr' = some x ∧ Spec.V04.fieldNum t' = some tn ∧ numOf f' = some fn ∧
      (Spec.V04.replyBody tn).den body' = some d :=
  multipart_unchanged replyMsg_mem rfl hx ht hf hb

def exHeader04 (code : Int) : Val := .obj "04.Header" [.ub 1 (.int 4), .enum code, .none, .int 7]

/-- Two meter statistics, the first with one band, the second with none. -/
def exMeters : Val := .list true
  [.obj "04.MeterStats" [.int 1, .none, .pad 6, .int 2, .int 3, .int 4, .int 5, .int 6,
     .list true [.obj "04.BandStats" [.int 7, .int 8]]],
   .obj "04.MeterStats" [.int 9, .none, .pad 6, .int 10, .int 11, .int 12, .int 13, .int 14, .list true []]]
example : hdrDen "04.Header" 4 19 (exHeader04 19) = some 7 ∧ Spec.V04.fieldNum (.enum 9) = some 9 ∧
    (Spec.V04.replyBody 9).den exMeters = some (.arr
      [.record [.num 1, .unit, .num 2, .num 3, .num 4, .num 5, .num 6, .arr [.record [.num 7, .num 8]]],
       .record [.num 9, .unit, .num 10, .num 11, .num 12, .num 13, .num 14, .arr []]]) ∧
    (pyPack libs (.obj "04.MultipartReply" [exHeader04 19, .enum 9, .int 0, .pad 4, exMeters])).isOk = true ∧
    9 ∈ Spec.V04.multipartTypes := by
  refine ⟨by decide +kernel, by decide +kernel, rfl, by decide +kernel, by decide⟩
example : pyPost libs (.obj "04.MultipartReply" [exHeader04 19, .enum 9, .int 0, .pad 4, exMeters]) =
    .obj "04.MultipartReply" [.obj "04.Header" [.ub 1 (.int 4), .enum 19, .int 112, .int 7], .enum 9, .int 0, .pad 4, .list true
      [.obj "04.MeterStats" [.int 1, .int 56, .pad 6, .int 2, .int 3, .int 4, .int 5, .int 6,
         .list true [.obj "04.BandStats" [.int 7, .int 8]]],
       .obj "04.MeterStats" [.int 9, .int 40, .pad 6, .int 10, .int 11, .int 12, .int 13, .int 14, .list true []]]] := by decide +kernel

/-- C42.  A `pack()` that raises does not restore the body: the list is replaced by its bytes, and the next `pack()` fails with
another exception. -/
theorem C42_failed_pack_counterexample :
    pyPack libs (.obj "04.MultipartReply" [exHeader04 19, .enum 9, .int 65536, .pad 4, exMeters]) = .error .pack ∧
    pyPack libs (pyRaised libs (.obj "04.MultipartReply" [exHeader04 19, .enum 9, .int 65536, .pad 4, exMeters])) =
      .error .unboundLocal := by decide +kernel

example (p : Bytes) := C42_request_pack (hdr := exHeader04 18) (t := .enum 9) (f := .int 0) (pd := .pad 4)
  (body := .obj "04.MeterMultipartRequest" [.int 5, .pad 4]) (d := .record [.num 5, .unit]) (x := 7) (tn := 9) (fn := 0) rfl rfl rfl rfl p
example := C42_request_round_trip (hdr := exHeader04 18) (t := .enum 9) (f := .int 0) (pd := .pad 4)
  (body := .obj "04.MeterMultipartRequest" [.int 5, .pad 4]) (d := .record [.num 5, .unit]) (x := 7) (tn := 9) (fn := 0) rfl rfl rfl rfl
  (by decide) (by decide) (by show_ok) (p := [4, 18, 0, 24, 0, 0, 0, 7, 0, 9, 0, 0, 0, 0, 0, 0, 0, 0, 0, 5, 0, 0, 0, 0]) (by decide +kernel)
example := C42_request_unchanged (hdr := exHeader04 18) (t := .enum 9) (f := .int 0) (pd := .pad 4)
  (body := .obj "04.MeterMultipartRequest" [.int 5, .pad 4]) (d := .record [.num 5, .unit]) (x := 7) (tn := 9) (fn := 0) rfl rfl rfl rfl
example (p : Bytes) := C42_reply_pack (hdr := exHeader04 19) (t := .enum 9) (f := .int 0) (pd := .pad 4) (body := exMeters) (x := 7) (tn := 9) (fn := 0)
  rfl rfl rfl rfl p
example {p : Bytes} (hp : pyPack libs (.obj "04.MultipartReply" [exHeader04 19, .enum 9, .int 0, .pad 4, exMeters]) = .ok p) :=
  C42_reply_round_trip (hdr := exHeader04 19) (t := .enum 9) (f := .int 0) (pd := .pad 4) (body := exMeters) (x := 7) (tn := 9) (fn := 0)
    rfl rfl rfl rfl (by decide) (by show_ok) hp

/-- C42.  A body given as non-empty `bytes` cannot be packed, for any type: `UnboundLocalError`. -/
theorem C42_bytes_body_fails {hdr t f pd : Val} {b : UInt8} {r : Bytes} :
    pyPack libs (.obj "04.MultipartRequest" [hdr, t, f, pd, .bytes (b :: r)]) = .error .unboundLocal ∧
    pyPack libs (.obj "04.MultipartReply" [hdr, t, f, pd, .bytes (b :: r)]) = .error .unboundLocal := by
  constructor
  · obtain ⟨m, k⟩ := known_v04 requestMsg_mem
    cases Option.some.inj (k.find.symm.trans (rfl : V04.lib.find 18 = some V04.multipartRequest))
    refine (k.pyPack_eq).trans ?_
    rfl
  · obtain ⟨m, k⟩ := known_v04 replyMsg_mem
    cases Option.some.inj (k.find.symm.trans (rfl : V04.lib.find 19 = some V04.multipartReply))
    refine (k.pyPack_eq).trans ?_
    rfl

/-- C42.  Neither can a text or a number other than zero. -/
theorem C42_scalar_body_fails {hdr t f pd v : Val} (hv : (∃ c s, v = .str (c :: s)) ∨ (∃ i, v = .int i ∧ i ≠ 0) ∨ ∃ i, v = .enum i ∧ i ≠ 0) :
    pyPack libs (.obj "04.MultipartRequest" [hdr, t, f, pd, v]) = .error .unboundLocal ∧
    pyPack libs (.obj "04.MultipartReply" [hdr, t, f, pd, v]) = .error .unboundLocal := by
  constructor
  · obtain ⟨m, k⟩ := known_v04 requestMsg_mem
    cases Option.some.inj (k.find.symm.trans (rfl : V04.lib.find 18 = some V04.multipartRequest))
    refine (k.pyPack_eq).trans ?_
    rcases hv with ⟨c, s, rfl⟩ | ⟨(_ | _) | _, rfl, hi⟩ | ⟨(_ | _) | _, rfl, hi⟩ <;> first | exact absurd rfl hi | rfl
  · obtain ⟨m, k⟩ := known_v04 replyMsg_mem
    cases Option.some.inj (k.find.symm.trans (rfl : V04.lib.find 19 = some V04.multipartReply))
    refine (k.pyPack_eq).trans ?_
    rcases hv with ⟨c, s, rfl⟩ | ⟨(_ | _) | _, rfl, hi⟩ | ⟨(_ | _) | _, rfl, hi⟩ <;> first | exact absurd rfl hi | rfl

example := C42_scalar_body_fails (hdr := .none) (t := .enum 0) (f := .int 0) (pd := .pad 4) (v := .int 5) (.inr (.inl ⟨5, rfl, by decide⟩))

/-- C42.  A list of structures is only understood for the array types: a list holding the one structure of another type fails
with `AttributeError`. -/
theorem C42_list_body_counterexample :
    pyPack libs (.obj "04.MultipartRequest" [exHeader04 18, .enum 4, .int 0, .pad 4, .list true [.obj "04.PortStatsRequest" [.int 1, .pad 4]]]) =
      .error .attribute ∧
    (pyPack libs (.obj "04.MultipartRequest" [exHeader04 18, .enum 4, .int 0, .pad 4, .obj "04.PortStatsRequest" [.int 1, .pad 4]])).isOk = true := by
  decide +kernel

/-- C42.  When the type is itself a list, no list can be packed as body: looking the type up is a `TypeError`. -/
theorem C42_list_type_fails {hdr f pd y : Val} {b c : Bool} {ts ys : List Val} :
    pyPack libs (.obj "04.MultipartRequest" [hdr, .list c ts, f, pd, .list b (y :: ys)]) = .error .type ∧
    pyPack libs (.obj "04.MultipartReply" [hdr, .list c ts, f, pd, .list b (y :: ys)]) = .error .type := by
  constructor
  · obtain ⟨m, k⟩ := known_v04 requestMsg_mem
    cases Option.some.inj (k.find.symm.trans (rfl : V04.lib.find 18 = some V04.multipartRequest))
    refine (k.pyPack_eq).trans ?_
    rfl
  · obtain ⟨m, k⟩ := known_v04 replyMsg_mem
    cases Option.some.inj (k.find.symm.trans (rfl : V04.lib.find 19 = some V04.multipartReply))
    refine (k.pyPack_eq).trans ?_
    rfl

/-! ## C51 length-delimited structures -/

/-- The structures of class `c` announce their own length on two bytes at position `k`, and decoding one that sits anywhere in a
buffer, with anything before and after it, gives its content and an object of exactly the announced size. -/
def Delimits (c : Attr) (f : Fmt) (k : Nat) : Prop :=
  ∀ d b, f.enc d = some b → f.ok d → slice b k (k + 2) = be 2 b.length ∧
    ∀ pre post, ∃ v, c.unpack (pre ++ b ++ post) pre.length = .ok v ∧ f.den v = some d ∧ c.usize v = .ok b.length

private theorem delimits {c f k} (he : Enc c f) (hd : Dec c f false) (hne : NonEmpty f)
    (hs : ∀ d b, f.enc d = some b → f.ok d → slice b k (k + 2) = be 2 b.length) : Delimits c f k := by
  intro d b hb hok
  refine ⟨hs d b hb hok, fun pre post => ?_⟩
  have hne2 : pre ++ b ++ post ≠ [] := by
    intro h
    simp only [List.append_eq_nil_iff] at h
    rw [h.1.2] at hb
    exact hne d hb
  obtain ⟨v, h1, h2, h3⟩ := hd.unpack d b pre post hb hok (by simp) hne2
  exact ⟨v, h1, h2, he.usize v d b h3 h2 hb⟩

/-- C51.  OpenFlow 1.0 flow statistics. -/
theorem C51_v01_flow_stats : Delimits V01.flowStats Spec.V01.flowStats 0 :=
  delimits V01.item_flowStats.enc V01.dec_flowStats V01.item_flowStats.ne fun _ b h ok => (ok.2 b h).1
/-- C51.  OpenFlow 1.3 flow statistics. -/
theorem C51_flow_stats : Delimits V04.flowStats Spec.V04.flowStats 0 :=
  delimits V04.enc_flowStats V04.dec_flowStats V04.nonEmpty_flowStats fun _ b h ok => (ok.2 b h).1

example {d : Data} {b : Bytes} (h : Spec.V04.flowStats.enc d = some b) (hk : Spec.V04.flowStats.ok d) := (C51_flow_stats d b h hk).2 [1, 2] [3]
/-- C51.  Meter statistics (the length follows the meter number). -/
theorem C51_meter_stats : Delimits V04.meterStats Spec.V04.meterStats 4 :=
  delimits V04.enc_meterStats V04.dec_meterStats nonEmpty_ownLen fun d b h _ => (V04.sized_meterStats d b h).1
/-- C51.  Table features. -/
theorem C51_table_features : Delimits V04.tableFeatures Spec.V04.tableFeatures 0 :=
  delimits V04.enc_tableFeatures V04.dec_tableFeatures nonEmpty_ownLen fun d b h _ => (V04.sized_tableFeatures d b h).1
/-- C51.  Table feature properties, of all four classes. -/
theorem C51_property : Delimits V04.property Spec.V04.property 2 :=
  delimits V04.enc_property V04.dec_property V04.nonEmpty_property fun d b h _ => (V04.sized_property d b h).1
/-- C51.  Buckets. -/
theorem C51_bucket : Delimits V04.bucket Spec.V04.bucket 0 :=
  delimits V04.enc_bucket V04.dec_bucket V04.nonEmpty_bucket fun d b h _ => (selfSized_exact d b h).1
/-- C51.  Hello elements. -/
theorem C51_hello_element : Delimits V04.helloElem Spec.V04.helloElem 2 :=
  delimits V04.enc_helloElem V04.dec_helloElem nonEmpty_ownLen fun d b h _ => (V04.sized_helloElem d b h).1
/-- C51.  Instructions of every class. -/
theorem C51_instruction : Delimits V04.instruction Spec.V04.instruction 2 :=
  delimits V04.enc_instruction V04.dec_instruction V04.nonEmpty_instruction fun d b h _ => (V04.sized_instruction d b h).1
/-- C51.  OpenFlow 1.3 actions of every class. -/
theorem C51_action : Delimits V04.action Spec.V04.action 2 :=
  delimits V04.enc_action V04.dec_action V04.nonEmpty_action fun _ b h ok => (ok.2 b h).1

/-- C51.  A sequence of such structures, with tails of any lengths, is decoded element by element: every element is found
where the previous one ends, and all of them are returned. -/
theorem C51_sequence {c f k} (hc : Delimits c f k) (pre : Bytes) (ds : List Data) (parts : List Bytes)
    (h : Each (fun d b => f.enc d = some b ∧ f.ok d) ds parts) :
    ∃ vs, unpackItems c (pre ++ parts.flatten) pre.length = .ok vs ∧ vs.map f.den = ds.map some := by
  induction h generalizing pre with
  | nil => refine ⟨[], ?_, rfl⟩; rw [unpackItems]; simp
  | @cons d b ds parts hb h ih =>
    obtain ⟨hl, hu⟩ := hc d b hb.1 hb.2
    obtain ⟨v, h1, h2, h3⟩ := hu pre parts.flatten
    have hpos : b.length ≠ 0 := by
      intro h0
      have := congrArg List.length hl
      simp [slice, be_length, h0] at this
    obtain ⟨vs, h4, h5⟩ := ih (pre ++ b)
    refine ⟨v :: vs, ?_, by simp [h2, h5]⟩
    rw [List.length_append] at h4
    rw [List.flatten_cons, ← List.append_assoc, unpackItems]
    rw [if_pos (by simp; omega)]
    simp only [h1, h3, if_neg hpos, h4]

/-- The hypotheses of `C51_sequence` are met by three instructions of different lengths. -/
example : Each (fun d b => Spec.V04.instruction.enc d = some b ∧ Spec.V04.instruction.ok d)
    [.tag "04.InstructionApplyAction" (.record [.num 4, .unit, .arr [.tag "04.ActionOutput" (.record [.num 0, .num 16, .num 3, .num 65535, .unit])]]),
     .tag "04.InstructionGotoTable" (.record [.num 1, .num 5, .unit]),
     .tag "04.InstructionMeter" (.record [.num 6, .num 7])]
    [[0, 4, 0, 24, 0, 0, 0, 0, 0, 0, 0, 16, 0, 0, 0, 3, 255, 255, 0, 0, 0, 0, 0, 0], [0, 1, 0, 8, 5, 0, 0, 0], [0, 6, 0, 8, 0, 0, 0, 7]] := by
  have hact : Spec.V04.action.ok (.tag "04.ActionOutput" (.record [.num 0, .num 16, .num 3, .num 65535, .unit])) := by
    refine ⟨?_, fun b hb => ?_⟩
    · show okAll (("action_type", uint 2 (some Spec.V04.actionMembers)) :: ("length", uint 2) :: [("port", uint 4), ("max_length", uint 2), ("pad", pad 6)]) _
      simp [okAll, uint, Spec.V04.actionMembers, Spec.pad]
    · obtain rfl : [0, 0, 0, 16, 0, 0, 0, 3, 255, 255, 0, 0, 0, 0, 0, 0] = b := by
        refine Option.some.inj (Eq.trans ?_ hb)
        decide +kernel
      decide +kernel
  refine .cons ⟨by decide +kernel, ?_⟩ (.cons ⟨by decide +kernel, ?_⟩ (.cons ⟨by decide +kernel, ?_⟩ .nil))
  · simp [Spec.V04.instruction, Spec.union, Spec.ownLen, Spec.V04.instructionTail, okAll, Spec.uint, Spec.V04.instructionMembers, Spec.pad,
      Spec.V04.actions, Spec.list, hact]
  · simp [Spec.V04.instruction, Spec.union, Spec.ownLen, Spec.V04.instructionTail, okAll, Spec.uint, Spec.V04.instructionMembers, Spec.pad]
  · simp [Spec.V04.instruction, Spec.union, Spec.ownLen, Spec.V04.instructionTail, okAll, Spec.uint, Spec.V04.instructionMembers, Spec.pad]

/-- C51.  Declaring more bytes than the fields of the class fill is not respected: after a `InstructionGotoTable` of declared length
16 the decoder continues at byte 8, inside it. -/
theorem C51_overlong_counterexample :
    unpackItems V04.instruction ([0, 1, 0, 16, 5, 0, 0, 0] ++ [0, 1, 0, 8, 6, 0, 0, 0] ++ [0, 6, 0, 8, 0, 0, 0, 7]) 0 =
      .ok [.obj "04.InstructionGotoTable" [.ub 2 (.enum 1), .ub 2 (.int 16), .ub 1 (.int 5), .pad 3],
           .obj "04.InstructionGotoTable" [.ub 2 (.enum 1), .ub 2 (.int 8), .ub 1 (.int 6), .pad 3],
           .obj "04.InstructionMeter" [.ub 2 (.enum 6), .ub 2 (.int 8), .ub 4 (.int 7)]] := by
  decide +kernel

end Pyof.Props
