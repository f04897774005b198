import Verif.Lemmas.SwallowGroup
import Verif.Lemmas.Errors
import Verif.Lemmas.V04Multi
import Verif.Lemmas.RoundTrip
/-!
# C52: replies whose entries have variable-length tails
-/
namespace Pyof.Props
open Pyof Pyof.Spec

theorem find_code {l : Lib} {t k : Nat} {m : MsgCls} {n : String} (h : l.find t = some m) (hn : m.name = n)
    (hk : ∀ p ∈ l.classes, p.2.name = n → p.1 = k) : t = k := by
  simp only [Lib.find, Option.map_eq_some_iff] at h
  obtain ⟨p, hp, rfl⟩ := h
  have := hk p (List.mem_of_find?_eq_some hp) hn
  have h2 := List.find?_some hp
  simp only [beq_iff_eq] at h2
  omega

/-- A packet that decodes to a message of the class `n` was decoded by that class. -/
theorem decoded_by {p : Bytes} {n : String} {vs : List Val} (h : pyUnpack libs (.bytes p) = .ok (.obj n vs)) (k : Nat)
    (h1 : ∀ q ∈ V01.lib.classes, q.2.name = n → q.1 = k) (h4 : ∀ q ∈ V04.lib.classes, q.2.name = n → q.1 = k) :
    ∃ l m hdr ws r, l ∈ libs ∧ l.find k = some m ∧ m.name = n ∧ m.unpack r = .ok ws ∧ vs = hdr :: ws := by
  obtain ⟨b0, b1, b2, b3, b4, b5, b6, b7, r, l, m, ws, rfl, hl, _, hm, hu, _, hw⟩ := pyUnpack_bytes _ _ _ h
  injection hw with hn hv
  have hmem := List.mem_of_find?_eq_some hl
  have hk : b1.toNat = k := by
    simp only [libs, List.mem_cons, List.not_mem_nil, or_false] at hmem
    rcases hmem with rfl | rfl
    · exact find_code hm hn.symm h1
    · exact find_code hm hn.symm h4
  exact ⟨l, m, _, ws, r, hmem, hk ▸ hm, hn.symm, hu, hv⟩

private theorem last_list {nm : String} {isItem : Val → Bool} {it : Attr} {cs : Fields} {r : Bytes} {ws : List Val}
    (h : (match unpackAttrs (cs ++ [(nm, listAttr isItem it)]) r 0 with | .ok (vs, _) => Except.ok vs | .error e => .error e) = .ok ws) :
    ∃ us xs o, ws = us ++ [.list true xs] ∧ us.length = cs.length ∧ (xs = [] ∨ unpackItems it r o = .ok xs) := by
  cases hx : unpackAttrs (cs ++ [(nm, listAttr isItem it)]) r 0 with
  | error e => simp only [hx] at h; cases h
  | ok q =>
    obtain ⟨vs, e⟩ := q
    simp only [hx] at h
    cases h
    exact unpackAttrs_lastList hx

private theorem v01_queues_le {buff : Bytes} {o : Nat} {xs : List Val} (h : unpackItems V01.packetQueue buff o = .ok xs) : xs.length ≤ 1 :=
  unpackItems_swallow (cs := [("queue_id", ubint 4), ("length", ubint 2), ("pad", padAttr 2)]) givesObj_struct
    (by intro p hp v; simp only [List.mem_cons, List.not_mem_nil, or_false] at hp; rcases hp with rfl | rfl | rfl <;> rfl) h

private theorem v04_queues_le {buff : Bytes} {o : Nat} {xs : List Val} (h : unpackItems V04.packetQueue buff o = .ok xs) : xs.length ≤ 1 :=
  unpackItems_swallow (cs := [("queue_id", ubint 4), ("port", ubint 4), ("length", ubint 2), ("pad", padAttr 6)]) givesObj_struct
    (by intro p hp v; simp only [List.mem_cons, List.not_mem_nil, or_false] at hp; rcases hp with rfl | rfl | rfl | rfl <;> rfl) h

private theorem groupStats_le {buff : Bytes} {o : Nat} {xs : List Val} (h : unpackItems V04.groupStats buff o = .ok xs) : xs.length ≤ 1 :=
  unpackItems_swallow (cs := [("length", ubint 2), ("pad", padAttr 2), ("group_id", ubint 4), ("ref_count", ubint 4), ("pad2", padAttr 4),
     ("packet_count", ubint 8), ("byte_count", ubint 8), ("duration_sec", ubint 4), ("duration_nsec", ubint 4)]) givesObj_struct
    (by
      intro p hp v
      simp only [List.mem_cons, List.not_mem_nil, or_false] at hp
      rcases hp with rfl | rfl | rfl | rfl | rfl | rfl | rfl | rfl | rfl <;> rfl) h

private theorem meterConfig_le {buff : Bytes} {o : Nat} {xs : List Val} (h : unpackItems V04.meterConfig buff o = .ok xs) : xs.length ≤ 1 :=
  unpackItems_swallow (cs := [("length", ubint 2), ("flags", ubint 2 .mask), ("meter_id", ubint 4)]) givesObj_variant
    (by intro p hp v; simp only [List.mem_cons, List.not_mem_nil, or_false] at hp; rcases hp with rfl | rfl | rfl <;> rfl) h

/-- C52.  Whatever the bytes of an OpenFlow 1.0 queue configuration reply, `unpack` returns at most one queue. -/
theorem C52_v01_queues {p : Bytes} {h port pad : Val} {g : Bool} {qs : List Val}
    (hu : pyUnpack libs (.bytes p) = .ok (.obj "01.QueueGetConfigReply" [h, port, pad, .list g qs])) : qs.length ≤ 1 := by
  obtain ⟨l, m, hdr, ws, r, hl, hm, hn, hr, hv⟩ := decoded_by hu 21 (by decide +kernel) (by decide +kernel)
  have : m = V01.queueGetConfigReply := by
    simp only [libs, List.mem_cons, List.not_mem_nil, or_false] at hl
    rcases hl with rfl | rfl
    · exact (Option.some.inj (hm.symm.trans (rfl : V01.lib.find 21 = some V01.queueGetConfigReply)))
    · cases Option.some.inj (hm.symm.trans (rfl : V04.lib.find 21 = some V04.barrierReply)); exact absurd hn (by decide)
  subst this
  obtain ⟨us, xs, o, rfl, hlen, hxs⟩ := last_list (cs := [("port", ubint 2 (.enum V01.portEnum)), ("pad", padAttr 6)]) hr
  match us, hlen, hv with
  | [a, b], _, hv =>
    simp only [List.cons_append, List.nil_append, List.cons.injEq, Val.list.injEq, and_true] at hv
    obtain ⟨_, _, _, _, rfl⟩ := hv
    rcases hxs with rfl | hxs
    · simp
    · exact v01_queues_le hxs

example := C52_v01_queues (p := [1, 21, 0, 16, 0, 0, 0, 7, 255, 248, 0, 0, 0, 0, 0, 0]) (h := .obj "01.Header" [.ub 1 (.int 1), .enum 21, .ub 2 (.int 16), .ub 4 (.int 7)])
  (port := .ub 2 (.enum 0xfff8)) (pad := .pad 6) (g := true) (qs := []) (by decide +kernel)

/-- C52.  The same for OpenFlow 1.3. -/
theorem C52_v04_queues {p : Bytes} {h port pad : Val} {g : Bool} {qs : List Val}
    (hu : pyUnpack libs (.bytes p) = .ok (.obj "04.QueueGetConfigReply" [h, port, pad, .list g qs])) : qs.length ≤ 1 := by
  obtain ⟨l, m, hdr, ws, r, hl, hm, hn, hr, hv⟩ := decoded_by hu 23 (by decide +kernel) (by decide +kernel)
  have : m = V04.queueGetConfigReply := by
    simp only [libs, List.mem_cons, List.not_mem_nil, or_false] at hl
    rcases hl with rfl | rfl
    · cases (hm.symm.trans (rfl : V01.lib.find 23 = none))
    · exact Option.some.inj (hm.symm.trans (rfl : V04.lib.find 23 = some V04.queueGetConfigReply))
  subst this
  obtain ⟨us, xs, o, rfl, hlen, hxs⟩ := last_list (cs := [("port", ubint 4 (.enum V04.portEnum)), ("pad", padAttr 4)]) hr
  match us, hlen, hv with
  | [a, b], _, hv =>
    simp only [List.cons_append, List.nil_append, List.cons.injEq, Val.list.injEq, and_true] at hv
    obtain ⟨_, _, _, _, rfl⟩ := hv
    rcases hxs with rfl | hxs
    · simp
    · exact v04_queues_le hxs

/-- C52.  Whatever the bytes of a multipart reply with group statistics (type 6) or meter configurations (type 10), `unpack` returns at
most one of them. -/
theorem C52_groups_meters {p : Bytes} {h f pad : Val} {t : Int} {g : Bool} {xs : List Val}
    (hu : pyUnpack libs (.bytes p) = .ok (.obj "04.MultipartReply" [h, .enum t, f, pad, .list g xs])) (ht : t = 6 ∨ t = 10) :
    xs.length ≤ 1 := by
  obtain ⟨l, m, hdr, ws, r, hl, hm, hn, hr, hv⟩ := decoded_by hu 19 (by decide +kernel) (by decide +kernel)
  have : m = V04.multipartReply := by
    simp only [libs, List.mem_cons, List.not_mem_nil, or_false] at hl
    rcases hl with rfl | rfl
    · cases Option.some.inj (hm.symm.trans (rfl : V01.lib.find 19 = some V01.barrierReply)); exact absurd hn (by decide)
    · exact Option.some.inj (hm.symm.trans (rfl : V04.lib.find 19 = some V04.multipartReply))
  subst this
  replace hr : V04.multipartUnpack V04.multipartReplyFields V04.replySimple V04.replyArray r = .ok ws := hr
  simp only [List.cons.injEq] at hv
  obtain ⟨_, rfl⟩ := hv
  unfold V04.multipartUnpack at hr
  split at hr
  · cases hr
  · rename_i t' f' p' body' e' he
    rcases ht with rfl | rfl
    all_goals
      split at hr
      · rename_i hs
        split at hr
        · cases hr
        · cases hr
          cases hs
      · split at hr
        · rename_i ha
          split at hr
          · cases hr
          · rename_i hx
            cases hr
            cases ha
            first | exact groupStats_le hx | exact meterConfig_le hx
        · cases hr
  · cases hr

/-- C52.  Whatever the bytes of a multipart reply with group descriptions (type 7), `unpack` returns at most one of them, and that one has no
buckets: the list looks for the next entry where the buckets of the last one begin, and no bytes can be read both ways. -/
theorem C52_group_descriptions {p : Bytes} {h f pad : Val} {g : Bool} {xs : List Val}
    (hu : pyUnpack libs (.bytes p) = .ok (.obj "04.MultipartReply" [h, .enum 7, f, pad, .list g xs])) :
    xs = [] ∨ ∃ a b c d, xs = [.obj "04.GroupDescStats" [a, b, c, d, .list true []]] := by
  obtain ⟨l, m, hdr, ws, r, hl, hm, hn, hr, hv⟩ := decoded_by hu 19 (by decide +kernel) (by decide +kernel)
  have : m = V04.multipartReply := by
    simp only [libs, List.mem_cons, List.not_mem_nil, or_false] at hl
    rcases hl with rfl | rfl
    · cases Option.some.inj (hm.symm.trans (rfl : V01.lib.find 19 = some V01.barrierReply)); exact absurd hn (by decide)
    · exact Option.some.inj (hm.symm.trans (rfl : V04.lib.find 19 = some V04.multipartReply))
  subst this
  replace hr : V04.multipartUnpack V04.multipartReplyFields V04.replySimple V04.replyArray r = .ok ws := hr
  simp only [List.cons.injEq] at hv
  obtain ⟨_, rfl⟩ := hv
  unfold V04.multipartUnpack at hr
  split at hr
  · cases hr
  · rename_i t' f' p' body' e' he
    split at hr
    · rename_i hs
      split at hr
      · cases hr
      · cases hr
        cases hs
    · split at hr
      · rename_i ha
        split at hr
        · cases hr
        · rename_i hx
          cases hr
          cases ha
          rcases V04.groupDescs_none hx with ⟨_, h⟩ | ⟨_, h⟩
          · exact .inl h
          · exact .inr h
      · cases hr
  · cases hr

example := C52_group_descriptions (p := [4, 19, 0, 24, 0, 0, 0, 7, 0, 7, 0, 0, 0, 0, 0, 0, 0, 8, 1, 0, 0, 0, 0, 9])
  (h := .obj "04.Header" [.ub 1 (.int 4), .enum 19, .ub 2 (.int 24), .ub 4 (.int 7)]) (f := .ub 2 (.int 0)) (pad := .pad 4) (g := true)
  (xs := [.obj "04.GroupDescStats" [.ub 2 (.int 8), .ub 1 (.int 1), .pad 1, .ub 4 (.int 9), .list true []]]) (by decide +kernel)

/-- A non-trivial packet meeting the hypothesis of `C52_v01_queues`: it was packed from two queues with one property each, and
decodes to one queue with three. -/
def exQueues01 : Val := .obj "01.QueueGetConfigReply" [.obj "01.Header" [.ub 1 (.int 1), .enum 21, .none, .int 7], .int 0xfff8, .pad 6,
  .list true [.obj "01.PacketQueue" [.int 1, .int 16, .pad 2, .list true [.obj "01.QueuePropHeader" [.enum 1, .int 8, .pad 4]]],
    .obj "01.PacketQueue" [.int 2, .int 16, .pad 2, .list true [.obj "01.QueuePropHeader" [.enum 1, .int 8, .pad 4]]]]]
def exReply04 (t : Int) (xs : List Val) : Val :=
  .obj "04.MultipartReply" [.obj "04.Header" [.ub 1 (.int 4), .enum 19, .none, .int 7], .enum t, .int 0, .pad 4, .list true xs]
def exGroupStats (n : Int) : Val := .obj "04.GroupStats" [.int 56, .pad 2, .int n, .int 1, .pad 4, .int 2, .int 3, .int 4, .int 5,
  .list true [.obj "04.BucketCounter" [.int 5, .int 6]]]
def exGroupDesc (n : Int) (bs : List Val) : Val := .obj "04.GroupDescStats" [.int 24, .int 0, .pad 1, .int n, .list true bs]
def exBucket : Val := .obj "04.Bucket" [.int 16, .int 0, .int 1, .int 2, .pad 4, .list true []]
def exMeterConfig (n : Int) : Val := .obj "04.MeterConfig" [.int 24, .int 1, .int n,
  .list true [.obj "04.MeterBandDrop" [.enum 1, .int 16, .int 5, .int 6, .pad 4]]]

/-- The number of entries in the last attribute of what `unpack(v.pack())` returns. -/
def entriesBack (v : Val) : Res Nat :=
  match pyPack libs v with
  | .error e => .error e
  | .ok b =>
    match pyUnpack libs (.bytes b) with
    | .error e => .error e
    | .ok (.obj _ vs) => (match vs.getLast? with | some (.list _ xs) => .ok xs.length | _ => .error .unmodelled)
    | .ok _ => .error .unmodelled

/-- C52 fails: two queues come back as one (the second is read as properties of the first), two group statistics, group
descriptions or meter configurations are refused by `unpack`, although `pack` succeeds and one of them alone is fine.  A group
description with a bucket does not come back even when it is alone. -/
theorem C52_counterexamples :
    entriesBack exQueues01 = .ok 1 ∧
    entriesBack (exReply04 6 [exGroupStats 1]) = .ok 1 ∧ entriesBack (exReply04 6 [exGroupStats 1, exGroupStats 2]) = .error .unpack ∧
    entriesBack (exReply04 10 [exMeterConfig 1]) = .ok 1 ∧ entriesBack (exReply04 10 [exMeterConfig 1, exMeterConfig 2]) = .error .unpack ∧
    entriesBack (exReply04 7 [exGroupDesc 1 []]) = .ok 1 ∧ entriesBack (exReply04 7 [exGroupDesc 1 [exBucket]]) = .error .unpack ∧
    entriesBack (exReply04 7 [exGroupDesc 1 [], exGroupDesc 2 []]) = .error .unpack ∧
    (pyPack libs (exReply04 6 [exGroupStats 1, exGroupStats 2])).isOk = true ∧
    (pyPack libs (exReply04 10 [exMeterConfig 1, exMeterConfig 2])).isOk = true ∧
    (pyPack libs (exReply04 7 [exGroupDesc 1 [exBucket]])).isOk = true ∧
    (pyPack libs (exReply04 7 [exGroupDesc 1 [], exGroupDesc 2 []])).isOk = true := by decide +kernel

/-- The last entry of the buffer, wherever it starts, decodes to its content and ends the list. -/
def LastEntry (c : Attr) (f : Fmt) : Prop :=
  ∀ d b pre, f.enc d = some b → f.ok d → ∃ v, unpackItems c (pre ++ b) pre.length = .ok [v] ∧ f.den v = some d

/-- C52, the part that holds: the last entry is decoded correctly, with a tail of any length. -/
theorem C52_last_entry_partial :
    LastEntry V01.packetQueue Spec.V01.packetQueue ∧ LastEntry V04.packetQueue Spec.V04.packetQueue ∧
    LastEntry V04.groupStats Spec.V04.groupStats ∧ LastEntry V04.meterConfig Spec.V04.meterConfig ∧
    LastEntry V04.groupDescStats Spec.V04.groupDescStats := by
  refine ⟨?_, ?_, ?_, ?_, ?_⟩ <;> intro d b pre hb ho
  · exact unpackItems_one V01.enc_packetQueue V01.dec_packetQueue V01.nonEmpty_packetQueue pre hb ho
  · exact unpackItems_one V04.enc_packetQueue V04.dec_packetQueue V04.nonEmpty_packetQueue pre hb ho
  · exact unpackItems_one V04.enc_groupStats V04.dec_groupStats V04.nonEmpty_groupStats pre hb ho
  · exact unpackItems_one V04.enc_meterConfig V04.dec_meterConfig V04.nonEmpty_meterConfig pre hb ho
  · exact unpackItems_one V04.enc_groupDescStats V04.dec_groupDescStats V04.nonEmpty_groupDescStats pre hb ho

example : Spec.V01.packetQueue.enc (.record [.num 2, .num 24, .unit, .arr [.record [.num 1, .num 8, .unit], .record [.num 0, .num 8, .unit]]]) =
      some [0, 0, 0, 2, 0, 24, 0, 0, 0, 1, 0, 8, 0, 0, 0, 0, 0, 0, 0, 8, 0, 0, 0, 0] ∧
    Spec.V01.packetQueue.ok (.record [.num 2, .num 24, .unit, .arr [.record [.num 1, .num 8, .unit], .record [.num 0, .num 8, .unit]]]) := by
  refine ⟨by decide +kernel, ?_⟩
  simp [Spec.V01.packetQueue, Spec.V01.queuePropHeader, Spec.struct, okAll, Spec.uint, Spec.list, Spec.pad]

end Pyof.Props
