import Verif.Lemmas.WatchPack
import Verif.Props.Watch
/-!
# C80: objects that are packed while they are decoded into
-/
namespace Pyof.Props
open Pyof.Spec Pyof.Decode

private theorem beside {xs : List Watcher} {w0 : Mem} {ts : List (Steps (List Val))} {w : Mem} (hr : Runs (xs.map (·.steps), w0) (ts, w)) {k : Nat} {x : Watcher}
    (hk : xs[k]? = some x) {t : Steps (List Val)} (ht : ts[k]? = some t) :
    ∃ ts' t', Runs (xs.map (·.reader), w0) (ts', w) ∧ ts'[k]? = some t' ∧ x.Beside t t' := by
  obtain ⟨ts', h1, hl, hl', h2⟩ := (Pairs.start xs).runs hr
  have hlt : k < ts'.length := by rw [hl']; exact (List.getElem?_eq_some_iff.1 hk).1
  exact ⟨ts', ts'[k], h1, List.getElem?_eq_getElem hlt, h2 _ _ _ _ hk ht (List.getElem?_eq_getElem hlt)⟩

private theorem reader_by {o : Nat} {others : List Watcher} (ho : ∀ x ∈ others, x.Away o) : ∀ t ∈ others.map (·.reader), Bystander o t := by
  intro t ht
  obtain ⟨x, hx, rfl⟩ := List.mem_map.1 ht
  have := ho x hx
  cases x with
  | pack o' fs => exact .inl ⟨_, _, rfl⟩
  | size o' fs => exact .inl ⟨_, _, rfl⟩
  | message o' m => exact .inl ⟨_, _, rfl⟩
  | arp o' => exact .inl ⟨_, _, rfl⟩
  | other t => exact this

private theorem names_in {fs : Fields} {d : Dict} (h : ∀ p ∈ fs, p.1 ∈ d.map (·.1)) : ∀ n ∈ fs.map (·.1), n ∈ d.map (·.1) := by
  intro n hn
  obtain ⟨p, hp, rfl⟩ := List.mem_map.1 hn
  exact h p hp

/-- C80 for `pack`, for all classes of C79.  One thread decodes a packet into the object; any number of threads pack it or other objects, ask for their
sizes, read attributes of them, or decode into other objects, in any interleaving.  A thread that packs the object can go on or has returned or raised
what packing attributes gives that somebody would see who looks at them, in this order and each in one go, while the call goes on without any other
threads.  Missing: that these are the attributes from before or after the call, as the code violates it. -/
theorem C80_pack_partial {j : Job} {d0 : Dict} {w0 : Mem} (h0 : Has w0 j.o d0) {others : List Watcher} (ho : ∀ x ∈ others, x.Away j.o)
    {ts : List (Steps (List Val))} {w : Mem} (hr : Runs (decoding j.steps :: others.map (·.steps), w0) (ts, w)) {i : Nat} {fs : Fields}
    (hi : others[i]? = some (.pack j.o fs)) (hns : ∀ p ∈ fs, p.1 ∈ d0.map (·.1)) {t : Steps (List Val)} (ht : ts[i + 1]? = some t) :
    (∃ t' w', Step (t, w) (t', w')) ∨
    ∃ vs c, t = .ret (packed (packAttrs fs vs)) ∧ Seen j.o (decoding j.steps, w0) (fs.map (·.1)) vs c := by
  obtain ⟨ts', t', h1, h2, h3⟩ := beside (xs := .other (decoding j.steps) :: others) hr (k := i + 1) hi ht
  rcases gather_result (G := fun vs => ∃ c, Seen j.o (decoding j.steps, w0) (fs.map (·.1)) vs c)
    (fun ts w t hr' ht' => by
      rcases C80_moments_partial h0 (reader_by ho) hr' (i := i) (by simp [hi, Watcher.reader]) (names_in hns) ht' with h | ⟨vs, c, e, h⟩
      · exact .inl h
      · exact .inr ⟨vs, e, c, h⟩) h1 h2 h3 with h | ⟨vs, e, c, h⟩
  · exact .inl h
  · exact .inr ⟨vs, c, by rw [e, packed_fold], h⟩

/-- C80 for `get_size`, in the same way. -/
theorem C80_size_partial {j : Job} {d0 : Dict} {w0 : Mem} (h0 : Has w0 j.o d0) {others : List Watcher} (ho : ∀ x ∈ others, x.Away j.o)
    {ts : List (Steps (List Val))} {w : Mem} (hr : Runs (decoding j.steps :: others.map (·.steps), w0) (ts, w)) {i : Nat} {fs : Fields}
    (hi : others[i]? = some (.size j.o fs)) (hns : ∀ p ∈ fs, p.1 ∈ d0.map (·.1)) {t : Steps (List Val)} (ht : ts[i + 1]? = some t) :
    (∃ t' w', Step (t, w) (t', w')) ∨
    ∃ vs c, t = .ret (measured (sizeAttrs fs vs)) ∧ Seen j.o (decoding j.steps, w0) (fs.map (·.1)) vs c := by
  obtain ⟨ts', t', h1, h2, h3⟩ := beside (xs := .other (decoding j.steps) :: others) hr (k := i + 1) hi ht
  rcases gather_result (G := fun vs => ∃ c, Seen j.o (decoding j.steps, w0) (fs.map (·.1)) vs c)
    (fun ts w t hr' ht' => by
      rcases C80_moments_partial h0 (reader_by ho) hr' (i := i) (by simp [hi, Watcher.reader]) (names_in hns) ht' with h | ⟨vs, c, e, h⟩
      · exact .inl h
      · exact .inr ⟨vs, e, c, h⟩) h1 h2 h3 with h | ⟨vs, e, c, h⟩
  · exact .inl h
  · exact .inr ⟨vs, c, by rw [e, measured_fold], h⟩

private theorem seen_length {o : Nat} {c0 c : Steps (List Val) × Mem} {ns : List String} {vs : List Val} (h : Seen o c0 ns vs c) : vs.length = ns.length := by
  induction h with
  | start => rfl
  | step _ _ ih => exact ih
  | see _ _ ih => simp [ih]

/-- C80 for `pack` of a message, which asks all attributes for their sizes, writes the sum to the header, and packs all attributes: what it returns or
raises is what this gives for attributes `us` in the first pass and the header `h` and `vs` in the second that somebody would see who looks at them, in
this order and each in one go, while the call goes on without any other threads.  For classes that have no `pack` of their own. -/
theorem C80_pack_message_partial {j : Job} {d0 : Dict} {w0 : Mem} (h0 : Has w0 j.o d0) {others : List Watcher} (ho : ∀ x ∈ others, x.Away j.o)
    {ts : List (Steps (List Val))} {w : Mem} (hr : Runs (decoding j.steps :: others.map (·.steps), w0) (ts, w)) {i : Nat} {m : MsgCls}
    (hi : others[i]? = some (.message j.o m)) (hns : ∀ p ∈ m.fields, p.1 ∈ d0.map (·.1)) {t : Steps (List Val)} (ht : ts[i + 1]? = some t) :
    (∃ t' w', Step (t, w) (t', w')) ∨
    ∃ us h vs c, t = .ret (packed (packTwice m us h vs)) ∧ us.length = m.fields.length ∧
      Seen j.o (decoding j.steps, w0) (m.fields.map (·.1) ++ m.fields.map (·.1)) (us ++ h :: vs) c := by
  obtain ⟨ts', t', h1, h2, h3⟩ := beside (xs := .other (decoding j.steps) :: others) hr (k := i + 1) hi ht
  rcases gather_result (G := fun vs => ∃ c, Seen j.o (decoding j.steps, w0) (m.fields.map (·.1) ++ m.fields.map (·.1)) vs c)
    (fun ts w t hr' ht' => by
      rcases C80_moments_partial h0 (reader_by ho) hr' (i := i) (ns := m.fields.map (·.1) ++ m.fields.map (·.1)) (by simp [hi, Watcher.reader])
        (fun n hn => names_in hns n ((List.mem_append.1 hn).elim id id)) ht' with h | ⟨vs, c, e, h⟩
      · exact .inl h
      · exact .inr ⟨vs, e, c, h⟩) h1 h2 h3 with h | ⟨vs, e, c, h⟩
  · exact .inl h
  · have hl := seen_length h
    simp only [List.length_append, List.length_map] at hl
    have hu : (vs.take m.fields.length).length = m.fields.length := by rw [List.length_take]; omega
    cases hd : vs.drop m.fields.length with
    | nil =>
      have := congrArg List.length hd
      simp only [List.length_drop, List.length_nil] at this
      have : 0 < m.fields.length := by simp [MsgCls.fields]
      omega
    | cons x xs =>
      have hv : vs = vs.take m.fields.length ++ x :: xs := by rw [← hd, List.take_append_drop]
      refine .inr ⟨vs.take m.fields.length, x, xs, c, ?_, hu, hv ▸ h⟩
      rw [e]
      conv => lhs; rw [hv]
      rw [message_fold m hu]

/-- C80 for `pack` of an ARP packet, which checks `htype` and `ptype` first: what it returns or raises is what this gives for `h` and `p` when they are checked
and `vs` when they are packed that somebody would see who looks at them, in this order and each in one go, while the call goes on without any other
threads. -/
theorem C80_pack_arp_partial {j : Job} {d0 : Dict} {w0 : Mem} (h0 : Has w0 j.o d0) {others : List Watcher} (ho : ∀ x ∈ others, x.Away j.o)
    {ts : List (Steps (List Val))} {w : Mem} (hr : Runs (decoding j.steps :: others.map (·.steps), w0) (ts, w)) {i : Nat}
    (hi : others[i]? = some (.arp j.o)) (hns : ∀ p ∈ Net.arpFields, p.1 ∈ d0.map (·.1)) {t : Steps (List Val)} (ht : ts[i + 1]? = some t) :
    (∃ t' w', Step (t, w) (t', w')) ∨
    ∃ h p vs c, t = .ret (packed (packChecked h p vs)) ∧
      Seen j.o (decoding j.steps, w0) (["htype", "ptype"] ++ Net.arpFields.map (·.1)) (h :: p :: vs) c := by
  obtain ⟨ts', t', h1, h2, h3⟩ := beside (xs := .other (decoding j.steps) :: others) hr (k := i + 1) hi ht
  rcases gather_result (G := fun vs => ∃ c, Seen j.o (decoding j.steps, w0) (["htype", "ptype"] ++ Net.arpFields.map (·.1)) vs c)
    (fun ts w t hr' ht' => by
      rcases C80_moments_partial h0 (reader_by ho) hr' (i := i) (ns := ["htype", "ptype"] ++ Net.arpFields.map (·.1)) (by simp [hi, Watcher.reader])
        (fun n hn => names_in hns n ((List.mem_append.1 hn).elim (fun h => by
          simp only [List.mem_cons, List.not_mem_nil, or_false] at h
          rcases h with rfl | rfl <;> decide +kernel) id)) ht' with h | ⟨vs, c, e, h⟩
      · exact .inl h
      · exact .inr ⟨vs, e, c, h⟩) h1 h2 h3 with h | ⟨vs, e, c, h⟩
  · exact .inl h
  · have hl := seen_length h
    match vs, hl, e, h with
    | x :: y :: vs, _, e, h => exact .inr ⟨x, y, vs, c, by rw [e, arp_fold], h⟩

/-- C80 for `pack` of Ethernet frames and of the attributes of `PacketOut`, whose `unpack` stores an attribute when it is complete: what is packed of
each attribute is what the object had before the call or what the call leaves in it. -/
theorem C80_pack_complete_partial {j : Job} (hc : j.cls.Complete) {d0 : Dict} {w0 : Mem} (h0 : Has w0 j.o d0) {others : List Watcher}
    (ho : ∀ x ∈ others, x.Away j.o) {ts : List (Steps (List Val))} {w : Mem} (hr : Runs (decoding j.steps :: others.map (·.steps), w0) (ts, w)) {i : Nat}
    {fs : Fields} (hi : others[i]? = some (.pack j.o fs)) (hns : ∀ p ∈ fs, p.1 ∈ d0.map (·.1)) {t : Steps (List Val)} (ht : ts[i + 1]? = some t) :
    (∃ t' w', Step (t, w) (t', w')) ∨
    ∃ vs, t = .ret (packed (packAttrs fs vs)) ∧ Each (fun n v => d0.lookup n = some v ∨ (j.alone d0).2.lookup n = some v) (fs.map (·.1)) vs := by
  obtain ⟨ts', t', h1, h2, h3⟩ := beside (xs := .other (decoding j.steps) :: others) hr (k := i + 1) hi ht
  rcases gather_result (fun ts w t hr' ht' =>
      C80_complete_partial hc h0 (reader_by ho) hr' (i := i) (by simp [hi, Watcher.reader]) (names_in hns) ht') h1 h2 h3 with h | ⟨vs, e, h⟩
  · exact .inl h
  · exact .inr ⟨vs, by rw [e, packed_fold], h⟩

/-- C80 for `pack` while any number of threads decode into the object or assign attributes of it, for the classes whose `unpack` only stores: what is packed
of each attribute is what the object had before the calls, what one of the calls leaves in it whatever it held, or what the attribute is in passing while
one of the calls decodes it. -/
theorem C80_pack_passing_partial {o : Nat} {js : List Job} (hj : ∀ j ∈ js, j.o = o ∧ j.cls.stores ∧ j.cls.Distinct) {d0 : Dict} {w0 : Mem} (h0 : Has w0 o d0)
    {others : List Watcher} (ho : ∀ x ∈ others, x.Away o) {ts : List (Steps (List Val))} {w : Mem}
    (hr : Runs ((js.map fun j => decoding j.steps) ++ others.map (·.steps), w0) (ts, w)) {i : Nat} {fs : Fields} (hi : others[i]? = some (.pack o fs))
    (hns : ∀ p ∈ fs, p.1 ∈ d0.map (·.1)) {t : Steps (List Val)} (ht : ts[js.length + i]? = some t) :
    (∃ t' w', Step (t, w) (t', w')) ∨
    ∃ vs, t = .ret (packed (packAttrs fs vs)) ∧
      Each (fun n v => d0.lookup n = some v ∨ ∃ j ∈ js, (∀ d, (j.alone d).2.lookup n = some v) ∨ j.Passes n v) (fs.map (·.1)) vs := by
  have e1 : (((js.map fun j => Watcher.other (decoding j.steps)) ++ others).map (·.steps)) = (js.map fun j => decoding j.steps) ++ others.map (·.steps) := by
    simp [Function.comp_def, Watcher.steps]
  have e2 : (((js.map fun j => Watcher.other (decoding j.steps)) ++ others).map (·.reader)) = (js.map fun j => decoding j.steps) ++ others.map (·.reader) := by
    simp [Function.comp_def, Watcher.reader]
  rw [← e1] at hr
  obtain ⟨ts', t', h1, h2, h3⟩ := beside hr (k := js.length + i) (x := .pack o fs) (by rw [List.getElem?_append_right (by simp)]; simpa using hi) ht
  rw [e2] at h1
  rcases gather_result (fun ts w t hr' ht' =>
      C80_passing_partial hj h0 (reader_by ho) hr' (i := i) (by simp [hi, Watcher.reader]) (names_in hns) ht') h1 h2 h3 with h | ⟨vs, e, h⟩
  · exact .inl h
  · exact .inr ⟨vs, by rw [e, packed_fold], h⟩

private theorem each_split {R : String → Val → Prop} : ∀ {as bs : List String} {vs : List Val}, Each R (as ++ bs) vs →
    ∃ us ws, vs = us ++ ws ∧ Each R as us ∧ Each R bs ws
  | [], _, vs, h => ⟨[], vs, rfl, .nil, h⟩
  | a :: as, bs, _, .cons h1 h2 => by
    obtain ⟨us, ws, rfl, h3, h4⟩ := each_split h2
    exact ⟨_ :: us, ws, rfl, .cons h1 h3, h4⟩

private theorem each_length {R : String → Val → Prop} : ∀ {as : List String} {vs : List Val}, Each R as vs → vs.length = as.length
  | _, _, .nil => rfl
  | _, _, .cons _ h => by simp [each_length h]

/-- C80 for `pack` of a message while any number of threads decode into it or assign attributes of it, for the classes whose `unpack` only stores and that
have no `pack` of their own: every attribute it takes, the first time for the length in the header and the second time for the bytes, is what the object
had before the calls, what one of the calls leaves in it whatever it held, or what the attribute is in passing while one of the calls decodes it. -/
theorem C80_message_passing_partial {o : Nat} {js : List Job} (hj : ∀ j ∈ js, j.o = o ∧ j.cls.stores ∧ j.cls.Distinct) {d0 : Dict} {w0 : Mem}
    (h0 : Has w0 o d0) {others : List Watcher} (ho : ∀ x ∈ others, x.Away o) {ts : List (Steps (List Val))} {w : Mem}
    (hr : Runs ((js.map fun j => decoding j.steps) ++ others.map (·.steps), w0) (ts, w)) {i : Nat} {m : MsgCls} (hi : others[i]? = some (.message o m))
    (hns : ∀ p ∈ m.fields, p.1 ∈ d0.map (·.1)) {t : Steps (List Val)} (ht : ts[js.length + i]? = some t) :
    let may := fun n v => d0.lookup n = some v ∨ ∃ j ∈ js, (∀ d, (j.alone d).2.lookup n = some v) ∨ j.Passes n v
    (∃ t' w', Step (t, w) (t', w')) ∨
    ∃ us h vs, t = .ret (packed (packTwice m us h vs)) ∧ Each may (m.fields.map (·.1)) us ∧ Each may (m.fields.map (·.1)) (h :: vs) := by
  have e1 : (((js.map fun j => Watcher.other (decoding j.steps)) ++ others).map (·.steps)) = (js.map fun j => decoding j.steps) ++ others.map (·.steps) := by
    simp [Function.comp_def, Watcher.steps]
  have e2 : (((js.map fun j => Watcher.other (decoding j.steps)) ++ others).map (·.reader)) = (js.map fun j => decoding j.steps) ++ others.map (·.reader) := by
    simp [Function.comp_def, Watcher.reader]
  rw [← e1] at hr
  obtain ⟨ts', t', h1, h2, h3⟩ := beside hr (k := js.length + i) (x := .message o m) (by rw [List.getElem?_append_right (by simp)]; simpa using hi) ht
  rw [e2] at h1
  rcases gather_result (fun ts w t hr' ht' =>
      C80_passing_partial hj h0 (reader_by ho) hr' (i := i) (ns := m.fields.map (·.1) ++ m.fields.map (·.1)) (by simp [hi, Watcher.reader])
        (fun n hn => names_in hns n ((List.mem_append.1 hn).elim id id)) ht') h1 h2 h3 with h | ⟨vs, e, h⟩
  · exact .inl h
  · obtain ⟨us, ws, rfl, h4, h5⟩ := each_split h
    match ws, h5, e with
    | x :: ws, h5, e =>
      refine .inr ⟨us, x, ws, ?_, h4, h5⟩
      rw [e, message_fold m (by simpa using each_length h4)]

/-- A queue property of length 16 is decoded again from a packet with length 24 while one thread packs it, another asks for its size, a third decodes into
another object. -/
def waQueue : Job := ⟨.struct V01.queuePropHeaderFields, 0, [0, 1, 0, 24, 0, 0, 0, 0], 0, fun _ => [], .none⟩
def waQueueOld : Dict := [("queue_property", .enum 1), ("length", .int 16), ("pad", .pad 4)]
def waQueueMem : Mem := memOf [waQueueOld, dcNew V04.setConfig]
def waPackers : List Watcher := [.pack 0 V01.queuePropHeaderFields, .size 0 V01.queuePropHeaderFields, .other (decoding waConfig.steps)]

theorem waPackers_away : ∀ x ∈ waPackers, x.Away 0 := by
  intro x hx
  simp only [waPackers, List.mem_cons, List.not_mem_nil, or_false] at hx
  rcases hx with rfl | rfl | rfl
  · trivial
  · trivial
  · exact .inr ⟨waConfig, by decide, rfl⟩

/-- The bytes, if there are any, are those of the old length or of the new one. -/
example {ts : List (Steps (List Val))} {w : Mem} (hr : Runs (decoding waQueue.steps :: waPackers.map (·.steps), waQueueMem) (ts, w)) {r : Res (List Val)}
    (h : ts[1]? = some (.ret r)) :
    r = .error .pack ∨ r = .ok [.bin (.bytes [0, 1, 0, 16, 0, 0, 0, 0])] ∨ r = .ok [.bin (.bytes [0, 1, 0, 24, 0, 0, 0, 0])] := by
  have := C80_pack_partial (j := waQueue) (d0 := waQueueOld) (by decide +kernel) waPackers_away hr (i := 0) rfl (by decide +kernel) h
  rcases this with ⟨t', w', hs⟩ | ⟨us, c, e, hu⟩
  · cases hs
  · cases e
    obtain ⟨k, l, _, h1, h2, h3, h4⟩ := seen_times hu
    match l, h1, h2, h3, h4 with
    | [(k1, n1, v1), (k2, n2, v2), (k3, n3, v3)], h1, h2, h3, h4 =>
      have h1' : n1 = "queue_property" ∧ n2 = "length" ∧ n3 = "pad" := by simpa [V01.queuePropHeaderFields] using h1
      obtain ⟨rfl, rfl, rfl⟩ := h1'
      have s1 : shown (after (decoding waQueue.steps, waQueueMem) k1).2 0 "queue_property" = some v1 := (h4 (k1, "queue_property", v1) (by simp)).2.shown
      have s2 : shown (after (decoding waQueue.steps, waQueueMem) k2).2 0 "length" = some v2 := (h4 (k2, "length", v2) (by simp)).2.shown
      have s3 : shown (after (decoding waQueue.steps, waQueueMem) k3).2 0 "pad" = some v3 := (h4 (k3, "pad", v3) (by simp)).2.shown
      have hend : next (after (decoding waQueue.steps, waQueueMem) 20).2 (after (decoding waQueue.steps, waQueueMem) 20).1 = none := by decide +kernel
      rw [after_end hend] at s1 s2 s3
      have a1 : ∀ i < 21, shown (after (decoding waQueue.steps, waQueueMem) i).2 0 "queue_property" ∈
          [some (.enum 1), some (.ub 2 .none), some (.ub 2 (.enum 1))] := by decide +kernel
      have a2 : ∀ i < 21, shown (after (decoding waQueue.steps, waQueueMem) i).2 0 "length" ∈
          [some (.int 16), some (.ub 2 .none), some (.ub 2 (.int 24))] := by decide +kernel
      have a3 : ∀ i < 21, shown (after (decoding waQueue.steps, waQueueMem) i).2 0 "pad" = some (.pad 4) := by decide +kernel
      have b1 := a1 (min k1 20) (by omega)
      have b2 := a2 (min k2 20) (by omega)
      have b3 := a3 (min k3 20) (by omega)
      rw [s1] at b1; rw [s2] at b2; rw [s3] at b3
      simp only [List.mem_cons, List.not_mem_nil, or_false, Option.some.injEq] at b1 b2 b3
      rw [← h2]
      simp only [List.map_cons, List.map_nil]
      subst b3
      rcases b1 with rfl | rfl | rfl <;> rcases b2 with rfl | rfl | rfl <;> decide +kernel

example : ∃ ts w, Runs (decoding waQueue.steps :: waPackers.map (·.steps), waQueueMem) (ts, w) ∧
    ts[1]? = some (.ret (.ok [.bin (.bytes [0, 1, 0, 24, 0, 0, 0, 0])])) ∧ ts[2]? = some (.ret (.ok [.int 8])) := by
  obtain ⟨ts, w, h1, h2⟩ := run_find (List.replicate 20 0 ++ List.replicate 8 1 ++ List.replicate 8 2)
    (decoding waQueue.steps :: waPackers.map (·.steps), waQueueMem)
    (fun c => resultOf 1 c = some (.ok [.bin (.bytes [0, 1, 0, 24, 0, 0, 0, 0])]) ∧ resultOf 2 c = some (.ok [.int 8])) (by decide +kernel)
  exact ⟨ts, w, h1, resultOf_some h2.1, resultOf_some h2.2⟩

/-- C80 fails for `pack` too.  The queue property packs before the call and after it, but a thread that packs it meanwhile may get a `PackException`, as
the length is a copy of the class attribute, without a number, for a while. -/
theorem C80_pack_counterexample :
    ∃ (j : Job) (fs : Fields) (d0 : Dict) (w0 : Mem), j.cls = .struct fs ∧ Has w0 j.o d0 ∧ (j.alone d0).1 = .ok () ∧
      packAttrs fs (attrsOf fs d0) = .ok [0, 1, 0, 16, 0, 0, 0, 0] ∧ packAttrs fs (attrsOf fs (j.alone d0).2) = .ok [0, 1, 0, 24, 0, 0, 0, 0] ∧
      ∃ ts w, Runs (decoding j.steps :: [packing j.o [] fs], w0) (ts, w) ∧ ts[1]? = some (.ret (.error .pack)) := by
  obtain ⟨ts, w, h1, h2⟩ := run_find (List.replicate 6 0 ++ List.replicate 8 1)
    (decoding waQueue.steps :: [packing 0 [] V01.queuePropHeaderFields], memOf [waQueueOld])
    (fun c => resultOf 1 c = some (.error .pack)) (by decide +kernel)
  exact ⟨waQueue, _, waQueueOld, memOf [waQueueOld], rfl, by decide +kernel, by decide +kernel, by decide +kernel, by decide +kernel, ts, w, h1, resultOf_some h2⟩

/-- What the thread gets that asks for the size. -/
example {ts : List (Steps (List Val))} {w : Mem} (hr : Runs (decoding waQueue.steps :: waPackers.map (·.steps), waQueueMem) (ts, w)) {r : Res (List Val)}
    (h : ts[2]? = some (.ret r)) : ∃ vs c, r = measured (sizeAttrs V01.queuePropHeaderFields vs) ∧
      Seen 0 (decoding waQueue.steps, waQueueMem) ["queue_property", "length", "pad"] vs c := by
  have := C80_size_partial (j := waQueue) (d0 := waQueueOld) (by decide +kernel) waPackers_away hr (i := 1) rfl (by decide +kernel) h
  rcases this with ⟨t', w', hs⟩ | ⟨us, c, e, hu⟩
  · cases hs
  · cases e; exact ⟨us, c, rfl, hu⟩

/-- A frame is decoded into an object that has one already, while a thread packs it. -/
def waFrame : Dict := ((⟨.ethernet, 0, List.replicate 6 7 ++ List.replicate 6 8 ++ [8, 0, 1], 0, fun _ => [], .none⟩ : Job).alone (newInstance Net.ethernetFields)).2

example {ts : List (Steps (List Val))} {w : Mem}
    (hr : Runs (decoding waJob.steps :: [Watcher.pack 0 Net.ethernetFields].map (·.steps), memOf [waFrame]) (ts, w)) {r : Res (List Val)}
    (h : ts[1]? = some (.ret r)) : ∃ a vs, r = packed (packAttrs Net.ethernetFields (a :: vs)) ∧
      (a = .hw (.str "07:07:07:07:07:07".toList) ∨ a = .hw (.str "01:02:03:04:05:06".toList)) := by
  have := C80_pack_complete_partial (j := waJob) trivial (d0 := waFrame) (by decide +kernel)
    (by intro x hx; cases List.mem_singleton.1 hx; trivial) hr (i := 0) rfl (by decide +kernel) h
  rcases this with ⟨t', w', hs⟩ | ⟨us, e, hu⟩
  · cases hs
  · cases e
    cases hu with | cons h1 hu =>
    exact ⟨_, _, rfl, h1.imp (fun e => Option.some.inj (e.symm.trans (by decide +kernel))) (fun e => Option.some.inj (e.symm.trans (by decide +kernel)))⟩

/-- Two threads decode different queue properties into the object and a third assigns the length. -/
def waQueues : List Job := [waQueue, ⟨.struct V01.queuePropHeaderFields, 0, [0, 0, 0, 32, 0, 0, 0, 0], 0, fun _ => [], .none⟩,
  ⟨.assign [("length", .int 8)], 0, [], 0, fun _ => [], .none⟩]

example {ts : List (Steps (List Val))} {w : Mem} (hr : Runs ((waQueues.map fun j => decoding j.steps) ++ waPackers.map (·.steps), waQueueMem) (ts, w))
    {r : Res (List Val)} (h : ts[3]? = some (.ret r)) : ∃ a b vs, r = packed (packAttrs V01.queuePropHeaderFields (a :: b :: vs)) ∧
      (b = .int 16 ∨ b = .ub 2 (.int 24) ∨ b = .ub 2 (.int 32) ∨ b = .int 8 ∨ b = .ub 2 .none) := by
  have := C80_pack_passing_partial (o := 0) (js := waQueues)
    (by
      intro j hj
      simp only [waQueues, List.mem_cons, List.not_mem_nil, or_false] at hj
      rcases hj with rfl | rfl | rfl
      · exact ⟨rfl, trivial, show (V01.queuePropHeaderFields.map (·.1)).Nodup by decide +kernel⟩
      · exact ⟨rfl, trivial, show (V01.queuePropHeaderFields.map (·.1)).Nodup by decide +kernel⟩
      · exact ⟨rfl, trivial, trivial⟩)
    (d0 := waQueueOld) (by decide +kernel) waPackers_away hr (i := 0) rfl (by decide +kernel) h
  rcases this with ⟨t', w', hs⟩ | ⟨us, e, hu⟩
  · cases hs
  · cases e
    cases hu with | cons h1 hu => cases hu with | cons h2 hu =>
    refine ⟨_, _, _, rfl, ?_⟩
    have half : ∀ {c : Attr} {v : Val}, ("length", c) ∈ V01.queuePropHeaderFields → (v = c.proto ∨ v ∈ ([] : List Val)) → v = .ub 2 .none := by
      intro c v hc hv
      rcases hv with rfl | hv
      · have : ∀ p ∈ V01.queuePropHeaderFields, p.1 = "length" → p.2.proto = .ub 2 .none := by decide +kernel
        exact this _ hc rfl
      · cases hv
    rcases h2 with e | ⟨j, hj, e⟩
    · exact .inl (Option.some.inj (e.symm.trans (by decide +kernel)))
    · simp only [waQueues, List.mem_cons, List.not_mem_nil, or_false] at hj
      rcases hj with rfl | rfl | rfl
      · rcases e with e | ⟨c, hc, hv⟩
        · exact .inr (.inl (Option.some.inj ((e waQueueOld).symm.trans (by decide +kernel))))
        · exact .inr (.inr (.inr (.inr (half hc hv))))
      · rcases e with e | ⟨c, hc, hv⟩
        · exact .inr (.inr (.inl (Option.some.inj ((e waQueueOld).symm.trans (by decide +kernel)))))
        · exact .inr (.inr (.inr (.inr (half hc hv))))
      · rcases e with e | e
        · exact .inr (.inr (.inr (.inl (Option.some.inj ((e waQueueOld).symm.trans (by decide +kernel))))))
        · exact .inr (.inr (.inr (.inl (Prod.mk.inj (List.mem_singleton.1 e)).2)))

/-- The bytes packed meanwhile may be of neither packet, also where every single attribute is complete: the destination of the new frame with the source
of the old one. -/
theorem C80_pack_torn_counterexample :
    ∃ (j : Job) (fs : Fields) (d0 : Dict) (w0 : Mem) (b b1 b2 : Bytes), j.cls.Complete ∧ Has w0 j.o d0 ∧ (j.alone d0).1 = .ok () ∧
      packAttrs fs (attrsOf fs d0) = .ok b1 ∧ packAttrs fs (attrsOf fs (j.alone d0).2) = .ok b2 ∧ b ≠ b1 ∧ b ≠ b2 ∧
      ∃ ts w, Runs (decoding j.steps :: [packing j.o [] fs], w0) (ts, w) ∧ ts[1]? = some (.ret (.ok [.bin (.bytes b)])) := by
  obtain ⟨ts, w, h1, h2⟩ := run_find (List.replicate 5 0 ++ List.replicate 20 1) (decoding waJob.steps :: [packing 0 [] Net.ethernetFields], memOf [waFrame])
    (fun c => resultOf 1 c = some (.ok [.bin (.bytes ([1, 2, 3, 4, 5, 6] ++ List.replicate 6 8 ++ [8, 0, 1]))])) (by decide +kernel)
  exact ⟨waJob, Net.ethernetFields, waFrame, memOf [waFrame], _, List.replicate 6 7 ++ List.replicate 6 8 ++ [8, 0, 1],
    [1, 2, 3, 4, 5, 6, 7, 8, 9, 10, 11, 12, 0x81, 0, 0, 5, 8, 0, 9], trivial, by decide +kernel, by decide +kernel, by decide +kernel, by decide +kernel,
    by decide, by decide, ts, w, h1, resultOf_some h2⟩

/-- A message is decoded while it is packed: an echo request with two bytes of data, and a packet with five. -/
def waEcho : Job := ⟨.message V04.echoRequest, 0, [1, 2, 3, 4, 5], 0, fun _ => [], .none⟩
def waEchoOld : Dict := [("header", .obj "04.Header" [.ub 1 (.int 4), .enum 2, .none, .int 7]), ("data", .bin (.bytes [8, 9]))]

example {ts : List (Steps (List Val))} {w : Mem}
    (hr : Runs (decoding waEcho.steps :: [Watcher.message 0 V04.echoRequest, .pack 0 V04.echoRequest.body].map (·.steps), memOf [waEchoOld]) (ts, w))
    {r : Res (List Val)} (h : ts[1]? = some (.ret r)) : ∃ us h vs c, r = packed (packTwice V04.echoRequest us h vs) ∧ us.length = 2 ∧
      Seen 0 (decoding waEcho.steps, memOf [waEchoOld]) ["header", "data", "header", "data"] (us ++ h :: vs) c := by
  have := C80_pack_message_partial (j := waEcho) (d0 := waEchoOld) (by decide +kernel)
    (by intro x hx; simp only [List.mem_cons, List.not_mem_nil, or_false] at hx; rcases hx with rfl | rfl <;> trivial) hr (i := 0) rfl (by decide +kernel) h
  rcases this with ⟨t', w', hs⟩ | ⟨us, x, vs, c, e, hl, hu⟩
  · cases hs
  · cases e; exact ⟨us, x, vs, c, rfl, hl, hu⟩

/-- The same while another thread assigns the data. -/
example {ts : List (Steps (List Val))} {w : Mem}
    (hr : Runs (([waEcho, ⟨.assign [("data", .bin (.bytes [6]))], 0, [], 0, fun _ => [], .none⟩].map fun j => decoding j.steps) ++
      [Watcher.message 0 V04.echoRequest].map (·.steps), memOf [waEchoOld]) (ts, w))
    {r : Res (List Val)} (h : ts[2]? = some (.ret r)) : ∃ us h d, r = packed (packTwice V04.echoRequest us h [d]) ∧
      (d = .bin (.bytes [8, 9]) ∨ d = .bin (.bytes [1, 2, 3, 4, 5]) ∨ d = .bin .none ∨ d = .bin (.bytes [6])) := by
  have := C80_message_passing_partial (o := 0) (js := [waEcho, ⟨.assign [("data", .bin (.bytes [6]))], 0, [], 0, fun _ => [], .none⟩])
    (by
      intro j hj
      simp only [List.mem_cons, List.not_mem_nil, or_false] at hj
      rcases hj with rfl | rfl
      · exact ⟨rfl, by decide, show V04.echoRequest ∈ classes by simp [classes, libs, V04.lib]⟩
      · exact ⟨rfl, trivial, trivial⟩)
    (d0 := waEchoOld) (by decide +kernel) (by intro x hx; cases List.mem_singleton.1 hx; trivial) hr (i := 0) rfl (by decide +kernel) h
  rcases this with ⟨t', w', hs⟩ | ⟨us, x, vs, e, _, hu⟩
  · cases hs
  · cases e
    cases hu with | cons h1 hu => cases hu with | cons h2 hu => cases hu with | nil =>
    refine ⟨_, _, _, rfl, ?_⟩
    rcases h2 with e | ⟨j, hj, e⟩
    · exact .inl (Option.some.inj (e.symm.trans (by decide +kernel)))
    · simp only [List.mem_cons, List.not_mem_nil, or_false] at hj
      rcases hj with rfl | rfl
      · rcases e with e | ⟨c, hc, hv⟩
        · exact .inr (.inl (Option.some.inj ((e waEchoOld).symm.trans (by decide +kernel))))
        · have : ∀ p ∈ V04.echoRequest.body, p.2.proto = .bin .none := by decide +kernel
          rcases hv with rfl | hv
          · exact .inr (.inr (.inl (this _ hc)))
          · cases hv
      · rcases e with e | e
        · exact .inr (.inr (.inr (Option.some.inj ((e waEchoOld).symm.trans (by decide +kernel)))))
        · exact .inr (.inr (.inr (Prod.mk.inj (List.mem_singleton.1 e)).2))

/-- What a thread packs meanwhile may have a length in its header that is not the number of its bytes: the size was that of the old data. -/
theorem C80_length_counterexample :
    ∃ (j : Job) (m : MsgCls) (d0 : Dict) (w0 : Mem) (b : Bytes), j.cls = .message m ∧ m ∈ classes ∧ Has w0 j.o d0 ∧ (j.alone d0).1 = .ok () ∧
      (∃ h vs, d0.map (·.2) = h :: vs ∧ genericPack m h vs = .ok [4, 2, 0, 10, 0, 0, 0, 7, 8, 9]) ∧
      (∃ h vs, (j.alone d0).2.map (·.2) = h :: vs ∧ genericPack m h vs = .ok [4, 2, 0, 13, 0, 0, 0, 7, 1, 2, 3, 4, 5]) ∧
      (∃ ts w, Runs (decoding j.steps :: [messagePacking j.o m], w0) (ts, w) ∧ ts[1]? = some (.ret (.ok [.bin (.bytes b)]))) ∧
      b = [4, 2, 0, 10, 0, 0, 0, 7, 1, 2, 3, 4, 5] := by
  obtain ⟨ts, w, h1, h2⟩ := run_find (List.replicate 4 1 ++ List.replicate 12 0 ++ List.replicate 8 1)
    (decoding waEcho.steps :: [messagePacking 0 V04.echoRequest], memOf [waEchoOld])
    (fun c => resultOf 1 c = some (.ok [.bin (.bytes [4, 2, 0, 10, 0, 0, 0, 7, 1, 2, 3, 4, 5])])) (by decide +kernel)
  exact ⟨waEcho, V04.echoRequest, waEchoOld, memOf [waEchoOld], _, rfl, by simp [classes, libs, V04.lib], by decide +kernel, by decide +kernel,
    ⟨_, _, rfl, by decide +kernel⟩, ⟨_, _, rfl, by decide +kernel⟩, ⟨ts, w, h1, resultOf_some h2⟩, rfl⟩

private theorem lookup_mem {n : String} {v : Val} : ∀ {d : Dict}, (d.map (·.1)).Nodup → (n, v) ∈ d → d.lookup n = some v
  | (k, x) :: d, hd, h => by
    rw [List.map_cons, List.nodup_cons] at hd
    rcases List.mem_cons.1 h with h' | h'
    · cases h'; simp [List.lookup]
    · have hk : (n == k) = false := by
        rw [beq_eq_false_iff_ne]
        rintro rfl
        exact hd.1 (List.mem_map.2 ⟨_, h', rfl⟩)
      simp only [List.lookup, hk]
      exact lookup_mem hd.2 h'

private theorem each_values {d : Dict} (hd : (d.map (·.1)).Nodup) {P : String → Val → Prop} (hP : ∀ n v, P n v → d.lookup n = some v) :
    ∀ {l : List (String × Val)} {vs : List Val}, (∀ p ∈ l, p ∈ d) → Each P (l.map (·.1)) vs → vs = l.map (·.2)
  | [], _, _, h => by cases h; rfl
  | p :: l, _, hl, h => by
    cases h with
    | cons h1 h2 =>
      have e := each_values hd hP (fun q hq => hl q (List.mem_cons_of_mem _ hq)) h2
      have := (hP _ _ h1).symm.trans (lookup_mem hd (show (p.1, p.2) ∈ d from hl p (List.mem_cons_self ..)))
      cases this
      rw [e]; rfl

private theorem undisturbed {o : Nat} {d0 : Dict} {w0 : Mem} (h0 : Has w0 o d0) {others : List Watcher} (ho : ∀ x ∈ others, x.Away o)
    {i : Nat} {l : List (String × Val)} (hl : ∀ p ∈ l, p ∈ d0) (hi : (others.map (·.reader))[i]? = some (readAll o [] (l.map (·.1)))) :
    ∀ ts w t, Runs (others.map (·.reader), w0) (ts, w) → ts[i]? = some t →
      (∃ t' w', Step (t, w) (t', w')) ∨ ∃ vs, t = .ret (.ok vs) ∧ vs = l.map (·.2) := by
  intro ts w t hr ht
  rcases C80_passing_partial (o := o) (js := []) (by intro j hj; cases hj) h0 (reader_by ho) hr hi
    (by
      intro n hn
      obtain ⟨p, hp, rfl⟩ := List.mem_map.1 hn
      exact List.mem_map.2 ⟨p, hl p hp, rfl⟩) (by simpa using ht) with h | ⟨vs, e, h⟩
  · exact .inl h
  · refine .inr ⟨vs, e, each_values h0.1 ?_ hl h⟩
    rintro n v (e | ⟨j, hj, _⟩)
    · exact e
    · cases hj

/-- Decoding into other objects does not disturb `pack`: whatever threads decode into other objects, pack, measure or read whatever objects, in any
interleaving, a thread that packs an object nobody decodes into can go on or has returned or raised what `pack` does with nobody else there.  The object has
its attributes in the order of the class, as C10 says of all instances. -/
theorem C80_pack_undisturbed {o : Nat} {d0 : Dict} {w0 : Mem} (h0 : Has w0 o d0) {others : List Watcher} (ho : ∀ x ∈ others, x.Away o)
    {ts : List (Steps (List Val))} {w : Mem} (hr : Runs (others.map (·.steps), w0) (ts, w)) {i : Nat} {fs : Fields} (hi : others[i]? = some (.pack o fs))
    (hk : (instanceAttrs fs d0).map (·.1) = fs.map (·.1)) {t : Steps (List Val)} (ht : ts[i]? = some t) :
    (∃ t' w', Step (t, w) (t', w')) ∨ t = .ret (packed (packInstance fs d0)) := by
  obtain ⟨ts', t', h1, h2, h3⟩ := beside hr hi ht
  rcases gather_result (undisturbed h0 ho (l := instanceAttrs fs d0) (fun p hp => (List.mem_filter.1 hp).1)
      (by rw [hk]; simp [hi, Watcher.reader])) h1 h2 h3 with h | ⟨vs, e, rfl⟩
  · exact .inl h
  · exact .inr (by rw [e, packed_fold]; rfl)

/-- The same for `get_size`. -/
theorem C80_size_undisturbed {o : Nat} {d0 : Dict} {w0 : Mem} (h0 : Has w0 o d0) {others : List Watcher} (ho : ∀ x ∈ others, x.Away o)
    {ts : List (Steps (List Val))} {w : Mem} (hr : Runs (others.map (·.steps), w0) (ts, w)) {i : Nat} {fs : Fields} (hi : others[i]? = some (.size o fs))
    (hk : (instanceAttrs fs d0).map (·.1) = fs.map (·.1)) {t : Steps (List Val)} (ht : ts[i]? = some t) :
    (∃ t' w', Step (t, w) (t', w')) ∨ t = .ret (measured (sizeInstance fs d0)) := by
  obtain ⟨ts', t', h1, h2, h3⟩ := beside hr hi ht
  rcases gather_result (undisturbed h0 ho (l := instanceAttrs fs d0) (fun p hp => (List.mem_filter.1 hp).1)
      (by rw [hk]; simp [hi, Watcher.reader])) h1 h2 h3 with h | ⟨vs, e, rfl⟩
  · exact .inl h
  · exact .inr (by rw [e, measured_fold]; rfl)

/-- The same for a message of a class without a `pack` of its own: `GenericMessage.pack` with nobody else there. -/
theorem C80_message_undisturbed {o : Nat} {d0 : Dict} {w0 : Mem} (h0 : Has w0 o d0) {others : List Watcher} (ho : ∀ x ∈ others, x.Away o)
    {ts : List (Steps (List Val))} {w : Mem} (hr : Runs (others.map (·.steps), w0) (ts, w)) {i : Nat} {m : MsgCls} (hi : others[i]? = some (.message o m))
    (hk : (instanceAttrs m.fields d0).map (·.1) = m.fields.map (·.1)) {h : Val} {vs : List Val} (hv : (instanceAttrs m.fields d0).map (·.2) = h :: vs)
    (hm : m.valid vs = .ok ()) {t : Steps (List Val)} (ht : ts[i]? = some t) :
    (∃ t' w', Step (t, w) (t', w')) ∨ t = .ret (packed (genericPack m h vs)) := by
  obtain ⟨ts', t', h1, h2, h3⟩ := beside hr hi ht
  have hin : ∀ p ∈ instanceAttrs m.fields d0, p ∈ d0 := fun p hp => (List.mem_filter.1 hp).1
  rcases gather_result (undisturbed h0 ho (l := instanceAttrs m.fields d0 ++ instanceAttrs m.fields d0)
      (fun p hp => hin p ((List.mem_append.1 hp).elim id id))
      (by rw [List.map_append, hk]; simp [hi, Watcher.reader])) h1 h2 h3 with h | ⟨us, e, rfl⟩
  · exact .inl h
  · right
    rw [e, List.map_append]
    conv => lhs; rw [hv]
    have hl : (h :: vs).length = m.fields.length := by
      have := congrArg List.length hk
      simp only [List.length_map] at this
      rw [← hv, List.length_map, this]
    rw [message_fold m hl]
    simp only [packTwice, genericPack, hm]
    cases sizeAttrs m.fields (h :: vs) with
    | error e => rfl
    | ok n =>
      simp only
      cases setLength n h <;> rfl

/-- The same for an ARP packet. -/
theorem C80_arp_undisturbed {o : Nat} {d0 : Dict} {w0 : Mem} (h0 : Has w0 o d0) {others : List Watcher} (ho : ∀ x ∈ others, x.Away o)
    {ts : List (Steps (List Val))} {w : Mem} (hr : Runs (others.map (·.steps), w0) (ts, w)) {i : Nat} (hi : others[i]? = some (.arp o))
    (hk : (instanceAttrs Net.arpFields d0).map (·.1) = Net.arpFields.map (·.1)) {t : Steps (List Val)} (ht : ts[i]? = some t) :
    (∃ t' w', Step (t, w) (t', w')) ∨ t = .ret (packed (Net.arpPack ((instanceAttrs Net.arpFields d0).map (·.2)))) := by
  obtain ⟨ts', t', h1, h2, h3⟩ := beside hr hi ht
  have hin : ∀ p ∈ instanceAttrs Net.arpFields d0, p ∈ d0 := fun p hp => (List.mem_filter.1 hp).1
  match hl : instanceAttrs Net.arpFields d0, hk with
  | (n1, h) :: (n2, p) :: l, hk =>
    rw [hl] at hin
    have e1 : n1 = "htype" ∧ n2 = "ptype" := by
      simp only [List.map_cons, Net.arpFields, List.cons.injEq] at hk
      exact ⟨hk.1, hk.2.1⟩
    obtain ⟨rfl, rfl⟩ := e1
    rcases gather_result (undisturbed h0 ho (l := [("htype", h), ("ptype", p)] ++ ("htype", h) :: ("ptype", p) :: l)
        (fun q hq => hin q (by
          rcases List.mem_append.1 hq with hq | hq
          · exact List.mem_append_left l hq
          · exact hq))
        (by rw [List.map_append, hk]; simp [hi, Watcher.reader])) h1 h2 h3 with h | ⟨us, e, rfl⟩
    · exact .inl h
    · right
      rw [e]
      simp only [List.map_append, List.map_cons, List.map_nil, List.cons_append, List.nil_append]
      rw [arp_fold]
      simp only [packChecked, Net.arpPack, Net.arpIsValid]
      match pyEq h (.int 1) with
      | .error e => rfl
      | .ok false => rfl
      | .ok true =>
        match pyEq p (.enum 0x0800) with
        | .error e => rfl
        | .ok false => rfl
        | .ok true => rfl

/-- The queue property is packed and measured while the configuration is decoded into another object. -/
example {ts : List (Steps (List Val))} {w : Mem} (hr : Runs (waPackers.map (·.steps), waQueueMem) (ts, w)) {r : Res (List Val)}
    (h : ts[0]? = some (.ret r)) : r = .ok [.bin (.bytes [0, 1, 0, 16, 0, 0, 0, 0])] := by
  rcases C80_pack_undisturbed (d0 := waQueueOld) (by decide +kernel) waPackers_away hr (i := 0) rfl (by decide +kernel) h with ⟨t', w', hs⟩ | e
  · cases hs
  · cases e; decide +kernel

example {ts : List (Steps (List Val))} {w : Mem} (hr : Runs (waPackers.map (·.steps), waQueueMem) (ts, w)) {r : Res (List Val)}
    (h : ts[1]? = some (.ret r)) : r = .ok [.int 8] := by
  rcases C80_size_undisturbed (d0 := waQueueOld) (by decide +kernel) waPackers_away hr (i := 1) rfl (by decide +kernel) h with ⟨t', w', hs⟩ | e
  · cases hs
  · cases e; decide +kernel

/-- The echo request is packed while a configuration is decoded. -/
example {ts : List (Steps (List Val))} {w : Mem}
    (hr : Runs ([Watcher.message 0 V04.echoRequest, .other (decoding waConfig.steps)].map (·.steps), memOf [waEchoOld, dcNew V04.setConfig]) (ts, w))
    {r : Res (List Val)} (h : ts[0]? = some (.ret r)) : r = .ok [.bin (.bytes [4, 2, 0, 10, 0, 0, 0, 7, 8, 9])] := by
  rcases C80_message_undisturbed (o := 0) (d0 := waEchoOld) (by decide +kernel)
    (by
      intro x hx
      simp only [List.mem_cons, List.not_mem_nil, or_false] at hx
      rcases hx with rfl | rfl
      · trivial
      · exact .inr ⟨waConfig, by decide, rfl⟩)
    hr (i := 0) rfl (by decide +kernel) (h := .obj "04.Header" [.ub 1 (.int 4), .enum 2, .none, .int 7]) (vs := [.bin (.bytes [8, 9])])
    (by decide +kernel) rfl h with ⟨t', w', hs⟩ | e
  · cases hs
  · cases e; decide +kernel

/-- A packet of another hardware type is decoded into an ARP object, which raises an exception, while a thread packs it. -/
def waArpOld : Dict := (waArp.alone (newInstance Net.arpFields)).2
def waArpBad : Job := ⟨.arp, 0, [0, 2, 8, 0, 6, 4, 0, 1, 1, 2, 3, 4, 5, 6, 10, 0, 0, 1, 0, 0, 0, 0, 0, 0, 10, 0, 0, 2], 0, fun _ => [], .none⟩

example {ts : List (Steps (List Val))} {w : Mem} (hr : Runs (decoding waArpBad.steps :: [Watcher.arp 0].map (·.steps), memOf [waArpOld]) (ts, w))
    {r : Res (List Val)} (h : ts[1]? = some (.ret r)) : ∃ x y vs c, r = packed (packChecked x y vs) ∧
      Seen 0 (decoding waArpBad.steps, memOf [waArpOld]) (["htype", "ptype"] ++ Net.arpFields.map (·.1)) (x :: y :: vs) c := by
  rcases C80_pack_arp_partial (j := waArpBad) (d0 := waArpOld) (by decide +kernel) (by intro x hx; cases List.mem_singleton.1 hx; trivial) hr (i := 0) rfl
    (by decide +kernel) h with ⟨t', w', hs⟩ | ⟨x, y, vs, c, e, hu⟩
  · cases hs
  · cases e; exact ⟨x, y, vs, c, rfl, hu⟩

/-- The ARP packet is packed while a configuration is decoded into another object. -/
example {ts : List (Steps (List Val))} {w : Mem}
    (hr : Runs ([Watcher.arp 0, .other (decoding waConfig.steps)].map (·.steps), memOf [waArpOld, dcNew V04.setConfig]) (ts, w))
    {r : Res (List Val)} (h : ts[0]? = some (.ret r)) : r = .ok [.bin (.bytes waArp.buff)] := by
  rcases C80_arp_undisturbed (o := 0) (d0 := waArpOld) (by decide +kernel)
    (by
      intro x hx
      simp only [List.mem_cons, List.not_mem_nil, or_false] at hx
      rcases hx with rfl | rfl
      · trivial
      · exact .inr ⟨waConfig, by decide, rfl⟩)
    hr (i := 0) rfl (by decide +kernel) h with ⟨t', w', hs⟩ | e
  · cases hs
  · cases e; decide +kernel

/-- An ARP packet that is packed meanwhile may be one that the check rejects: `pack` raises a ValidationError for what the call leaves, but the thread gets the
bytes of a packet of hardware type 2. -/
theorem C80_arp_counterexample :
    ∃ (j : Job) (d0 : Dict) (w0 : Mem) (b : Bytes), j.cls = .arp ∧ Has w0 j.o d0 ∧ (j.alone d0).1 = .error .unpack ∧
      (∃ b', Net.arpPack (d0.map (·.2)) = .ok b') ∧ Net.arpPack ((j.alone d0).2.map (·.2)) = .error .validation ∧
      (∃ ts w, Runs (decoding j.steps :: [arpPacking j.o], w0) (ts, w) ∧ ts[1]? = some (.ret (.ok [.bin (.bytes b)]))) ∧ b.take 2 = [0, 2] := by
  obtain ⟨ts, w, h1, h2⟩ := run_find (List.replicate 4 1 ++ List.replicate 60 0 ++ List.replicate 20 1)
    (decoding waArpBad.steps :: [arpPacking 0], memOf [waArpOld])
    (fun c => resultOf 1 c = some (.ok [.bin (.bytes waArpBad.buff)])) (by decide +kernel)
  exact ⟨waArpBad, waArpOld, memOf [waArpOld], _, rfl, by decide +kernel, by decide +kernel, ⟨waArp.buff, by decide +kernel⟩, by decide +kernel,
    ⟨ts, w, h1, resultOf_some h2⟩, by decide +kernel⟩

end Pyof.Props
