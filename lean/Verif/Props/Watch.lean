import Verif.Lemmas.WatchAlone
import Verif.Props.Decode
/-!
# C80: attributes that are read while the object is decoded into
-/
namespace Pyof.Props
open Pyof.Spec Pyof.Decode

private theorem lookup_of_key {n : String} : ∀ {d : Dict}, n ∈ d.map (·.1) → (d.lookup n).isSome
  | [], h => by cases h
  | (k, v) :: d, h => by
    by_cases hk : n = k
    · simp [List.lookup, hk]
    · have : (n == k) = false := by simpa using hk
      simp only [List.lookup, this]
      exact lookup_of_key ((List.mem_cons.1 h).resolve_left hk)

/-- C80, for `PacketOut`, Ethernet frames and LLDP TLVs, whose `unpack` stores an attribute when it is complete.  One thread decodes a packet into the
object; any number of threads read attributes of it or of other objects, or decode into other objects, in any interleaving.  A reading thread can go on
or has returned, without an exception; what it has read of each attribute is what the object had before the call or what the call leaves in it, also if
the call raises an exception. -/
theorem C80_complete_partial {j : Job} (hc : j.cls.Complete) {d0 : Dict} {w0 : Mem} (h0 : Has w0 j.o d0) {others : List (Steps (List Val))}
    (ho : ∀ t ∈ others, Bystander j.o t) {ts : List (Steps (List Val))} {w : Mem} (hr : Runs (decoding j.steps :: others, w0) (ts, w))
    {i : Nat} {ns : List String} (hi : others[i]? = some (readAll j.o [] ns)) (hns : ∀ n ∈ ns, n ∈ d0.map (·.1)) {t : Steps (List Val)}
    (ht : ts[i + 1]? = some t) :
    (∃ t' w', Step (t, w) (t', w')) ∨
    ∃ vs, t = .ret (.ok vs) ∧ Each (fun n v => d0.lookup n = some v ∨ (j.alone d0).2.lookup n = some v) ns vs := by
  obtain ⟨refs, hw⟩ := watched_start hc h0 ho
  obtain ⟨d, K, S, own, refs, h⟩ := hw.runs hr
  have hsome : ∀ n ∈ ns, (d0.lookup n).isSome := by
    intro n hn
    exact lookup_of_key (hns n hn)
  obtain ⟨dn, got, rest, e, he, hx⟩ := h.readers i t ns ht hi hsome
  rcases hx with rfl | ⟨n, rest', a, v, _, hS, hv, _, rfl⟩
  · cases rest with
    | nil => right; exact ⟨got, rfl, by rw [e, List.append_nil]; exact he⟩
    | cons n rest =>
      left
      obtain ⟨a, ha⟩ := Option.isSome_iff_exists.1 (h.keys n (hsome n (by rw [e]; simp)))
      exact ⟨_, _, .look h.obj ha⟩
  · left; exact ⟨_, _, .read hv⟩

/-- A frame is decoded into a new `Ethernet` object while a thread reads its addresses and its data, and another decodes into another object. -/
def waJob : Job := ⟨.ethernet, 0, [1, 2, 3, 4, 5, 6, 7, 8, 9, 10, 11, 12, 0x81, 0, 0, 5, 8, 0, 9], 0, fun _ => [.none], .none⟩
def waConfig : Job := ⟨.message V04.setConfig, 1, [0, 1, 0, 128], 0, fun _ => [], .none⟩
def waMem : Mem := memOf [newInstance Net.ethernetFields, dcNew V04.setConfig]
def waOthers : List (Steps (List Val)) := [readAll 0 [] ["destination", "source", "data"], decoding waConfig.steps, readAll 1 [] ["flags"]]

theorem waMem_has : Has waMem 0 (newInstance Net.ethernetFields) := by decide +kernel

theorem waOthers_by : ∀ t ∈ waOthers, Bystander 0 t := by
  intro t ht
  simp only [waOthers, List.mem_cons, List.not_mem_nil, or_false] at ht
  rcases ht with rfl | rfl | rfl
  · exact .inl ⟨_, _, rfl⟩
  · exact .inr ⟨waConfig, by decide, rfl⟩
  · exact .inl ⟨_, _, rfl⟩

example {ts : List (Steps (List Val))} {w : Mem} (hr : Runs (decoding waJob.steps :: waOthers, waMem) (ts, w)) {vs : List Val}
    (h : ts[1]? = some (.ret (.ok vs))) : ∃ a b c, vs = [a, b, c] ∧ (a = .hw (.str "00:00:00:00:00:00".toList) ∨ a = .hw (.str "01:02:03:04:05:06".toList)) ∧
      (c = .bin .none ∨ c = .bin (.bytes [9])) := by
  have := C80_complete_partial (j := waJob) trivial waMem_has waOthers_by hr (i := 0) rfl (by decide) h
  rcases this with ⟨t', w', hs⟩ | ⟨us, e, hu⟩
  · cases hs
  · cases e
    cases hu with | cons h1 hu => cases hu with | cons h2 hu => cases hu with | cons h3 hu => cases hu with | nil =>
    refine ⟨_, _, _, rfl, h1.imp (fun e => ?_) (fun e => ?_), h3.imp (fun e => ?_) (fun e => ?_)⟩
    · exact (Option.some.inj (e.symm.trans (by decide +kernel)))
    · exact (Option.some.inj (e.symm.trans (by decide +kernel)))
    · exact (Option.some.inj (e.symm.trans (by decide +kernel)))
    · exact (Option.some.inj (e.symm.trans (by decide +kernel)))

/-- Both calls and both reads end in some run. -/
example : ∃ ts w, Runs (decoding waJob.steps :: waOthers, waMem) (ts, w) ∧
    ts[1]? = some (.ret (.ok [.hw (.str "01:02:03:04:05:06".toList), .hw (.str "00:00:00:00:00:00".toList), .bin .none])) := by
  obtain ⟨ts, w, h1, h2⟩ := run_find (List.replicate 5 0 ++ List.replicate 20 1) (decoding waJob.steps :: waOthers, waMem)
    (fun c => resultOf 1 c = some (.ok [.hw (.str "01:02:03:04:05:06".toList), .hw (.str "00:00:00:00:00:00".toList), .bin .none])) (by decide +kernel)
  exact ⟨ts, w, h1, resultOf_some h2⟩

/-- A packet-out that ends in the middle of its actions: `in_port` is of the new packet or of the old one, the actions are the old ones. -/
def waCut : Job := ⟨.message V01.packetOut, 0, [0, 0, 0, 7, 0, 9, 0, 8, 0, 0, 0, 8, 0], 0, fun _ => [.none], .none⟩

example {ts : List (Steps (List Val))} {w : Mem}
    (hr : Runs (decoding waCut.steps :: [readAll 0 [] ["in_port", "actions"], readAll 0 [] ["data"]], memOf [dcNew V01.packetOut]) (ts, w)) {vs : List Val}
    (h : ts[1]? = some (.ret (.ok vs))) :
    (waCut.alone (dcNew V01.packetOut)).1 ≠ .ok () ∧ ∃ a b, vs = [a, b] ∧ (a = .ub 2 .none ∨ a = .ub 2 (.int 9)) ∧ b = .list true [] := by
  have := C80_complete_partial (j := waCut) (show Cls.Complete (.message V01.packetOut) from ⟨by simp [classes, libs, V01.lib], .inl rfl⟩)
    (d0 := dcNew V01.packetOut) (by decide +kernel)
    (by intro t ht; simp only [List.mem_cons, List.not_mem_nil, or_false] at ht; rcases ht with rfl | rfl <;> exact .inl ⟨_, _, rfl⟩)
    hr (i := 0) rfl (by decide +kernel) h
  refine ⟨by decide +kernel, ?_⟩
  rcases this with ⟨t', w', hs⟩ | ⟨us, e, hu⟩
  · cases hs
  · cases e
    cases hu with | cons h1 hu => cases hu with | cons h2 hu => cases hu with | nil =>
    refine ⟨_, _, rfl, h1.imp (fun e => ?_) (fun e => ?_), h2.elim (fun e => ?_) (fun e => ?_)⟩
    · exact (Option.some.inj (e.symm.trans (by decide +kernel)))
    · exact (Option.some.inj (e.symm.trans (by decide +kernel)))
    · exact (Option.some.inj (e.symm.trans (by decide +kernel)))
    · exact (Option.some.inj (e.symm.trans (by decide +kernel)))

/-- C80, for the classes whose `unpack` only stores into the object: the structures and messages with the inherited `unpack`, the structures cut at a
length in a local variable, Ethernet frames, LLDP TLVs, and assignments.  Any number of threads decode into the same object or assign attributes of it,
others read attributes of it or of other objects or decode into other objects, in any interleaving.  A reading thread can go on or has returned,
without an exception; what it has read of each attribute is what the object had before the calls, what one of the calls leaves in it whatever it held,
or what the attribute is in passing while one of the calls decodes it.  Missing: that it is not in passing, as the code violates it, and the classes
whose `unpack` reads from the object. -/
theorem C80_passing_partial {o : Nat} {js : List Job} (hj : ∀ j ∈ js, j.o = o ∧ j.cls.stores ∧ j.cls.Distinct) {d0 : Dict} {w0 : Mem}
    (h0 : Has w0 o d0) {others : List (Steps (List Val))} (ho : ∀ t ∈ others, Bystander o t) {ts : List (Steps (List Val))} {w : Mem}
    (hr : Runs ((js.map fun j => decoding j.steps) ++ others, w0) (ts, w)) {i : Nat} {ns : List String} (hi : others[i]? = some (readAll o [] ns))
    (hns : ∀ n ∈ ns, n ∈ d0.map (·.1)) {t : Steps (List Val)} (ht : ts[js.length + i]? = some t) :
    (∃ t' w', Step (t, w) (t', w')) ∨
    ∃ vs, t = .ret (.ok vs) ∧
      Each (fun n v => d0.lookup n = some v ∨ ∃ j ∈ js, (∀ d, (j.alone d).2.lookup n = some v) ∨ j.Passes n v) ns vs := by
  obtain ⟨refs, hw⟩ := many_start hj h0 ho
  obtain ⟨K, refs, h⟩ := hw.runs hr
  have hsome : ∀ n ∈ ns, (d0.lookup n).isSome := fun n hn => lookup_of_key (hns n hn)
  have hi' : ((js.map fun j => decoding j.steps) ++ others)[js.length + i]? = some (readAll o [] ns) := by
    rw [List.getElem?_append_right (by simp)]
    simpa using hi
  obtain ⟨dn, got, rest, e, he, hx⟩ := h.readers _ t ns ht hi' hsome
  rcases hx with rfl | ⟨n, rest', a, _, hA, rfl⟩
  · cases rest with
    | nil => right; exact ⟨got, rfl, by rw [e, List.append_nil]; exact he⟩
    | cons n rest =>
      left
      obtain ⟨a, ha⟩ := Option.isSome_iff_exists.1 (h.keys n (hsome n (by rw [e]; simp)))
      exact ⟨_, _, .look h.obj ha⟩
  · left
    obtain ⟨v, hv, _⟩ := h.value hA
    exact ⟨_, _, .read hv⟩

/-- Two threads decode different configurations into the same object, a third assigns the flags, while one reads both attributes and another decodes
into another object.  A number that is read as miss_send_len is the old one or one of the two new ones. -/
def waConfigs : List Job := [⟨.message V04.setConfig, 0, [0, 1, 0, 128], 0, fun _ => [], .none⟩, ⟨.message V04.setConfig, 0, [0, 2, 2, 0], 0, fun _ => [], .none⟩,
  ⟨.assign [("flags", .ub 2 (.enum 3))], 0, [], 0, fun _ => [], .none⟩]
def waOld : Dict := (dcNew V04.setConfig).set "miss_send_len" (.ub 2 (.int 256))

example {ts : List (Steps (List Val))} {w : Mem}
    (hr : Runs ((waConfigs.map fun j => decoding j.steps) ++ [readAll 0 [] ["flags", "miss_send_len"], decoding waConfig.steps], memOf [waOld, dcNew V04.setConfig])
      (ts, w)) {vs : List Val} (h : ts[3]? = some (.ret (.ok vs))) :
    ∃ a b, vs = [a, b] ∧ (b = .ub 2 .none ∨ b = .ub 2 (.int 256) ∨ b = .ub 2 (.int 128) ∨ b = .ub 2 (.int 512)) := by
  have hm : V04.setConfig ∈ classes := by simp [classes, libs, V04.lib]
  have := C80_passing_partial (o := 0) (js := waConfigs)
    (by
      intro j hj
      simp only [waConfigs, List.mem_cons, List.not_mem_nil, or_false] at hj
      rcases hj with rfl | rfl | rfl
      · exact ⟨rfl, by decide, hm⟩
      · exact ⟨rfl, by decide, hm⟩
      · exact ⟨rfl, trivial, trivial⟩)
    (d0 := waOld) (by decide +kernel)
    (by
      intro t ht
      simp only [List.mem_cons, List.not_mem_nil, or_false] at ht
      rcases ht with rfl | rfl
      · exact .inl ⟨_, _, rfl⟩
      · exact .inr ⟨waConfig, by decide, rfl⟩)
    hr (i := 0) rfl (by decide +kernel) h
  rcases this with ⟨t', w', hs⟩ | ⟨us, e, hu⟩
  · cases hs
  · cases e
    cases hu with | cons h1 hu => cases hu with | cons h2 hu => cases hu with | nil =>
    refine ⟨_, _, rfl, ?_⟩
    have half : ∀ {c : Attr} {v : Val}, ("miss_send_len", c) ∈ V04.setConfig.body → (v = c.proto ∨ v ∈ ([] : List Val)) → v = .ub 2 .none := by
      intro c v hc hv
      rcases hv with rfl | hv
      · have : ∀ p ∈ V04.setConfig.body, p.1 = "miss_send_len" → p.2.proto = .ub 2 .none := by decide +kernel
        exact this _ hc rfl
      · cases hv
    rcases h2 with e | ⟨j, hj, e⟩
    · exact .inr (.inl (Option.some.inj (e.symm.trans (by decide +kernel))))
    · simp only [waConfigs, List.mem_cons, List.not_mem_nil, or_false] at hj
      rcases hj with rfl | rfl | rfl
      · rcases e with e | ⟨c, hc, hv⟩
        · exact .inr (.inr (.inl (Option.some.inj ((e waOld).symm.trans (by decide +kernel)))))
        · exact .inl (half hc hv)
      · rcases e with e | ⟨c, hc, hv⟩
        · exact .inr (.inr (.inr (Option.some.inj ((e waOld).symm.trans (by decide +kernel)))))
        · exact .inl (half hc hv)
      · rcases e with e | e
        · exact absurd ((show none = _ by decide +kernel).trans (e [])) nofun
        · exact absurd (List.mem_singleton.1 e) (by simp)

/-- Such a run, in which the reader gets the assigned flags and the second configuration. -/
example : ∃ ts w, Runs ((waConfigs.map fun j => decoding j.steps) ++ [readAll 0 [] ["flags", "miss_send_len"], decoding waConfig.steps],
    memOf [waOld, dcNew V04.setConfig]) (ts, w) ∧ ts[3]? = some (.ret (.ok [.ub 2 (.enum 3), .ub 2 (.int 512)])) := by
  obtain ⟨ts, w, h1, h2⟩ := run_find (List.replicate 9 0 ++ List.replicate 9 1 ++ List.replicate 3 2 ++ List.replicate 5 3)
    ((waConfigs.map fun j => decoding j.steps) ++ [readAll 0 [] ["flags", "miss_send_len"], decoding waConfig.steps], memOf [waOld, dcNew V04.setConfig])
    (fun c => resultOf 3 c = some (.ok [.ub 2 (.enum 3), .ub 2 (.int 512)])) (by decide +kernel)
  exact ⟨ts, w, h1, resultOf_some h2⟩

/-- C80, for all classes of C79, also those whose `unpack` reads from the object.  One thread decodes a packet into the object; any number of threads read
attributes of it or of other objects, or decode into other objects, in any interleaving.  A reading thread can go on or has returned, without an
exception; what it has read, one attribute after the other, is what somebody would see who looks at the object while the call goes on without any
other threads, at each attribute in one go and in this order.  Missing: that these are the attributes from before or after the call, as the code violates
it. -/
theorem C80_moments_partial {j : Job} {d0 : Dict} {w0 : Mem} (h0 : Has w0 j.o d0) {others : List (Steps (List Val))} (ho : ∀ t ∈ others, Bystander j.o t)
    {ts : List (Steps (List Val))} {w : Mem} (hr : Runs (decoding j.steps :: others, w0) (ts, w)) {i : Nat} {ns : List String}
    (hi : others[i]? = some (readAll j.o [] ns)) (hns : ∀ n ∈ ns, n ∈ d0.map (·.1)) {t : Steps (List Val)} (ht : ts[i + 1]? = some t) :
    (∃ t' w', Step (t, w) (t', w')) ∨ ∃ vs c, t = .ret (.ok vs) ∧ Seen j.o (decoding j.steps, w0) ns vs c := by
  obtain ⟨refs, hw⟩ := solo_start h0 ho
  obtain ⟨s, u, ρ, F, own, refs, refs', h⟩ := hw.runs hr
  have hsome : ∀ n ∈ ns, (d0.lookup n).isSome := fun n hn => lookup_of_key (hns n hn)
  obtain ⟨dn, got, rest, e, hx⟩ := h.readers i t ns ht hi hsome
  rcases hx with ⟨rfl, he⟩ | ⟨n, rest', a, _, hA, rfl⟩
  · cases rest with
    | nil => right; exact ⟨got, _, rfl, by rw [e, List.append_nil]; exact he⟩
    | cons n rest =>
      left
      obtain ⟨a, ha⟩ := Option.isSome_iff_exists.1 (h.keys n (hsome n (by rw [e]; simp)))
      exact ⟨_, _, .look h.obj ha⟩
  · left
    obtain ⟨v, hv, _⟩ := h.found hA
    exact ⟨_, _, .read hv⟩

/-- An ARP packet is decoded; `unpack` reads `htype` and `ptype` again.  A thread reads the target address, then the source address, another decodes into
another object.  If the target address is the one of the packet, then so is the source address: it has been decoded before.  -/
def waArp : Job := ⟨.arp, 0, [0, 1, 8, 0, 6, 4, 0, 1, 1, 2, 3, 4, 5, 6, 10, 0, 0, 1, 0, 0, 0, 0, 0, 0, 10, 0, 0, 2], 0, fun _ => [], .none⟩
def waArpMem : Mem := memOf [newInstance Net.arpFields, dcNew V04.setConfig]

example {ts : List (Steps (List Val))} {w : Mem}
    (hr : Runs (decoding waArp.steps :: [readAll 0 [] ["tpa", "spa"], decoding waConfig.steps], waArpMem) (ts, w)) {vs : List Val}
    (h : ts[1]? = some (.ret (.ok vs))) :
    ∃ a b, vs = [a, b] ∧ (a = .ip (.str "10.0.0.2".toList) 32 → b = .ip (.str "10.0.0.1".toList) 32) := by
  have := C80_moments_partial (j := waArp) (d0 := newInstance Net.arpFields) (by decide +kernel)
    (by
      intro t ht
      simp only [List.mem_cons, List.not_mem_nil, or_false] at ht
      rcases ht with rfl | rfl
      · exact .inl ⟨_, _, rfl⟩
      · exact .inr ⟨waConfig, by decide, rfl⟩)
    hr (i := 0) rfl (by decide +kernel) h
  rcases this with ⟨t', w', hs⟩ | ⟨us, c, e, hu⟩
  · cases hs
  · cases e
    obtain ⟨k, l, _, h1, h2, h3, h4⟩ := seen_times hu
    match l, h1, h2, h3, h4 with
    | [(k1, n1, v1), (k2, n2, v2)], h1, h2, h3, h4 =>
      simp only [List.map_cons, List.map_nil, List.cons.injEq, and_true] at h1
      obtain ⟨rfl, rfl⟩ := h1
      refine ⟨v1, v2, h2.symm, ?_⟩
      have hk : k1 ≤ k2 := by simpa using h3
      have s1 := (h4 _ (List.mem_cons_self ..)).2.shown
      have s2 := (h4 (k2, "spa", v2) (by simp)).2.shown
      have hend : next (after (decoding waArp.steps, waArpMem) 40).2 (after (decoding waArp.steps, waArpMem) 40).1 = none := by decide +kernel
      rw [after_end hend] at s1 s2
      rintro rfl
      have all : ∀ i < 41, ∀ j < 41, i ≤ j → shown (after (decoding waArp.steps, waArpMem) i).2 0 "tpa" = some (.ip (.str "10.0.0.2".toList) 32) →
          shown (after (decoding waArp.steps, waArpMem) j).2 0 "spa" = some (.ip (.str "10.0.0.1".toList) 32) := by decide +kernel
      exact Option.some.inj (s2.symm.trans (all (min k1 40) (by omega) (min k2 40) (by omega) (by omega) s1))

example : ∃ ts w, Runs (decoding waArp.steps :: [readAll 0 [] ["tpa", "spa"], decoding waConfig.steps], waArpMem) (ts, w) ∧
    ts[1]? = some (.ret (.ok [.ip (.str "10.0.0.2".toList) 32, .ip (.str "10.0.0.1".toList) 32])) := by
  obtain ⟨ts, w, h1, h2⟩ := run_find (List.replicate 36 0 ++ List.replicate 5 1)
    (decoding waArp.steps :: [readAll 0 [] ["tpa", "spa"], decoding waConfig.steps], waArpMem)
    (fun c => resultOf 1 c = some (.ok [.ip (.str "10.0.0.2".toList) 32, .ip (.str "10.0.0.1".toList) 32])) (by decide +kernel)
  exact ⟨ts, w, h1, resultOf_some h2⟩

/-- C80 fails for the inherited `unpack`, which stores a copy of the class attribute and decodes into it afterwards.  A switch configuration with
miss_send_len 256 is decoded again from a packet with 128: a thread that reads the attribute meanwhile may get one without a number. -/
theorem C80_default_counterexample :
    ∃ (j : Job) (d0 : Dict) (w0 : Mem), Has w0 j.o d0 ∧ (j.alone d0).1 = .ok () ∧ d0.lookup "miss_send_len" = some (.ub 2 (.int 256)) ∧
      (j.alone d0).2.lookup "miss_send_len" = some (.ub 2 (.int 128)) ∧
      ∃ ts w, Runs (decoding j.steps :: [readAll j.o [] ["miss_send_len"]], w0) (ts, w) ∧ ts[1]? = some (.ret (.ok [.ub 2 .none])) := by
  let d0 := (dcNew V04.setConfig).set "miss_send_len" (.ub 2 (.int 256))
  let j : Job := ⟨.message V04.setConfig, 0, [0, 1, 0, 128], 0, fun _ => [], .none⟩
  obtain ⟨ts, w, h1, h2⟩ := run_find (List.replicate 6 0 ++ List.replicate 4 1) (decoding j.steps :: [readAll j.o [] ["miss_send_len"]], memOf [d0])
    (fun c => resultOf 1 c = some (.ok [.ub 2 .none])) (by decide +kernel)
  exact ⟨j, d0, memOf [d0], by decide +kernel, by decide +kernel, by decide +kernel, by decide +kernel, ts, w, h1, resultOf_some h2⟩

/-- Two attributes that are read one after the other may be of different packets, also where every single one is complete: the destination of the
new frame with the source of the old one. -/
theorem C80_torn_counterexample :
    ∃ (j : Job) (d0 : Dict) (w0 : Mem), j.cls.Complete ∧ Has w0 j.o d0 ∧ (j.alone d0).1 = .ok () ∧
      ∃ ts w a b, Runs (decoding j.steps :: [readAll j.o [] ["destination", "source"]], w0) (ts, w) ∧ ts[1]? = some (.ret (.ok [a, b])) ∧
        ¬ (d0.lookup "destination" = some a ∧ d0.lookup "source" = some b) ∧
        ¬ ((j.alone d0).2.lookup "destination" = some a ∧ (j.alone d0).2.lookup "source" = some b) := by
  let d0 := newInstance Net.ethernetFields
  obtain ⟨ts, w, h1, h2⟩ := run_find (List.replicate 5 0 ++ List.replicate 20 1) (decoding waJob.steps :: [readAll 0 [] ["destination", "source"]], memOf [d0])
    (fun c => resultOf 1 c = some (.ok [.hw (.str "01:02:03:04:05:06".toList), .hw (.str "00:00:00:00:00:00".toList)])) (by decide +kernel)
  exact ⟨waJob, d0, memOf [d0], trivial, by decide +kernel, by decide +kernel, ts, w, _, _, h1, resultOf_some h2, by decide +kernel, by decide +kernel⟩

end Pyof.Props
