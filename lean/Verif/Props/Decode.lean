import Verif.Lemmas.Decode
import Verif.Props.ReuseNet
/-!
# C79: objects that several threads decode into
-/
namespace Pyof.Props
open Decode

private theorem has_same {w : Mem} {o : Nat} {d d' : Dict} (h : Has w o d) (h' : Has w o d') : d = d' := h.dict.symm.trans h'.dict

/-- The memory after any steps, for an object that exists: its references, and what they refer to. -/
private theorem after {js : List Job} {w0 : Mem} {ts : List (Steps Unit)} {w : Mem} {K : Nat → Known} {L : Nat → Links}
    (h : Inv (js.map (task w0)) w0 ts w K L) {o : Nat} {d : Dict} (hd : Has w0 o d) :
    ∃ refs d', w.objs[o]? = some refs ∧ refs.map (·.1) = d.map (·.1) ∧ Has w o d' ∧ d'.map (·.1) = d.map (·.1) ∧
      ∀ n, d'.lookup n = (refs.lookup n).bind (w.heap[·]?) ∧
        ((d'.lookup n = d.lookup n ∧ ∀ (i : Nat) j, js[i]? = some j → j.o = o → L i n = none) ∨
          ∃ (i : Nat) (j : Job) (a : Nat) (v : Val), js[i]? = some j ∧ j.o = o ∧ L i n = some a ∧ K i a = some v ∧ d'.lookup n = some v) := by
  obtain ⟨hnd, refs0, h1, h2⟩ := hd
  have hlt : o < w.objs.length := by rw [h.objs]; exact (List.getElem?_eq_some_iff.1 h1).1
  have hr : w.objs[o]? = some w.objs[o] := List.getElem?_eq_getElem hlt
  have hk0 : refs0.map (·.1) = d.map (·.1) := by
    have := congrArg (List.map (·.1)) h2
    simp only [List.map_map] at this
    exact this
  have hk := (h.keys o _ _ hr h1).trans hk0
  have hl0 := fun n => refs_lookup n h2
  -- every reference is known to one of the threads, or old
  have cases' : ∀ n, (w.objs[o].lookup n = refs0.lookup n ∧ (∀ (i : Nat) j, js[i]? = some j → j.o = o → L i n = none) ∧
        (w.objs[o].lookup n).bind (w.heap[·]?) = d.lookup n) ∨
      ∃ (i : Nat) (j : Job) (a : Nat) (v : Val), js[i]? = some j ∧ j.o = o ∧ L i n = some a ∧ K i a = some v ∧ w.objs[o].lookup n = some a ∧
        w.heap[a]? = some v := by
    intro n
    rcases h.refs o _ _ hr h1 n with ⟨e, hn⟩ | ⟨i, t, a, ht, ho, hL, hlk⟩
    · refine Or.inl ⟨e, fun i j hj ho => hn i (task w0 j) (by rw [List.getElem?_map, hj]; rfl) ho, ?_⟩
      rw [e, (hl0 n).1]
      cases hx : refs0.lookup n with
      | none => rfl
      | some a =>
        have := (hl0 n).2 a hx
        obtain ⟨v, hv⟩ := Option.isSome_iff_exists.1 this
        exact h.old a (List.getElem?_eq_some_iff.1 hv).1
    · rw [List.getElem?_map] at ht
      obtain ⟨j, hj, rfl⟩ := Option.map_eq_some_iff.1 ht
      obtain ⟨v, hv⟩ := Option.isSome_iff_exists.1 (h.linked i n a hL)
      exact Or.inr ⟨i, j, a, v, hj, ho, hL, hv, hlk, h.known i a v hv⟩
  have valid : ∀ n a, w.objs[o].lookup n = some a → (w.heap[a]?).isSome := by
    intro n a ha
    rcases cases' n with ⟨e, _, hb⟩ | ⟨i, j, b, v, _, _, _, _, hb, hv⟩
    · rw [ha] at hb e
      obtain ⟨v, hv⟩ := Option.isSome_iff_exists.1 ((hl0 n).2 a e.symm)
      rw [h.old a (List.getElem?_eq_some_iff.1 hv).1, hv]; rfl
    · rw [ha] at hb; cases hb; rw [hv]; rfl
  have look : ∀ n, (dictOf w o).lookup n = (w.objs[o].lookup n).bind (w.heap[·]?) := by
    intro n
    have : ∀ l : List (String × Nat), (∀ n a, l.lookup n = some a → (w.heap[a]?).isSome) →
        (l.map fun r => (r.1, (w.heap[r.2]?).getD .none)).lookup n = (l.lookup n).bind (w.heap[·]?) := by
      intro l hl
      have key : ∀ l : List (String × Nat), (l.map fun r => (r.1, (w.heap[r.2]?).getD .none)).lookup n = (l.lookup n).map fun a => (w.heap[a]?).getD .none := by
        intro l
        induction l with
        | nil => rfl
        | cons x l ih =>
          obtain ⟨k, a⟩ := x
          simp only [List.map_cons, List.lookup]
          cases (n == k) with
          | true => rfl
          | false => exact ih
      rw [key]
      cases hx : l.lookup n with
      | none => rfl
      | some a =>
        obtain ⟨v, hv⟩ := Option.isSome_iff_exists.1 (hl n a hx)
        simp [hv]
    rw [dictOf, hr]; exact this _ valid
  have keys' : (dictOf w o).map (·.1) = d.map (·.1) := by
    rw [dictOf, hr, List.map_map]; exact hk
  refine ⟨_, dictOf w o, hr, hk, ⟨by rw [keys']; exact hnd, _, hr, ?_⟩, keys', fun n => ⟨look n, ?_⟩⟩
  · exact refs_has (by rw [keys', hk]) (by rw [keys']; exact hnd) look
  · rcases cases' n with ⟨_, hn, hb⟩ | ⟨i, j, a, v, hj, ho, hL, hv, hb, hv'⟩
    · exact Or.inl ⟨by rw [look, hb], hn⟩
    · exact Or.inr ⟨i, j, a, v, hj, ho, hL, hv, by rw [look, hb]; exact hv'⟩

private theorem sets_keys {ops : List (String × Val)} {d : Dict} (h : ∀ x ∈ ops, x.1 ∈ d.map (·.1)) : (runSets d ops).map (·.1) = d.map (·.1) := by
  induction ops generalizing d with
  | nil => rfl
  | cons x ops ih =>
    have hk : (d.set x.1 x.2).map (·.1) = d.map (·.1) := by rw [keys_set, if_pos (h x (List.mem_cons_self ..))]
    have := ih (d := d.set x.1 x.2) (fun y hy => by rw [hk]; exact h y (List.mem_cons_of_mem _ hy))
    exact this.trans hk

/-- Threads decode packets at once, into objects of their classes (messages, structures, network packets); several of them may decode into the same
object if the `unpack` of its class only stores into it, as the inherited one does.
However their steps are mixed, each call returns or raises what it would on its own. -/
theorem C79_result {js : List Job} {w0 : Mem} (hf : ∀ j ∈ js, j.Fits w0) (ha : Apart js) {ts : List (Steps Unit)} {w : Mem}
    (hr : Runs (js.map Job.steps, w0) (ts, w)) {i : Nat} {j : Job} (hj : js[i]? = some j) {d : Dict} (hd : Has w0 j.o d) {r : Res Unit}
    (ht : ts[i]? = some (.ret r)) : r = (j.alone d).1 := by
  obtain ⟨K, L, h⟩ := (start hf).runs (fit_tasks hf ha) hr
  have := h.ok i (task w0 j) _ (by rw [List.getElem?_map, hj]; rfl) ht
  rw [← hd.dict]; exact (this _ (Or.inr rfl)).1

/-- An object that only one call decodes into is afterwards what the call makes of it on its own, whatever the other calls are doing. -/
theorem C79_own_object {js : List Job} {w0 : Mem} (hf : ∀ j ∈ js, j.Fits w0) (ha : Apart js) {ts : List (Steps Unit)} {w : Mem}
    (hr : Runs (js.map Job.steps, w0) (ts, w)) {i : Nat} {j : Job} (hj : js[i]? = some j)
    (ho : ∀ (k : Nat) j', js[k]? = some j' → j'.o = j.o → k = i) {d : Dict} (hd : Has w0 j.o d) {r : Res Unit} (ht : ts[i]? = some (.ret r)) :
    Has w j.o (j.alone d).2 := by
  obtain ⟨K, L, h⟩ := (start hf).runs (fit_tasks hf ha) hr
  have hq := h.ok i (task w0 j) _ (by rw [List.getElem?_map, hj]; rfl) ht
  have hs : Decode.Sees (dictOf w0 j.o) (j.alone (dictOf w0 j.o)).2 (K i) (L i) := (hq _ (Or.inr rfl)).2
  rw [hd.dict] at hs
  obtain ⟨refs, d', hrf, hkr, hd', hk, hl⟩ := after h hd
  have hkeys : (j.alone d).2.map (·.1) = d.map (·.1) := by
    obtain ⟨hc, d2, hd2, hn⟩ := hf j (List.mem_of_getElem? hj)
    rw [has_same hd2 hd] at hn
    obtain ⟨ops, h1, h2⟩ := cls_sets hc j.junk j.buff j.offset d
    rw [Job.alone, h2]
    exact sets_keys fun x hx => hn _ (h1 x hx)
  have same : ∀ n, d'.lookup n = (j.alone d).2.lookup n := fun n => by
    rw [hs.1 n]
    rcases (hl n).2 with ⟨e, hn⟩ | ⟨k, j', a, v, hj', ho', hL, hv, e⟩
    · rw [hn i j hj rfl]; exact e
    · cases ho k j' hj' ho'
      rw [hL, e]; exact hv.symm
  refine ⟨by rw [hkeys]; exact hd.1, refs, hrf, refs_has (by rw [hkeys]; exact hkr) (by rw [hkeys]; exact hd.1) fun n => ?_⟩
  rw [← same n]; exact (hl n).1

/-- Several calls decode into the same object, or assign attributes of it, and have all ended.  Every attribute is as one of the calls that overwrite it
leaves it on its own, or, if there are none, as it was. -/
theorem C79_shared_partial {js : List Job} {w0 : Mem} (hf : ∀ j ∈ js, j.Fits w0) (ha : Apart js) {ts : List (Steps Unit)} {w : Mem}
    (hr : Runs (js.map Job.steps, w0) (ts, w)) {o : Nat} (hst : ∀ j ∈ js, j.o = o → j.cls.stores) {d : Dict} (hd : Has w0 o d)
    (ht : ∀ (i : Nat) j, js[i]? = some j → j.o = o → ∃ r, ts[i]? = some (.ret r)) :
    ∃ d', Has w o d' ∧ d'.map (·.1) = d.map (·.1) ∧ ∀ n,
      (d'.lookup n = d.lookup n ∧ ∀ j ∈ js, j.o = o → ¬ j.Overwrites n) ∨
      ∃ j ∈ js, j.o = o ∧ j.Overwrites n ∧ d'.lookup n = (j.alone d).2.lookup n := by
  obtain ⟨K, L, h⟩ := (start hf).runs (fit_tasks hf ha) hr
  have hs : ∀ (i : Nat) j, js[i]? = some j → j.o = o → ∀ d0, Decode.Sees d0 (j.alone d0).2 (K i) (L i) := by
    intro i j hj ho d0
    obtain ⟨r, hr⟩ := ht i j hj ho
    exact (h.ok i (task w0 j) _ (by rw [List.getElem?_map, hj]; rfl) hr d0 (Or.inl (hst j (List.mem_of_getElem? hj) ho))).2
  obtain ⟨refs, d', _, _, hd', hk, hl⟩ := after h hd
  refine ⟨d', hd', hk, fun n => ?_⟩
  rcases (hl n).2 with ⟨e, hn⟩ | ⟨k, j, a, v, hj, ho, hL, hv, e⟩
  · refine Or.inl ⟨e, fun j hj ho hw => ?_⟩
    obtain ⟨i, hi⟩ := List.getElem?_of_mem hj
    have := hw [] [(n, .none)]
    rw [(hs i j hi ho _).1 n, (hs i j hi ho _).1 n, hn i j hi ho] at this
    simp [List.lookup] at this
  · refine Or.inr ⟨j, List.mem_of_getElem? hj, ho, fun d1 d2 => ?_, ?_⟩
    · rw [(hs k j hj ho d1).1 n, (hs k j hj ho d2).1 n, hL]
    · rw [(hs k j hj ho d).1 n, hL, e]; exact hv.symm

/-- Objects that no call decodes into stay what they are at all times, even if they have attributes in common with the others. -/
theorem C79_others {js : List Job} {w0 : Mem} (hf : ∀ j ∈ js, j.Fits w0) (ha : Apart js) {ts : List (Steps Unit)} {w : Mem}
    (hr : Runs (js.map Job.steps, w0) (ts, w)) {o : Nat} (ho : ∀ j ∈ js, j.o ≠ o) {d : Dict} (hd : Has w0 o d) : Has w o d := by
  obtain ⟨K, L, h⟩ := (start hf).runs (fit_tasks hf ha) hr
  obtain ⟨refs, d', hrf, hk, hd', hk', hl⟩ := after h hd
  have same : ∀ n, d'.lookup n = d.lookup n := by
    intro n
    rcases (hl n).2 with ⟨e, _⟩ | ⟨k, j, a, v, hj, ho', _⟩
    · exact e
    · exact absurd ho' (ho j (List.mem_of_getElem? hj))
  refine ⟨hd.1, refs, hrf, refs_has hk hd.1 fun n => ?_⟩
  rw [← same n]; exact (hl n).1

/-- A call that has not ended can go on, and ends if it is let run. -/
theorem C79_returns {js : List Job} {w0 : Mem} (hf : ∀ j ∈ js, j.Fits w0) (ha : Apart js) {ts : List (Steps Unit)} {w : Mem}
    (hr : Runs (js.map Job.steps, w0) (ts, w)) {i : Nat} {t : Steps Unit} (ht : ts[i]? = some t) :
    ((∃ r, t = .ret r) ∨ ∃ c, Step (t, w) c) ∧ ∃ r w', Runs (ts, w) (ts.set i (.ret r), w') := by
  obtain ⟨K, L, h⟩ := (start hf).runs (fit_tasks hf ha) hr
  exact ⟨h.can (fit_tasks hf ha) ht, h.finish (fit_tasks hf ha) t ht⟩

/-- In particular packets are decoded as by one thread (C19, C20, C46) if every thread has a message of its own, new or used before in any way. -/
theorem C79_messages {js : List Job} {w0 : Mem} (hf : ∀ j ∈ js, j.Fits w0) (ha : Apart js) {ts : List (Steps Unit)} {w : Mem}
    (hr : Runs (js.map Job.steps, w0) (ts, w)) {i : Nat} {j : Job} (hj : js[i]? = some j) (ho : ∀ (k : Nat) j', js[k]? = some j' → j'.o = j.o → k = i)
    {m : MsgCls} (hm : j.cls = .message m) (h0 : j.offset = 0) {h : List Used} (hd : Has w0 j.o (afterUse m (newInstance m.fields) h)) {r : Res Unit}
    (ht : ts[i]? = some (.ret r)) :
    r = (m.unpack j.buff).map (fun _ => ()) ∧
    ∀ vs, m.unpack j.buff = .ok vs → ∃ d header, Has w j.o d ∧ attrsOf m.fields d = header :: vs := by
  have h1 := C79_result hf ha hr hj hd ht
  have h2 := C79_own_object hf ha hr hj ho hd ht
  have hk := (hf j (List.mem_of_getElem? hj)).1
  rw [hm] at hk
  obtain ⟨a, b⟩ := C67_messages hk h j.junk j.buff
  simp only [Job.alone, h0, hm, Cls.method] at h1 h2
  refine ⟨h1.trans a, fun vs hv => ?_⟩
  obtain ⟨header, old, _, e⟩ := b vs hv
  exact ⟨_, header, h2, e⟩

/-- And IP packets, at any offset, if every thread has an object of its own, whatever that held before. -/
theorem C79_ip_packets {js : List Job} {w0 : Mem} (hf : ∀ j ∈ js, j.Fits w0) (ha : Apart js) {ts : List (Steps Unit)} {w : Mem}
    (hr : Runs (js.map Job.steps, w0) (ts, w)) {i : Nat} {j : Job} (hj : js[i]? = some j) (ho : ∀ (k : Nat) j', js[k]? = some j' → j'.o = j.o → k = i)
    {r : Res Unit} (ht : ts[i]? = some (.ret r)) :
    (j.cls = .ipv4 → r = (Net.IPv4.unpack j.buff j.offset).map (fun _ => ()) ∧
      ∀ p, Net.IPv4.unpack j.buff j.offset = .ok p → ∃ d, Has w j.o d ∧ ∀ a ∈ ipv4Attributes p, d.lookup a.1 = some a.2) ∧
    (j.cls = .ipv6 → r = (Net.IPv6.unpack j.buff j.offset).map (fun _ => ()) ∧
      ∀ p, Net.IPv6.unpack j.buff j.offset = .ok p → ∃ d, Has w j.o d ∧ ∀ a ∈ ipv6Attributes p, d.lookup a.1 = some a.2) := by
  obtain ⟨_, d, hd, _⟩ := hf j (List.mem_of_getElem? hj)
  have h1 := C79_result hf ha hr hj hd ht
  have h2 := C79_own_object hf ha hr hj ho hd ht
  refine ⟨fun hc => ?_, fun hc => ?_⟩
  · simp only [Job.alone, hc, Cls.method] at h1 h2
    obtain ⟨a, b⟩ := C67_ipv4 j.junk j.buff j.offset d
    exact ⟨h1.trans a, fun p hp => ⟨_, h2, b p hp⟩⟩
  · simp only [Job.alone, hc, Cls.method] at h1 h2
    obtain ⟨a, b⟩ := C67_ipv6 j.junk j.buff j.offset d
    exact ⟨h1.trans a, fun p hp => ⟨_, h2, b p hp⟩⟩

/-- And frames, ARP packets and flow matches, on objects that are new or have been assigned to and decoded into before. -/
theorem C79_frames {js : List Job} {w0 : Mem} (hf : ∀ j ∈ js, j.Fits w0) (ha : Apart js) {ts : List (Steps Unit)} {w : Mem}
    (hr : Runs (js.map Job.steps, w0) (ts, w)) {i : Nat} {j : Job} (hj : js[i]? = some j) (ho : ∀ (k : Nat) j', js[k]? = some j' → j'.o = j.o → k = i)
    {fields : Fields} {unpack : Bytes → Nat → Res (List Val)}
    (hc : (j.cls, fields, unpack) ∈ [(Cls.ethernet, Net.ethernetFields, Net.ethernetUnpack), (Cls.arp, Net.arpFields, Net.arpUnpack),
      (Cls.flowMatch, V04.matchFields, fun b o => (V04.«match».unpack b o).map Val.parts)])
    {ops : List (String × Val)} (hd : Has w0 j.o (runSets (newInstance fields) ops)) {r : Res Unit} (ht : ts[i]? = some (.ret r)) :
    r = (unpack j.buff j.offset).map (fun _ => ()) ∧
    ∀ vs, unpack j.buff j.offset = .ok vs → ∃ d, Has w j.o d ∧ attrsOf fields d = vs := by
  have h1 := C79_result hf ha hr hj hd ht
  have h2 := C79_own_object hf ha hr hj ho hd ht
  have use : AsNew fields [] (j.cls.method j.junk j.buff j.offset) (unpack j.buff j.offset) → _ := fun h => h ops
  have h3 := use (by
    simp only [List.mem_cons, List.not_mem_nil, or_false, Prod.mk.injEq] at hc
    rcases hc with ⟨hc, rfl, rfl⟩ | ⟨hc, rfl, rfl⟩ | ⟨hc, rfl, rfl⟩
    · rw [hc]; exact (C67_frames j.junk j.buff j.offset).2.2
    · rw [hc]; exact (C67_frames j.junk j.buff j.offset).1
    · rw [hc]; exact C67_match j.junk j.buff j.offset)
  refine ⟨h1.trans h3.1, fun vs hv => ⟨_, h2, ?_⟩⟩
  have := h3.2.1 vs hv
  rw [List.map_nil, List.append_nil] at this
  exact (List.map_inj_right fun _ _ => Option.some.inj).1 this

/-- And structures: with the inherited `unpack`, or cut at the length found `k` bytes after the offset (flow statistics, buckets, table features, ...). -/
theorem C79_structures {js : List Job} {w0 : Mem} (hf : ∀ j ∈ js, j.Fits w0) (ha : Apart js) {ts : List (Steps Unit)} {w : Mem}
    (hr : Runs (js.map Job.steps, w0) (ts, w)) {i : Nat} {j : Job} (hj : js[i]? = some j) (ho : ∀ (k : Nat) j', js[k]? = some j' → j'.o = j.o → k = i)
    {fields : Fields} (hn : (fields.map (·.1)).Nodup) {ops : List (String × Val)} (hd : Has w0 j.o (runSets (newInstance fields) ops)) {r : Res Unit}
    (ht : ts[i]? = some (.ret r)) :
    (j.cls = .struct fields →
      (∀ vs n, unpackAttrs fields j.buff j.offset = .ok (vs, n) → r = .ok () ∧ ∃ d, Has w j.o d ∧ attrsOf fields d = vs) ∧
      ∀ e, unpackAttrs fields j.buff j.offset = .error e → r = .error e) ∧
    (∀ k l, j.cls = .cut k l fields →
      (∀ len, ubUnpack 2 .none j.buff (j.offset + k) = .ok len →
        (∀ vs n, unpackAttrs fields (j.buff.take (j.offset + gotNum len)) j.offset = .ok (vs, n) → r = .ok () ∧ ∃ d, Has w j.o d ∧ attrsOf fields d = vs) ∧
        ∀ e, unpackAttrs fields (j.buff.take (j.offset + gotNum len)) j.offset = .error e → r = .error e) ∧
      ∀ e, ubUnpack 2 .none j.buff (j.offset + k) = .error e → r = .error e) := by
  have h1 := C79_result hf ha hr hj hd ht
  have h2 := C79_own_object hf ha hr hj ho hd ht
  refine ⟨fun hc => ?_, fun k l hc => ?_⟩
  · obtain ⟨a, b, _⟩ := C67_structs hn ops j.junk j.buff j.offset
    simp only [Job.alone, hc, Cls.method, bind_eq] at h1 h2
    rcases hx : (Pyof.unpackLoop j.junk fields j.buff j.offset).run (runSets (newInstance fields) ops) with ⟨q, d⟩
    rw [hx] at a b
    simp only [hx] at h1 h2
    refine ⟨fun vs n hu => ?_, fun e hu => ?_⟩
    · obtain ⟨hq, hv⟩ := a vs n hu
      simp only at hq
      subst hq
      exact ⟨h1, d, h2, hv⟩
    · have hq := b e hu
      simp only at hq
      subst hq
      exact h1
  · obtain ⟨a, b, c⟩ := C67_cut hn k l ops j.junk j.buff j.offset
    simp only [Job.alone, hc, Cls.method] at h1 h2
    refine ⟨fun len hl => ⟨fun vs n hu => ?_, fun e hu => h1.trans (c len e hl hu)⟩, fun e he => h1.trans (b e he)⟩
    obtain ⟨hq, hv⟩ := a len vs n hl hu
    exact ⟨h1.trans hq, _, h2, hv⟩

/-! ## Cases -/

def dcNew (m : MsgCls) : Dict := newInstance m.fields

/-- Two set configs decoded into the same object, and an error decoded into another one. -/
def dcJobs : List Job :=
  [⟨.message V04.setConfig, 0, [0, 1, 0, 128], 0, fun _ => [.none, .int 5], .none⟩,
   ⟨.message V04.setConfig, 0, [0, 0, 1, 0], 0, fun _ => [], .none⟩,
   ⟨.message V04.errorMsg, 1, [0, 0, 0, 1, 7], 0, fun _ => [.str []], .none⟩]

def dcMem : Mem := memOf [dcNew V04.setConfig, dcNew V04.errorMsg]

theorem dcMem_has0 : Has dcMem 0 (dcNew V04.setConfig) := ⟨by decide +kernel, _, rfl, by decide +kernel⟩
theorem dcMem_has1 : Has dcMem 1 (dcNew V04.errorMsg) := ⟨by decide +kernel, _, rfl, by decide +kernel⟩

theorem dcJobs_fit : ∀ j ∈ dcJobs, j.Fits dcMem := by
  intro j hj
  simp only [dcJobs, List.mem_cons, List.not_mem_nil, or_false] at hj
  rcases hj with rfl | rfl | rfl
  · exact ⟨by simp [Cls.Known, classes, libs, V04.lib], _, dcMem_has0, by decide +kernel⟩
  · exact ⟨by simp [Cls.Known, classes, libs, V04.lib], _, dcMem_has0, by decide +kernel⟩
  · exact ⟨by simp [Cls.Known, classes, libs, V04.lib], _, dcMem_has1, by decide +kernel⟩

theorem dcJobs_apart : Apart dcJobs := by
  intro i k j j' hj hj' ho
  match i, k, hj, hj' with
  | 0, 0, _, _ => exact Or.inl rfl
  | 1, 1, _, _ => exact Or.inl rfl
  | 2, 2, _, _ => exact Or.inl rfl
  | 0, 1, hj, hj' => cases hj; cases hj'; exact Or.inr ⟨by decide, by decide⟩
  | 1, 0, hj, hj' => cases hj; cases hj'; exact Or.inr ⟨by decide, by decide⟩
  | 0, 2, hj, hj' => cases hj; cases hj'; cases ho
  | 2, 0, hj, hj' => cases hj; cases hj'; cases ho
  | 1, 2, hj, hj' => cases hj; cases hj'; cases ho
  | 2, 1, hj, hj' => cases hj; cases hj'; cases ho
  | i + 3, _, hj, _ => simp [dcJobs] at hj
  | 0, k + 3, _, hj' => simp [dcJobs] at hj'
  | 1, k + 3, _, hj' => simp [dcJobs] at hj'
  | 2, k + 3, _, hj' => simp [dcJobs] at hj'

example {ts : List (Steps Unit)} {w : Mem} (hr : Runs (dcJobs.map Job.steps, dcMem) (ts, w)) {r : Res Unit} (h : ts[1]? = some (.ret r)) : r = .ok () :=
  (C79_result dcJobs_fit dcJobs_apart hr (i := 1) rfl dcMem_has0 h).trans (by decide +kernel)

/-- The error has its code, whenever its call has ended. -/
example {ts : List (Steps Unit)} {w : Mem} (hr : Runs (dcJobs.map Job.steps, dcMem) (ts, w)) {r : Res Unit} (h : ts[2]? = some (.ret r)) :
    ∃ d, Has w 1 d ∧ d.lookup "code" = some (.enum 1) :=
  ⟨_, C79_own_object dcJobs_fit dcJobs_apart hr (i := 2) rfl
    (fun k j' hj' ho => by
      match k, hj' with
      | 0, hj' => cases hj'; cases ho
      | 1, hj' => cases hj'; cases ho
      | 2, _ => rfl
      | k + 3, hj' => simp [dcJobs] at hj') dcMem_has1 h, by decide +kernel⟩

/-- One thread decodes a set config, another one assigns its flags. -/
def dcAssign : List Job :=
  [⟨.message V04.setConfig, 0, [0, 1, 0, 128], 0, fun _ => [.none, .int 5], .none⟩, ⟨.assign [("flags", .enum 2)], 0, [], 0, fun _ => [], .none⟩]

theorem dcAssign_fit : ∀ j ∈ dcAssign, j.Fits dcMem := by
  intro j hj
  simp only [dcAssign, List.mem_cons, List.not_mem_nil, or_false] at hj
  rcases hj with rfl | rfl
  · exact ⟨by simp [Cls.Known, classes, libs, V04.lib], _, dcMem_has0, by decide +kernel⟩
  · exact ⟨trivial, _, dcMem_has0, by decide +kernel⟩

theorem dcAssign_stores : ∀ j ∈ dcAssign, j.cls.stores := by
  intro j hj
  simp only [dcAssign, List.mem_cons, List.not_mem_nil, or_false] at hj
  rcases hj with rfl | rfl
  · exact (by decide : inherits V04.setConfig)
  · trivial

/-- Afterwards the flags are the decoded or the assigned ones, and the miss_send_len is the decoded one. -/
example {ts : List (Steps Unit)} {w : Mem} (hr : Runs (dcAssign.map Job.steps, dcMem) (ts, w)) {r r' : Res Unit} (h : ts[0]? = some (.ret r))
    (h' : ts[1]? = some (.ret r')) : ∃ d, Has w 0 d ∧ d.map (·.1) = ["header", "flags", "miss_send_len"] ∧
      (d.lookup "flags" = some (.ub 2 (.enum 1)) ∨ d.lookup "flags" = some (.enum 2)) ∧ d.lookup "miss_send_len" = some (.ub 2 (.int 128)) := by
  obtain ⟨d, hd, hk, hl⟩ := C79_shared_partial dcAssign_fit
    (fun i k j j' hj hj' _ => Or.inr ⟨dcAssign_stores j (List.mem_of_getElem? hj), dcAssign_stores j' (List.mem_of_getElem? hj')⟩) hr (o := 0)
    (fun j hj _ => dcAssign_stores j hj) dcMem_has0 (fun i j hj ho => by
      match i, hj with
      | 0, _ => exact ⟨_, h⟩
      | 1, _ => exact ⟨_, h'⟩
      | i + 2, hj => simp [dcAssign] at hj)
  have sure : Job.Overwrites ⟨.assign [("flags", .enum 2)], 0, [], 0, fun _ => [], .none⟩ "flags" := by
    intro d d'
    simp [Job.alone, Cls.method, assign_run, runSets, set_lookup]
  have not : ¬ Job.Overwrites ⟨.assign [("flags", .enum 2)], 0, [], 0, fun _ => [], .none⟩ "miss_send_len" := fun hw =>
    absurd (hw [] [("miss_send_len", .none)]) (by decide +kernel)
  have also : Job.Overwrites ⟨.message V04.setConfig, 0, [0, 1, 0, 128], 0, fun _ => [.none, .int 5], .none⟩ "miss_send_len" := by
    intro d d'
    have e : ∀ d : Dict, ((Cls.message V04.setConfig).method .none [0, 1, 0, 128] 0).run d =
        (.ok (), (d.set "flags" (.ub 2 (.enum 1))).set "miss_send_len" (.ub 2 (.int 128))) := fun d => rfl
    simp [Job.alone, e, set_lookup]
  refine ⟨d, hd, hk, ?_, ?_⟩
  · rcases hl "flags" with ⟨_, hn⟩ | ⟨j, hj, _, _, e⟩
    · exact absurd sure (hn _ (by simp [dcAssign]) rfl)
    · simp only [dcAssign, List.mem_cons, List.not_mem_nil, or_false] at hj
      rcases hj with rfl | rfl
      · exact Or.inl (e.trans (by decide +kernel))
      · exact Or.inr (e.trans (by decide +kernel))
  · rcases hl "miss_send_len" with ⟨_, hn⟩ | ⟨j, hj, _, hw, e⟩
    · exact absurd also (hn _ (by simp [dcAssign]) rfl)
    · simp only [dcAssign, List.mem_cons, List.not_mem_nil, or_false] at hj
      rcases hj with rfl | rfl
      · exact e.trans (by decide +kernel)
      · exact absurd hw not

example {ts : List (Steps Unit)} {w : Mem} (hr : Runs (dcJobs.map Job.steps, dcMem) (ts, w)) {t : Steps Unit} (h : ts[0]? = some t) :
    ((∃ r, t = .ret r) ∨ ∃ c, Step (t, w) c) ∧ ∃ r w', Runs (ts, w) (ts.set 0 (.ret r), w') := C79_returns dcJobs_fit dcJobs_apart hr h

/-- Only the set configs are decoded: the error stays new. -/
example {ts : List (Steps Unit)} {w : Mem} (hr : Runs ((dcJobs.take 2).map Job.steps, dcMem) (ts, w)) : Has w 1 (dcNew V04.errorMsg) :=
  C79_others (js := dcJobs.take 2) (fun j hj => dcJobs_fit j (List.mem_of_mem_take hj))
    (fun i k j j' hj hj' ho => dcJobs_apart i k j j' (by rw [List.getElem?_take] at hj; split at hj; exact hj; cases hj)
      (by rw [List.getElem?_take] at hj'; split at hj'; exact hj'; cases hj') ho) hr
    (fun j hj => by
      simp only [dcJobs, List.take, List.mem_cons, List.not_mem_nil, or_false] at hj
      rcases hj with rfl | rfl <;> decide) dcMem_has1

/-- All three calls end in some run. -/
example : ∃ ts w, Runs (dcJobs.map Job.steps, dcMem) (ts, w) ∧ ts[0]? = some (.ret (.ok ())) ∧ ts[1]? = some (.ret (.ok ())) ∧
    ts[2]? = some (.ret (.ok ())) := by
  obtain ⟨ts, w, h1, h2, h3, h4⟩ := run_find (List.replicate 40 [2, 0, 1]).flatten (dcJobs.map Job.steps, dcMem)
    (fun c => resultOf 0 c = some (.ok ()) ∧ resultOf 1 c = some (.ok ()) ∧ resultOf 2 c = some (.ok ())) (by decide +kernel)
  exact ⟨ts, w, h1, resultOf_some h2, resultOf_some h3, resultOf_some h4⟩

example {ts : List (Steps Unit)} {w : Mem} (hr : Runs (dcJobs.map Job.steps, dcMem) (ts, w)) {r : Res Unit} (h : ts[2]? = some (.ret r)) :
    ∃ d header, Has w 1 d ∧ attrsOf V04.errorMsg.fields d = header :: [.ub 2 (.enum 0), .enum 1, .bin (.bytes [7])] :=
  (C79_messages dcJobs_fit dcJobs_apart hr (i := 2) (j := ⟨.message V04.errorMsg, 1, [0, 0, 0, 1, 7], 0, fun _ => [.str []], .none⟩) rfl
    (fun k j' hj' ho => by
      match k, hj' with
      | 0, hj' => cases hj'; cases ho
      | 1, hj' => cases hj'; cases ho
      | 2, _ => rfl
      | k + 3, hj' => simp [dcJobs] at hj') (m := V04.errorMsg) rfl rfl (h := []) dcMem_has1 h).2 _ (by decide +kernel)

/-- An IPv4 packet with four bytes of options is decoded while a frame is decoded into an object that another thread decodes another frame into. -/
def dcPackets : List Job :=
  [⟨.ipv4, 0, [0x46, 0, 0, 28, 0, 7, 0x40, 0, 64, 17, 0, 0, 10, 0, 0, 1, 10, 0, 0, 2, 1, 2, 3, 4, 5, 6, 7, 8], 0, fun _ => [.none], .none⟩,
   ⟨.ethernet, 1, [1, 2, 3, 4, 5, 6, 7, 8, 9, 10, 11, 12, 0x81, 0, 0, 5, 8, 0, 9], 0, fun _ => [.int 3], .none⟩,
   ⟨.ethernet, 2, [1, 2, 3, 4, 5, 6, 7, 8, 9, 10, 11, 12, 8, 6], 0, fun _ => [], .none⟩,
   ⟨.ethernet, 2, [6, 5, 4, 3, 2, 1, 7, 8, 9, 10, 11, 12, 8, 0, 1], 0, fun _ => [], .none⟩]

def dcIpv4 : Dict := runSets (newInstance Net.ipv4Fields)
  (["version", "ihl", "dscp", "ecn", "flags", "offset"].map fun n => (n, Val.int 0))

def dcNet : Mem := memOf [dcIpv4, newInstance Net.ethernetFields, newInstance Net.ethernetFields]

theorem dcPackets_fit : ∀ j ∈ dcPackets, j.Fits dcNet := by
  intro j hj
  simp only [dcPackets, List.mem_cons, List.not_mem_nil, or_false] at hj
  rcases hj with rfl | rfl | rfl | rfl
  · exact ⟨trivial, dcIpv4, by decide +kernel, by decide +kernel⟩
  all_goals exact ⟨trivial, newInstance Net.ethernetFields, by decide +kernel, by decide +kernel⟩

theorem dcPackets_apart : Apart dcPackets := by
  intro i k j j' hj hj' ho
  match i, k, hj, hj' with
  | 0, 0, _, _ | 1, 1, _, _ | 2, 2, _, _ | 3, 3, _, _ => exact Or.inl rfl
  | 2, 3, hj, hj' | 3, 2, hj, hj' => cases hj; cases hj'; exact Or.inr ⟨trivial, trivial⟩
  | 0, 1, hj, hj' | 0, 2, hj, hj' | 0, 3, hj, hj' | 1, 0, hj, hj' | 1, 2, hj, hj' | 1, 3, hj, hj' | 2, 0, hj, hj' | 2, 1, hj, hj' | 3, 0, hj, hj'
  | 3, 1, hj, hj' => cases hj; cases hj'; cases ho
  | i + 4, _, hj, _ => simp [dcPackets] at hj
  | 0, k + 4, _, hj' | 1, k + 4, _, hj' | 2, k + 4, _, hj' | 3, k + 4, _, hj' => simp [dcPackets] at hj'

theorem dcPackets_own {i : Nat} {j : Job} (hi : i < 2) (hj : dcPackets[i]? = some j) (k : Nat) (j' : Job) (hj' : dcPackets[k]? = some j')
    (ho : j'.o = j.o) : k = i := by
  match i, k, hj, hj' with
  | 0, 0, _, _ | 1, 1, _, _ => rfl
  | 0, 1, hj, hj' | 0, 2, hj, hj' | 0, 3, hj, hj' | 1, 0, hj, hj' | 1, 2, hj, hj' | 1, 3, hj, hj' => cases hj; cases hj'; cases ho
  | i + 2, _, _, _ => omega
  | 0, k + 4, _, hj' | 1, k + 4, _, hj' => simp [dcPackets] at hj'

example {ts : List (Steps Unit)} {w : Mem} (hr : Runs (dcPackets.map Job.steps, dcNet) (ts, w)) {r : Res Unit} (h : ts[0]? = some (.ret r)) :
    r = .ok () ∧ ∃ d, Has w 0 d ∧ d.lookup "options" = some (.bytes [1, 2, 3, 4]) ∧ d.lookup "data" = some (.bytes [5, 6, 7, 8]) := by
  obtain ⟨a, b⟩ := (C79_ip_packets dcPackets_fit dcPackets_apart hr (i := 0) rfl (dcPackets_own (by decide) rfl) h).1 rfl
  have hp : ∃ p, Net.IPv4.unpack [0x46, 0, 0, 28, 0, 7, 0x40, 0, 64, 17, 0, 0, 10, 0, 0, 1, 10, 0, 0, 2, 1, 2, 3, 4, 5, 6, 7, 8] 0 = .ok p ∧
      ("options", Val.bytes [1, 2, 3, 4]) ∈ ipv4Attributes p ∧ ("data", Val.bytes [5, 6, 7, 8]) ∈ ipv4Attributes p :=
    ⟨_, rfl, by decide +kernel, by decide +kernel⟩
  obtain ⟨p, e, h1, h2⟩ := hp
  obtain ⟨d, hd, hl⟩ := b p e
  refine ⟨a.trans ?_, d, hd, hl _ h1, hl _ h2⟩
  show (Net.IPv4.unpack [0x46, 0, 0, 28, 0, 7, 0x40, 0, 64, 17, 0, 0, 10, 0, 0, 1, 10, 0, 0, 2, 1, 2, 3, 4, 5, 6, 7, 8] 0).map _ = _
  rw [e]; rfl

example {ts : List (Steps Unit)} {w : Mem} (hr : Runs (dcPackets.map Job.steps, dcNet) (ts, w)) {r : Res Unit} (h : ts[1]? = some (.ret r)) :
    ∃ d, Has w 1 d ∧ attrsOf Net.ethernetFields d = [.hw (.str "01:02:03:04:05:06".toList), .hw (.str "07:08:09:0a:0b:0c".toList),
      .list true [.obj "net.VLAN" [.int 0x8100, .ub 2 (.int 5), .int 0, .int 0, .int 5]], .ub 2 (.int 0x800), .bin (.bytes [9])] :=
  (C79_frames dcPackets_fit dcPackets_apart hr (i := 1) rfl (dcPackets_own (by decide) rfl) (List.mem_cons_self ..) (ops := [])
    (show Has dcNet 1 (newInstance Net.ethernetFields) by decide +kernel) h).2 _ (by decide +kernel)

/-- All four calls end in some run. -/
example : ∃ ts w, Runs (dcPackets.map Job.steps, dcNet) (ts, w) ∧ ∀ i < 4, ts[i]? = some (.ret (.ok ())) := by
  obtain ⟨ts, w, h1, h2⟩ := run_find (List.replicate 150 [3, 0, 2, 1]).flatten (dcPackets.map Job.steps, dcNet)
    (fun c => ∀ i < 4, resultOf i c = some (.ok ())) (by decide +kernel)
  exact ⟨ts, w, h1, fun i hi => resultOf_some (h2 i hi)⟩

/-- Flow statistics of 88 bytes, with two bytes after them, are decoded while another thread decodes a switch configuration. -/
def dcStructs : List Job :=
  [⟨.cut 0 (some "length") V01.flowStatsFields, 1, [0, 88, 7] ++ List.replicate 87 0, 0, fun _ => [.none], .none⟩,
   ⟨.message V04.setConfig, 0, [0, 1, 0, 128], 0, fun _ => [], .none⟩]

def dcStats : Mem := memOf [dcNew V04.setConfig, newInstance V01.flowStatsFields]

example {ts : List (Steps Unit)} {w : Mem} (hr : Runs (dcStructs.map Job.steps, dcStats) (ts, w)) {r : Res Unit} (h : ts[0]? = some (.ret r)) :
    r = .ok () ∧ ∃ d, Has w 1 d ∧ (attrsOf V01.flowStatsFields d).take 2 = [.ub 2 (.int 88), .ub 1 (.int 7)] := by
  have fit : ∀ j ∈ dcStructs, j.Fits dcStats := by
    intro j hj
    simp only [dcStructs, List.mem_cons, List.not_mem_nil, or_false] at hj
    rcases hj with rfl | rfl
    · exact ⟨trivial, newInstance V01.flowStatsFields, by decide +kernel, by decide +kernel⟩
    · exact ⟨by simp [Cls.Known, classes, libs, V04.lib], dcNew V04.setConfig, by decide +kernel, by decide +kernel⟩
  have apart : Apart dcStructs := by
    intro i k j j' hj hj' ho
    match i, k, hj, hj' with
    | 0, 0, _, _ | 1, 1, _, _ => exact Or.inl rfl
    | 0, 1, hj, hj' | 1, 0, hj, hj' => cases hj; cases hj'; cases ho
    | i + 2, _, hj, _ => simp [dcStructs] at hj
    | 0, k + 2, _, hj' | 1, k + 2, _, hj' => simp [dcStructs] at hj'
  have out : ∃ vs n, unpackAttrs V01.flowStatsFields (([0, 88, 7] ++ List.replicate 87 0 : Bytes).take (0 + gotNum (.ub 2 (.int 88)))) 0 = .ok (vs, n) ∧
      vs.take 2 = [.ub 2 (.int 88), .ub 1 (.int 7)] := by
    have key : ∀ x : Res (List Val × Nat), ((x.toOption.map fun p => p.1.take 2) = some [.ub 2 (.int 88), .ub 1 (.int 7)]) →
        ∃ vs n, x = .ok (vs, n) ∧ vs.take 2 = [.ub 2 (.int 88), .ub 1 (.int 7)] := by
      intro x hx
      match x with
      | .error _ => cases hx
      | .ok (vs, n) => exact ⟨vs, n, rfl, Option.some.inj hx⟩
    exact key _ (by decide +kernel)
  obtain ⟨vs, n, hv, ht⟩ := out
  obtain ⟨h1, d, h2, h3⟩ := (((C79_structures fit apart hr (i := 0) rfl
    (fun k j' hj' ho => by
      match k, hj' with
      | 0, _ => rfl
      | 1, hj' => cases hj'; cases ho
      | k + 2, hj' => simp [dcStructs] at hj')
    (fields := V01.flowStatsFields) (by decide) (ops := []) (show Has dcStats 1 (newInstance V01.flowStatsFields) by decide +kernel) h).2 0 (some "length") rfl).1
      (.ub 2 (.int 88)) (by decide +kernel)).1 vs n hv
  exact ⟨h1, d, h2, by rw [h3]; exact ht⟩

/-! ## What does not hold -/

def dcMixed : Dict := ((dcNew V04.setConfig).set "flags" (.ub 2 (.enum 1))).set "miss_send_len" (.ub 2 (.int 256))

/-- A bad request with the code 12 and a failed hello with the code 0. -/
def dcErrors : List Job := [⟨.message V04.errorMsg, 0, [0, 1, 0, 12], 0, fun _ => [], .none⟩, ⟨.message V04.errorMsg, 0, [0, 0, 0, 0], 0, fun _ => [], .none⟩]

/-- Two calls decode into the same object.  Afterwards it may have the flags of one packet and the miss_send_len of the other. -/
theorem C79_mixed_counterexample :
    ∃ (js : List Job) (w0 : Mem) (d : Dict), (∀ j ∈ js, j.Fits w0) ∧ Apart js ∧ Has w0 0 d ∧ ∃ (ts : List (Steps Unit)) (w : Mem) (d' : Dict),
      Runs (js.map Job.steps, w0) (ts, w) ∧ ts[0]? = some (.ret (.ok ())) ∧ ts[1]? = some (.ret (.ok ())) ∧ Has w 0 d' ∧
      ∀ j ∈ js, j.o = 0 → d' ≠ (j.alone d).2 := by
  obtain ⟨ts, w, h1, h2, h3, h4⟩ := run_find (List.replicate 4 1 ++ List.replicate 40 0 ++ List.replicate 40 1) (dcJobs.map Job.steps, dcMem)
    (fun c => resultOf 0 c = some (.ok ()) ∧ resultOf 1 c = some (.ok ()) ∧ Has c.2 0 dcMixed) (by decide +kernel)
  refine ⟨dcJobs, dcMem, dcNew V04.setConfig, dcJobs_fit, dcJobs_apart, dcMem_has0, ts, w, dcMixed, h1, resultOf_some h2, resultOf_some h3, h4, ?_⟩
  intro j hj ho
  simp only [dcJobs, List.mem_cons, List.not_mem_nil, or_false] at hj
  rcases hj with rfl | rfl | rfl
  · decide +kernel
  · decide +kernel
  · cases ho

/-- `ErrorMsg.unpack` reads the type and the code from the object again.  If another call decodes into it at the same time, a valid packet may be
refused: the call raises `ValueError`, though both calls return on their own. -/
theorem C79_error_counterexample :
    ∃ (js : List Job) (w0 : Mem) (d : Dict), (∀ j ∈ js, j.Fits w0) ∧ Has w0 0 d ∧ (∀ j ∈ js, j.o = 0 ∧ (j.alone d).1 = .ok ()) ∧
      ∃ (ts : List (Steps Unit)) (w : Mem), Runs (js.map Job.steps, w0) (ts, w) ∧ ts[0]? = some (.ret (.error .value)) := by
  have h0 : Has (memOf [dcNew V04.errorMsg]) 0 (dcNew V04.errorMsg) := by decide +kernel
  obtain ⟨ts, w, h1, h2⟩ := run_find (List.replicate 12 0 ++ List.replicate 4 1 ++ List.replicate 40 0) (dcErrors.map Job.steps, memOf [dcNew V04.errorMsg])
    (fun c => resultOf 0 c = some (.error .value)) (by decide +kernel)
  refine ⟨dcErrors, _, _, fun j hj => ?_, h0, fun j hj => ?_, ts, w, h1, resultOf_some h2⟩
  · simp only [dcErrors, List.mem_cons, List.not_mem_nil, or_false] at hj
    rcases hj with rfl | rfl <;> exact ⟨by simp [Cls.Known, classes, libs, V04.lib], _, h0, by decide +kernel⟩
  · simp only [dcErrors, List.mem_cons, List.not_mem_nil, or_false] at hj
    rcases hj with rfl | rfl <;> exact ⟨rfl, by decide +kernel⟩

end Pyof.Props
