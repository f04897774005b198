import Verif.Lemmas.NetThreads
/-!
# C75: network packets packed by several threads, and changed in between
-/
namespace Pyof.Props
open Net Threads

private theorem packNet_eq {k : NetCls} (hk : k ∈ nets) {vs : List Val} (hl : vs.length = k.arity) : packNet (.obj k.name vs) = k.pack vs := by
  have : nets.find? (fun k' => k'.name == k.name) = some k := by
    simp only [nets, List.mem_cons, List.not_mem_nil, or_false] at hk
    rcases hk with rfl | rfl | rfl | rfl | rfl | rfl | rfl | rfl <;> rfl
  simp only [packNet, this, hl, if_true]

/-- Any number of threads pack one packet at once.  At every moment each thread either has the bytes (or exception) that `pack()` gives on its own, or can
go on; they can all end; and whatever has been assigned so far, the packet packs to the same.

Partial: an IPv4 packet must have no options (`C75_options_counterexample`). -/
theorem C75_threads_partial {k : NetCls} (hk : k ∈ nets) {vs : List Val} (hl : vs.length = k.arity) (hf : Fit (.obj k.name vs)) (n : Nat)
    {ts : List (Prog (Res Bytes))} {w : Val} (hr : Runs (List.replicate n k.steps, .obj k.name vs) (ts, w)) :
    (∀ t ∈ ts, t = .ret (packNet (.obj k.name vs)) ∨ CanStep t w) ∧
    (∃ ts' w', Runs (ts, w) (ts', w') ∧ ∀ t ∈ ts', t = .ret (packNet (.obj k.name vs))) ∧
    packNet w = packNet (.obj k.name vs) := by
  obtain ⟨h1, h2, ws, rfl, h3, h4⟩ := threads_net hk hl hf hr
  rw [packNet_eq hk hl, packNet_eq hk h3]
  exact ⟨h1, h2, h4⟩

/-- A frame with two tags, the second without `cfi`. -/
private def nhFrame : List Val :=
  [.hw (.str "00:00:00:00:00:01".toList), .hw (.str "00:00:00:00:00:02".toList),
   .list true [.obj "net.VLAN" [.enum 0x88A8, .ub 2 .none, .int 3, .int 0, .int 7], .obj "net.VLAN" [.enum 0x8100, .ub 2 .none, .int 1, .none, .int 20]],
   .int 0x0800, .bin (.bytes [1, 2, 3])]

private def nhEthernet : NetCls := ⟨"net.Ethernet", 5, ethernetCls.packP [] 5, ethernetPack⟩

private theorem nhEthernet_mem : nhEthernet ∈ nets := List.mem_of_getElem? (i := 2) rfl

private theorem nh_fit {c : String} {vs : List Val} (h : c ≠ "net.IPv4") (h' : c ≠ "net.IPv6") : Fit (.obj c vs) :=
  ⟨fun _ e => by cases e; exact absurd rfl h, fun _ e => by cases e; exact absurd rfl h'⟩

example {ts : List (Prog (Res Bytes))} {w : Val} (hr : Runs (List.replicate 3 nhEthernet.steps, .obj "net.Ethernet" nhFrame) (ts, w)) :=
  C75_threads_partial nhEthernet_mem rfl (nh_fit (by decide) (by decide)) 3 hr

-- `pack()` succeeds and assigns to the tags
example : (packNet (.obj "net.Ethernet" nhFrame)).isOk = true ∧
    (exec nhEthernet.steps (.obj "net.Ethernet" nhFrame)).any (fun r => r.2 != .obj "net.Ethernet" nhFrame) = true := by decide +kernel

private def nhIp : List Val :=
  [.int 0, .int 0, .int 0, .int 7, .int 0, .int 255, .int 6, .int 0, .str "10.0.0.1".toList, .str "10.0.0.2".toList, .bytes [], .bytes [1, 2, 3],
   .int 4, .int 5, .int 0, .int 0, .int 2, .int 0]

private def nhIpCls : NetCls := ⟨"net.IPv4", 18, ipv4Steps, fun vs => match ipv4Of vs with | some p => p.pack.map (·.1) | none => .error .unmodelled⟩

private theorem nhIpCls_mem : nhIpCls ∈ nets := List.mem_of_getElem? (i := 6) rfl

private theorem nhIp_fit : Fit (.obj "net.IPv4" nhIp) := ⟨fun _ e => by cases e; exact ⟨_, rfl, rfl⟩, fun _ e => by simp at e⟩

example {ts : List (Prog (Res Bytes))} {w : Val} (hr : Runs (List.replicate 2 nhIpCls.steps, .obj "net.IPv4" nhIp) (ts, w)) :=
  C75_threads_partial nhIpCls_mem rfl nhIp_fit 2 hr

example : (packNet (.obj "net.IPv4" nhIp)).isOk = true ∧
    (exec nhIpCls.steps (.obj "net.IPv4" nhIp)).any (fun r => r.2 != .obj "net.IPv4" nhIp) = true := by decide +kernel

/-- A packet may be packed as often as one likes between changes, by one thread or by several, and each `pack()` may raise or be given up at any moment:
it packs to the bytes (or exception) that it would give if it had only been changed and never packed before.

Partial: while it is packed, an IPv4 packet must have no options (`C75_options_counterexample`), and a VLAN tag must have all or none of `pcp`, `cfi` and
`vid` (`C75_tag_counterexample`). -/
theorem C75_history_partial {k : NetCls} (hk : k ∈ nets) {v w : Val} (h : Life k v w) : packNet w = packNet v := by
  obtain ⟨vs, ws, rfl, rfl, h1, h2, h3⟩ := life_net hk h
  rw [packNet_eq hk h1, packNet_eq hk h2, h3]

/-- The threads that pack it then give that too. -/
theorem C75_history_threads_partial {k : NetCls} (hk : k ∈ nets) {v w : Val} (h : Life k v w) (hf : Fit w) (n : Nat)
    {ts : List (Prog (Res Bytes))} {w' : Val} (hr : Runs (List.replicate n k.steps, w) (ts, w')) :
    ∀ t ∈ ts, t = .ret (packNet v) ∨ CanStep t w' := by
  have e := C75_history_partial hk h
  obtain ⟨vs, ws, _, rfl, _, h2, _⟩ := life_net hk h
  rw [← e]
  exact (C75_threads_partial hk h2 hf n hr).1

/-- `ip.ttl = 9` between two packs: the length, the checksum and the rest of what the first left behind do not show. -/
private def nhTtl (v : Val) : Val := alter v [5] (.assign (.int 9))

private theorem nhIp_whole {vs : List Val} (h : ∀ v ∈ vs, ∀ c us, v ≠ .obj c us) (h' : ∀ v ∈ vs, ∀ f us, v ≠ .list f us) : Whole (.obj "net.IPv4" vs) := by
  intro p tpid t a b c hp
  cases p with
  | nil => simp [at?] at hp
  | cons i p =>
    simp only [at?] at hp
    cases e : vs[i]? with
    | none => rw [e] at hp; cases hp
    | some u =>
      rw [e] at hp
      have hm := List.mem_of_getElem? e
      cases p with
      | nil => simp only [at?] at hp; cases hp; exact absurd rfl (h _ hm _ _)
      | cons j p =>
        cases u with
        | obj c us => exact absurd rfl (h _ hm _ _)
        | list f us => exact absurd rfl (h' _ hm _ _)
        | _ => cases hp

private theorem nhIp_life {ts : List (Prog (Res Bytes))} {w : Val} (hr : Runs (List.replicate 2 nhIpCls.steps, .obj "net.IPv4" nhIp) (ts, w)) :
    Life nhIpCls (nhTtl (.obj "net.IPv4" nhIp)) (nhTtl w) :=
  .changed 5 [] _ (.packed (.made nhIp rfl) nhIp_fit (nhIp_whole (by simp [nhIp]) (by simp [nhIp])) hr)

example {ts : List (Prog (Res Bytes))} {w : Val} (hr : Runs (List.replicate 2 nhIpCls.steps, .obj "net.IPv4" nhIp) (ts, w)) :
    packNet (nhTtl w) = packNet (nhTtl (.obj "net.IPv4" nhIp)) := C75_history_partial nhIpCls_mem (nhIp_life hr)

example : (packNet (nhTtl (.obj "net.IPv4" nhIp))).isOk = true ∧ packNet (nhTtl (.obj "net.IPv4" nhIp)) ≠ packNet (.obj "net.IPv4" nhIp) := by decide +kernel

example {ts ts' : List (Prog (Res Bytes))} {w w' : Val} (hr : Runs (List.replicate 2 nhIpCls.steps, .obj "net.IPv4" nhIp) (ts, w)) (hf : Fit (nhTtl w))
    (hr' : Runs (List.replicate 4 nhIpCls.steps, nhTtl w) (ts', w')) := C75_history_threads_partial nhIpCls_mem (nhIp_life hr) hf 4 hr'

/-- `tag = VLAN(pcp=3); tag.pack(); tag.pcp = None`: packing has replaced the missing `cfi` and `vid` by 0, so the tag is now sent with four bytes.  Had it
not been packed, it would be empty. -/
theorem C75_tag_counterexample : ∃ r w, Runs ([vlanCls.packP [] 5], .obj "net.VLAN" [.enum 0x8100, .ub 2 .none, .int 3, .none, .none]) ([.ret r], w) ∧
    r = .ok [0x81, 0, 0x60, 0] ∧ packNet (alter w [2] (.assign .none)) = .ok [0x81, 0, 0, 0] ∧
    packNet (alter (.obj "net.VLAN" [.enum 0x8100, .ub 2 .none, .int 3, .none, .none]) [2] (.assign .none)) = .ok [] :=
  ⟨_, .obj "net.VLAN" [.enum 0x8100, .int 0x6000, .int 3, .int 0, .int 0], exec_runs _ (a := .ok [0x81, 0, 0x60, 0]) (by decide +kernel), rfl, by decide +kernel,
    by decide +kernel⟩

/-- `10.0.0.1` to `10.0.0.2` with four bytes of options and three of data. -/
private def nhOptions : List Val :=
  [.int 0, .int 0, .int 0, .int 7, .int 0, .int 255, .int 6, .int 0, .str "10.0.0.1".toList, .str "10.0.0.2".toList, .bytes [1, 1, 1, 1], .bytes [1, 2, 3],
   .int 4, .int 5, .int 0, .int 0, .int 2, .int 0]

/-- Two threads pack an IPv4 packet with four bytes of options.  Each adds one to `ihl`.  If the second does so after the first has computed the total
length, the first sends a header that says it is 28 bytes long, in a packet of 27 bytes. -/
theorem C75_options_counterexample : ∃ vs : List Val, vs.length = 18 ∧ ∃ (ts : List (Prog (Res Bytes))) (w : Val) (good bad : Bytes),
    Runs ([ipv4Steps, ipv4Steps], .obj "net.IPv4" vs) (ts, w) ∧ packNet (.obj "net.IPv4" vs) = .ok good ∧ ts[0]? = some (.ret (.ok bad)) ∧
    good.length = 27 ∧ bad.length = 27 ∧ good.head? = some 0x46 ∧ bad.head? = some 0x47 ∧ slice bad 2 4 = be 2 27 := by
  obtain ⟨ts, w, h1, h2⟩ := run_find (List.replicate 7 0 ++ List.replicate 4 1 ++ List.replicate 60 0) ([ipv4Steps, ipv4Steps], .obj "net.IPv4" nhOptions)
    (fun c => resultOf 0 c = some (.ok [71, 0, 0, 27, 0, 7, 64, 0, 255, 6, 101, 211, 10, 0, 0, 1, 10, 0, 0, 2, 1, 1, 1, 1, 1, 2, 3])) (by decide +kernel)
  exact ⟨nhOptions, rfl, ts, w, [70, 0, 0, 27, 0, 7, 64, 0, 255, 6, 102, 211, 10, 0, 0, 1, 10, 0, 0, 2, 1, 1, 1, 1, 1, 2, 3], _, h1, by decide +kernel,
    resultOf_some h2, rfl, rfl, rfl, rfl, rfl⟩

/-- Packed twice by one thread, it gives other bytes the second time. -/
theorem C75_options_twice_counterexample : ∃ vs : List Val, vs.length = 18 ∧ ∃ r w, Runs ([ipv4Steps], .obj "net.IPv4" vs) ([.ret r], w) ∧ r.isOk = true ∧
    packNet w ≠ r := by
  obtain ⟨ts, w, h1, h2⟩ := run_find (List.replicate 60 0) ([ipv4Steps], .obj "net.IPv4" nhOptions)
    (fun c => c.1.length = 1 ∧ ∃ r, resultOf 0 c = some r ∧ r.isOk = true ∧ packNet c.2 ≠ r) ⟨by decide +kernel,
      .ok [70, 0, 0, 27, 0, 7, 64, 0, 255, 6, 102, 211, 10, 0, 0, 1, 10, 0, 0, 2, 1, 1, 1, 1, 1, 2, 3], by decide +kernel, rfl, by decide +kernel⟩
  obtain ⟨h3, r, h4, h5, h6⟩ := h2
  refine ⟨nhOptions, rfl, r, w, ?_, h5, h6⟩
  have h7 := resultOf_some h4
  match ts, h3 with
  | [t], _ => simp at h7; subst h7; exact h1

end Pyof.Props
