import Verif.Spec.Names
import Verif.Lemmas.Str
import Verif.Props.Basic
import Verif.Props.Messages
import Verif.Props.Misc
/-!
# C77: `str()` of decoded values
-/
namespace Pyof.Props

private theorem named_of {member : Int → Str} {a : Attr} {k : Nat} {make : Str → Res Val} {f : Bytes → Str}
    (h1 : ∀ buff off x, a.unpack buff off = .ok x → (window k buff off).length = k ∧ strOf member x = .ok (f (window k buff off)))
    (h2 : ∀ w, w.length = k → ∃ y, make (f w) = .ok y ∧ a.pack y = .ok w ∧ strOf member y = .ok (f w)) :
    Named member a (window k) make := by
  intro buff off x hx
  obtain ⟨hl, hs⟩ := h1 buff off x hx
  refine ⟨_, hs, h2 _ hl, fun buff' off' x' hx' => ?_⟩
  obtain ⟨hl', hs'⟩ := h1 buff' off' x' hx'
  rw [hs']
  constructor
  · intro e
    obtain ⟨y, m, p, _⟩ := h2 _ hl
    obtain ⟨y', m', p', _⟩ := h2 _ hl'
    simp only [Except.ok.injEq] at e
    rw [e, m] at m'
    cases m'
    rw [p] at p'
    exact (Except.ok.inj p').symm
  · intro e; rw [e]

private theorem no_colons : ∀ (l : List Str), (∀ p ∈ l, p ≠ [] ∧ ':' ∉ p) → hasColons (joinC ':' l) = false
  | [], _ => rfl
  | [p], h => by
    have hp := (h p (by simp)).2
    simp only [joinC]
    clear h
    induction p with
    | nil => rfl
    | cons c p ih =>
      unfold hasColons
      split
      · next heq => cases heq; exact absurd (List.mem_cons_self) hp
      · next heq => cases heq; exact ih fun hm => hp (List.mem_cons_of_mem _ hm)
      · next heq => cases heq
  | p :: q :: r, h => by
    have ih := no_colons (q :: r) fun x hx => h x (List.mem_cons_of_mem _ hx)
    have hp := (h p (by simp)).2
    have hq := h q (by simp)
    have hj : ∃ c s, joinC ':' (q :: r) = c :: s ∧ c ≠ ':' := by
      cases q with
      | nil => exact absurd rfl hq.1
      | cons c q =>
        cases r with
        | nil => exact ⟨c, q, rfl, fun e => hq.2 (by simp [e])⟩
        | cons r rs => exact ⟨c, _, rfl, fun e => hq.2 (by simp [e])⟩
    obtain ⟨c, s, hj, hc⟩ := hj
    simp only [joinC]
    rw [hj] at ih ⊢
    clear h
    induction p with
    | nil =>
      unfold hasColons
      split
      · next heq => cases heq; exact absurd rfl hc
      · next heq => cases heq; exact ih
      · next heq => cases heq
    | cons d p ihp =>
      simp only [List.cons_append]
      unfold hasColons
      split
      · next heq => injection heq with e1 e2; exact absurd (by simp [e1]) hp
      · next heq => cases heq; exact ihp fun hm => hp (List.mem_cons_of_mem _ hm)
      · next heq => cases heq

private theorem hexFix4_ne (n : Nat) : hexFix 4 n ≠ [] := by simp [hexFix]

private theorem ip6Expand_text {b : Bytes} (h : b.length = 16) : ip6Expand (ip6Text b) = ip6Text b := by
  have hc : hasColons (ip6Text b) = false := by
    rw [← ip6Text_eq h]
    refine no_colons _ fun p hp => ?_
    obtain ⟨n, _, rfl⟩ := List.mem_map.1 hp
    exact ⟨hexFix4_ne n, hexFix_no_colon⟩
  unfold ip6Expand
  rw [if_neg]
  · simp [hc]
  · intro e; rw [e] at hc; exact absurd hc (by decide)

/-- C77.  The text of a decoded HWAddress, IPAddress, IPv6Address or DPID is a name of the address: the constructor of the class makes the same
address of it, and two decoded addresses have the same text exactly if they are the same on the wire. -/
theorem C77_addresses (member : Int → Str) :
    (∀ dv, Named member (hwAttr dv) (window 6) fun s => .ok (.hw (.str s))) ∧
    (∀ addr m, Named member (ipAttr addr m) (window 4) fun s => ipInit s) ∧
    Named member ip6Attr (window 16) (fun s => ip6Init s) ∧
    Named member dpidAttr (window 8) fun s => .ok (.dpid (.str s)) := by
  refine ⟨fun dv => ?_, fun addr m => ?_, ?_, ?_⟩
  · refine named_of (f := colonHex) (fun buff off x hx => ?_) fun w hw => ⟨_, rfl, hwPackRaw_colonHex hw, rfl⟩
    by_cases h : off + 6 ≤ buff.length
    · rw [((C03_mac_unpack dv buff off).1 h).1] at hx
      cases hx
      exact ⟨slice_full_length h, rfl⟩
    · rw [(C03_mac_unpack dv buff off).2 h] at hx; cases hx
  · refine named_of (f := dotted) (fun buff off x hx => ?_) fun w hw => ?_
    · by_cases h : off + 4 ≤ buff.length
      · rw [((C04_ipv4_unpack addr m buff off).1 h).1] at hx
        cases hx
        exact ⟨slice_full_length h, rfl⟩
      · rw [(C04_ipv4_unpack addr m buff off).2 h] at hx; cases hx
    · have h2 := ipText_no_slash hw
      rw [dotted_eq hw] at h2
      exact ⟨_, (C04_ipv4_text (dotted w)).1 h2, ipPackRaw_dotted hw, rfl⟩
  · refine named_of (f := ip6Text) (fun buff off x hx => ?_) fun w hw => ?_
    · by_cases h : off + 16 ≤ buff.length
      · rw [((C05_ipv6_unpack buff off).1 h).1] at hx
        cases hx
        exact ⟨slice_full_length h, rfl⟩
      · rw [(C05_ipv6_unpack buff off).2 h] at hx; cases hx
    · have h2 := ip6Text_no_slash (b := w)
      rw [ip6Text_eq hw] at h2
      refine ⟨_, (C05_ipv6_text (ip6Text w)).1 h2, ?_, ?_⟩
      · rw [ip6Expand_text hw]; exact ip6PackRaw_text hw
      · rw [ip6Expand_text hw]; rfl
  · refine named_of (f := colonHex) (fun buff off x hx => ?_) fun w hw => ⟨_, rfl, dpidPackRaw_colonHex hw, rfl⟩
    by_cases h : off + 8 ≤ buff.length
    · rw [((C06_dpid_unpack buff off).1 h).1] at hx
      cases hx
      exact ⟨slice_full_length h, rfl⟩
    · rw [(C06_dpid_unpack buff off).2 h] at hx; cases hx

/-- A datapath id in the middle of a buffer. -/
example := (C77_addresses fun _ => []).2.2.2 [9, 0, 0, 0, 0, 0, 0, 0xab, 1, 7] 1 (.dpid (.str "00:00:00:00:00:00:ab:01".toList))
  (by decide +kernel)
example := (C77_addresses fun _ => []).2.2.1 (List.replicate 15 0 ++ [1]) 0
  (.ip6 (.str "0000:0000:0000:0000:0000:0000:0000:0001".toList) 128) (by decide +kernel)
example := (C77_addresses fun _ => []).2.1 [] 8 [10, 0, 3, 255] 0 (.ip (.str "10.0.3.255".toList) 8) (by decide +kernel)
example := (C77_addresses fun _ => []).1 .none [0xff, 1, 2, 3, 4, 5] 0 (.hw (.str "ff:01:02:03:04:05".toList)) (by decide +kernel)

/-- C77 does not hold for addresses the user has written: two texts of one address stay different, `str()` of an IPAddress does not tell its prefix
length, and of a DPID without value it raises TypeError. -/
theorem C77_written_counterexample (member : Int → Str) :
    (∃ s t, strOf member (.hw (.str s)) ≠ strOf member (.hw (.str t)) ∧
      ∃ b, hwAttr.pack (.hw (.str s)) = .ok b ∧ hwAttr.pack (.hw (.str t)) = .ok b) ∧
    (∃ x y s, ipInit "10.0.0.0/8".toList = .ok x ∧ strOf member x = .ok s ∧ ipInit s = .ok y ∧ x = .ip (.str s) 8 ∧ y = .ip (.str s) 32) ∧
    strOf member dpidAttr.proto = .error .type := by
  refine ⟨⟨"AA:00:00:00:00:01".toList, "aa:0:0:0:0:1".toList, ?_, [0xaa, 0, 0, 0, 0, 1], by decide +kernel⟩,
    ⟨.ip (.str "10.0.0.0".toList) 8, .ip (.str "10.0.0.0".toList) 32, "10.0.0.0".toList, by decide +kernel, rfl, by decide +kernel, rfl, rfl⟩, rfl⟩
  simp only [strOf]
  decide +kernel

/-- C77.  The text of a decoded number is the number: `int(str(x))` packs to the bytes that were decoded.  (Fields without an enumeration; bit masks.) -/
theorem C77_numbers (member : Int → Str) (w : Nat) (dflt : Val) (ref : Ref) (hr : ∀ ms, ref ≠ .enum ms) :
    Named member (ubint w ref dflt) (window w) fun s => match pyInt 10 s with | some i => .ok (.int i) | none => .error .value := by
  refine named_of (f := fun b => decStr (beVal b)) (fun buff off x hx => ?_) fun b hb => ?_
  · obtain ⟨hl, _, hn, _⟩ := (C02_ubint_unpack w ref dflt buff off).1 x hx
    refine ⟨slice_full_length hl, ?_⟩
    simp only [ubint, ubUnpack] at hx
    split at hx
    · cases hx
    · next n _ =>
      cases ref with
      | enum ms => exact absurd rfl (hr ms)
      | none =>
        cases hx
        simp only [number, Option.some.injEq] at hn
        simp only [strOf]
        rw [show ((n : Nat) : Int) = _ from hn]
        rfl
      | mask =>
        cases hx
        simp only [number, Option.some.injEq] at hn
        simp only [strOf]
        rw [show ((n : Nat) : Int) = _ from hn]
        rfl
  · refine ⟨.int (beVal b), by simp only [pyInt_decStr], ?_, rfl⟩
    refine ((C01_ubint_pack w ref dflt (.int (beVal b))).1 b).2 ⟨beVal b, rfl, ?_, hb, rfl⟩
    have := beVal_lt b
    rw [Nat.pow_mul]
    rw [hb] at this
    exact this

example := C77_numbers (fun _ => []) 2 .none .none (by simp) [9, 2, 1, 7] 1 (.ub 2 (.int 513)) (by decide +kernel)
example := C77_numbers (fun _ => []) 4 .none .mask (by simp) [0, 0, 1, 7] 0 (.ub 4 (.mask 263)) (by decide +kernel)

/-- C77.  The text of a number a program has given to a `UBInt`, also of a negative one or one that is too large to pack, is the number, by itself or
in a bit mask: `int(str(x))` gives it back, and different numbers have different texts. -/
theorem C77_given_numbers (member : Int → Str) (w : Nat) (i : Int) (x : Val) (hx : x = .int i ∨ x = .mask i) :
    (∃ s, strOf member (.ub w x) = .ok s ∧ strOf member x = .ok s ∧ pyInt 10 s = some i) ∧
    ∀ (w' : Nat) (k : Int), strOf member (.ub w x) = strOf member (.ub w' (.int k)) ↔ i = k := by
  have e : strOf member x = .ok (intStr i) := by rcases hx with rfl | rfl <;> rfl
  have e' : strOf member (.ub w x) = .ok (intStr i) := by rw [strOf]; exact e
  refine ⟨⟨_, e', e, pyInt_intStr i⟩, fun w' k => ?_⟩
  rw [e']
  simp only [strOf, Except.ok.injEq]
  refine ⟨fun h => ?_, fun h => by rw [h]⟩
  have := pyInt_intStr i
  rw [h, pyInt_intStr k] at this
  exact (Option.some.inj this).symm

example := C77_given_numbers (fun _ => []) 2 (-5) (.int (-5)) (.inl rfl)
example : strOf (fun _ => []) (.ub 2 (.int (-5))) = .ok "-5".toList := by decide +kernel

/-- C77.  The texts of two decoded numbers of the same enumeration are the same exactly if the numbers are, provided the members of the enumeration
have different texts. -/
theorem C77_enumerated (member : Int → Str) (w : Nat) (dflt : Val) (ms : List Nat)
    (hm : ∀ i ∈ ms, ∀ j ∈ ms, member i = member j → i = j) (buff buff' : Bytes) (off off' : Nat) (x x' : Val)
    (hx : (ubint w (.enum ms) dflt).unpack buff off = .ok x) (hx' : (ubint w (.enum ms) dflt).unpack buff' off' = .ok x') :
    (∃ i ∈ ms, strOf member x = .ok (member i)) ∧
    (strOf member x = strOf member x' ↔ window w buff off = window w buff' off') := by
  have key : ∀ buff off x, (ubint w (.enum ms) dflt).unpack buff off = .ok x →
      ∃ n ∈ ms, x = .ub w (.enum n) ∧ (ubint w (.enum ms) dflt).pack x = .ok (window w buff off) := by
    intro buff off x hx
    have hp := ((C02_ubint_unpack w (.enum ms) dflt buff off).1 x hx).2.2.2 (.enum ms) dflt
    simp only [ubint, ubUnpack, refApply] at hx
    split at hx
    · cases hx
    · next n _ =>
      by_cases hn : n ∈ ms
      · rw [if_pos hn] at hx
        cases hx
        exact ⟨n, hn, rfl, hp⟩
      · rw [if_neg hn] at hx; cases hx
  obtain ⟨n, hn, rfl, p⟩ := key buff off x hx
  obtain ⟨k, hk, rfl, p'⟩ := key buff' off' x' hx'
  refine ⟨⟨n, hn, rfl⟩, ?_⟩
  simp only [strOf, Except.ok.injEq]
  constructor
  · intro e
    have := hm n hn k hk e
    subst this
    rw [p] at p'
    exact Except.ok.inj p'
  · intro e
    rw [e, ← p'] at p
    have h1 := (C02_ubint_unpack w (.enum ms) dflt buff off).1 _ hx
    have h2 := (C02_ubint_unpack w (.enum ms) dflt buff' off').1 _ hx'
    have a := h1.2.2.1
    have b := h2.2.2.1
    rw [show slice buff off (off + w) = slice buff' off' (off' + w) from e, ← b] at a
    simp only [number, Option.some.injEq] at a
    rw [a]

/-- Types of OpenFlow messages. -/
example := C77_enumerated (fun i => decStr i.toNat) 1 .none [0, 2, 3]
  (by intro i hi j hj e
      have := congrArg (pyInt 10) e
      simp [pyInt_decStr] at this
      omega) [2, 9] [1, 2] 0 1 (.ub 1 (.enum 2)) (.ub 1 (.enum 2)) (by decide +kernel) (by decide +kernel)

/-- C77.  The text of a decoded BinaryData tells all its bytes. -/
theorem C77_data (member : Int → Str) (dflt : Val) (buff buff' : Bytes) (off off' : Nat) (x x' : Val)
    (hx : (binAttr dflt).unpack buff off = .ok x) (hx' : (binAttr dflt).unpack buff' off' = .ok x') :
    (∃ s, strOf member x = .ok s) ∧ (strOf member x = strOf member x' ↔ buff.drop off = buff'.drop off') := by
  cases hx; cases hx'
  refine ⟨⟨_, rfl⟩, ?_⟩
  simp only [strOf, Except.ok.injEq]
  exact ⟨bytesStr_inj, congrArg _⟩

example := C77_data (fun _ => []) .none [1, 39, 92, 0, 0x41] [39, 92, 0, 0x41] 1 0 _ _ rfl rfl
example : (strOf (fun _ => []) (.bin (.bytes [39, 92, 0, 0x41, 10, 0xff]))) = .ok "b\"'\\\\\\x00A\\n\\xff\"".toList := by decide +kernel

private theorem header_table : ∀ t : Nat, t < 22 → ∀ a l x : Val,
    (∃ q, classes01[t]? = some q ∧ V01.headerStr (.obj (hdrName 1) [a, .enum t, l, x]) = .ok q.1.toList) ∧
      (V01.lib.find t).map (fun m => (m.ver, m.code)) = some (1, t) := by
  intro t ht a l x
  have h : ∀ t : Nat, t < 22 → (V01.lib.find t).map (fun m => (m.ver, m.code)) = some (1, t) ∧ classes01[t]?.isSome ∧
      (V01.typeNames.find? fun p => p.2 == t).map (·.1.toList) = classes01[t]?.map (·.1.toList) := by decide +kernel
  obtain ⟨h1, h2, h3⟩ := h t ht
  refine ⟨?_, h1⟩
  obtain ⟨q, hq⟩ := Option.isSome_iff_exists.1 h2
  rw [hq] at h3
  refine ⟨q, hq, ?_⟩
  simp only [V01.headerStr, Int.toNat_natCast]
  cases hf : V01.typeNames.find? (fun p => p.2 == t) with
  | none => rw [hf] at h3; cases h3
  | some p => rw [hf] at h3; simp only [Option.map_some, Option.some.injEq] at h3; simp only [h3]

/-- C77.  `str(message.header)` of every OpenFlow 1.0 packet that `pyof.utils.unpack` accepts is the name of the type in the packet. -/
theorem C77_header_partial (p : Bytes) (v : Val) (h1 : p[0]? = some 1) (h : pyUnpack libs (.bytes p) = .ok v) :
    ∃ t cls hdr vs name, p[1]? = some (UInt8.ofNat t) ∧ classes01[t]? = some (name, cls) ∧ v = .obj cls (hdr :: vs) ∧
      V01.headerStr hdr = .ok name.toList := by
  obtain ⟨l, hl, t, m, vs, h0, ht, hmem, hf, _, rfl⟩ := C21_class_of_packet p v h
  simp only [libs, List.mem_cons, List.not_mem_nil, or_false] at hl
  rcases hl with rfl | rfl
  · have hlt := (C21_total.1 t).1 hmem
    obtain ⟨⟨⟨name, cls⟩, hq, hs⟩, hm⟩ := header_table t hlt (.ub 1 (.int m.ver)) (.ub 2 (.int p.length)) (.ub 4 (.int (beVal (slice p 4 8))))
    obtain ⟨m', e1, e2, _⟩ := C58_from_type (l := V01.lib) (cs := classes01) (by simp [typed]) hq (r := .enum t) (Or.inl rfl)
    rw [hf] at e1 hm
    cases e1
    simp only [Option.map_some, Option.some.injEq, Prod.mk.injEq] at hm
    refine ⟨t, cls, _, vs, name, ht, hq, by rw [e2], ?_⟩
    rw [hm.1, hm.2] 
    rw [hm.1] at hs
    exact hs
  · rw [h1] at h0
    exact absurd h0 (by decide)

/-- An echo request. -/
example := C77_header_partial [1, 2, 0, 9, 0, 0, 0, 7, 5] _ rfl
  (show pyUnpack libs (.bytes [1, 2, 0, 9, 0, 0, 0, 7, 5]) = .ok (.obj "01.EchoRequest" [.obj "01.Header" [.ub 1 (.int 1), .enum 2, .ub 2 (.int 9), .ub 4 (.int 7)], .bin (.bytes [5])]) by
    decide +kernel)

/-- C77.  The same for a new message, before and after it is packed. -/
theorem C77_new_header_partial (t : Nat) (m : MsgCls) (h : V01.lib.find t = some m) (xid : Val) (r : Nat) :
    ∃ name, classes01[t]? = some (name, m.name) ∧ V01.headerStr (newHeader m xid r) = .ok name.toList ∧
      ∀ n hdr, setLength n (newHeader m xid r) = .ok hdr → V01.headerStr hdr = .ok name.toList := by
  have hlt : t < 22 := (C21_total.1 t).1 ((C21_total.2.2 V01.lib (by simp [libs]) t).2 ⟨m, h⟩)
  obtain ⟨⟨⟨name, cls⟩, hq, hs⟩, hm⟩ := header_table t hlt (.ub 1 (.int m.ver)) .none (newXid xid r)
  obtain ⟨m', e1, e2, _⟩ := C58_from_type (l := V01.lib) (cs := classes01) (by simp [typed]) hq (r := .enum t) (Or.inl rfl)
  rw [h] at e1 hm
  cases e1
  simp only [Option.map_some, Option.some.injEq, Prod.mk.injEq] at hm
  refine ⟨name, by rw [hq, e2], ?_, ?_⟩
  · simp only [newHeader, hm.1, hm.2]
    rw [hm.1] at hs
    exact hs
  · intro n hdr hn
    simp only [newHeader, setLength, Except.ok.injEq] at hn
    subst hn
    rw [hm.1, hm.2]
    rw [hm.1] at hs
    exact hs

/-- A flow mod. -/
example := C77_new_header_partial 14 V01.flowMod (by rfl) (.int 5) 0

private theorem unpackAttrs_cons {nm : String} {c : Attr} {fs : Fields} {buff : Bytes} {off e : Nat} {vs : List Val}
    (h : unpackAttrs ((nm, c) :: fs) buff off = .ok (vs, e)) :
    ∃ v n ws, unpackAttr c buff off = .ok (v, n) ∧ unpackAttrs fs buff (off + n) = .ok (ws, e) ∧ vs = v :: ws := by
  simp only [unpackAttrs] at h
  split at h
  · cases h
  · next v n hv =>
    split at h
    · cases h
    · next ws _ hw => cases h; exact ⟨v, n, ws, hv, hw, rfl⟩

private theorem unpackAttr_ub {w : Nat} {ref : Ref} {dflt : Val} {buff : Bytes} {off n : Nat} {v : Val}
    (h : unpackAttr (ubint w ref dflt) buff off = .ok (v, n)) : ∃ y, v = .ub w y := by
  simp only [unpackAttr, ubint, ubUnpack] at h
  by_cases hb : buff = []
  · rw [if_pos hb] at h
    cases h
    exact ⟨_, rfl⟩
  · rw [if_neg hb] at h
    cases hu : unpackFrom w buff off with
    | none => rw [hu] at h; cases h
    | some k =>
      rw [hu] at h
      cases hr : refApply ref k with
      | none => simp only [hr] at h; cases h
      | some y => simp only [hr] at h; cases h; exact ⟨y, rfl⟩

/-- C77 does not hold for a header that is decoded on its own: `str()` of every such header raises AttributeError, although its documentation
says that it is the name of the type. -/
theorem C77_header_counterexample (code : Nat) (buff : Bytes) (off : Nat) (hdr : Val)
    (h : (headerAttr 1 V01.lib.types code).unpack buff off = .ok hdr) : V01.headerStr hdr = .error .attribute := by
  simp only [headerAttr, structAttr] at h
  split at h
  · cases h
  · next vs e hu =>
    cases h
    simp only [headerFields] at hu
    obtain ⟨a, n, vs1, _, h1, rfl⟩ := unpackAttrs_cons hu
    obtain ⟨t, k, vs2, ht, h2, rfl⟩ := unpackAttrs_cons h1
    obtain ⟨l, _, vs3, _, h3, rfl⟩ := unpackAttrs_cons h2
    obtain ⟨x, _, vs4, _, h4, rfl⟩ := unpackAttrs_cons h3
    cases h4
    obtain ⟨y, rfl⟩ := unpackAttr_ub ht
    rfl

example := C77_header_counterexample 0 [1, 2, 0, 8, 0, 0, 0, 7] 0
  (.obj "01.Header" [.ub 1 (.int 1), .ub 1 (.enum 2), .ub 2 (.int 8), .ub 4 (.int 7)]) (by decide +kernel)

end Pyof.Props
