import Verif.Model.ReuseNet
import Verif.Lemmas.Reuse
/-! # Decoding into a used object: lemmas for the classes of `Model/ReuseNet.lean` -/
namespace Pyof
set_option linter.unusedSimpArgs false
open Meth Net

/-- `p` ends as `r` whatever the object holds, and if it returns the attributes `names` are those of `r`. -/
def Sees (names : List String) (p : Meth Unit) (r : Res (List Val)) : Prop :=
  ∀ d, (p.run d).1 = r.map (fun _ => ()) ∧ ∀ vs, r = .ok vs → names.map (fun n => (p.run d).2.lookup n) = vs.map some

theorem getattr_lookup (n : String) (d : Dict) :
    (getattr n).run d = (match d.lookup n with | some v => .ok v | none => .error .attribute, d) := by
  simp only [getattr]; cases d.lookup n <;> rfl

theorem num_lookup (n : String) (d : Dict) :
    (num n).run d = (match d.lookup n with | some v => decNum v | none => .error .attribute, d) := by
  simp only [num, bind_eq, getattr_lookup]; cases d.lookup n <;> rfl
theorem text_lookup (n : String) (d : Dict) :
    (text n).run d = (match d.lookup n with | some v => decText v | none => .error .attribute, d) := by
  simp only [text, bind_eq, getattr_lookup]; cases d.lookup n <;> rfl
theorem raw_lookup (n : String) (d : Dict) :
    (raw n).run d = (match d.lookup n with | some v => decBytes v | none => .error .attribute, d) := by
  simp only [raw, bind_eq, getattr_lookup]; cases d.lookup n <;> rfl

theorem seven {α : Type} {vs : List α} (h : vs.length = 7) : ∃ a b c d e f g, vs = [a, b, c, d, e, f, g] := by
  match vs, h with
  | [a, b, c, d, e, f, g], _ => exact ⟨a, b, c, d, e, f, g, rfl⟩

theorem twelve {α : Type} {vs : List α} (h : vs.length = 12) : ∃ a b c d e f g i j k l m, vs = [a, b, c, d, e, f, g, i, j, k, l, m] := by
  match vs, h with
  | [a, b, c, d, e, f, g, i, j, k, l, m], _ => exact ⟨a, b, c, d, e, f, g, i, j, k, l, m, rfl⟩

/-- The attributes of an IPv4 object. -/
def ipv4Names : List String := ["version", "ihl", "dscp", "ecn", "length", "identification", "flags", "offset", "ttl", "protocol", "checksum",
  "source", "destination", "options", "data"]
def ipv4Values (p : IPv4) : List Val := [.int p.version, .int p.ihl, .int p.dscp, .int p.ecn, .int p.length, .int p.identification, .int p.flags,
  .int p.offset, .int p.ttl, .int p.protocol, .int p.checksum, .str p.source, .str p.destination, .bytes p.options, .bytes p.data]

theorem ipv4_sees (junk : Val) (buff : Bytes) (off : Nat) :
    Sees ipv4Names (ipv4Into junk buff off) ((IPv4.unpack buff off).map ipv4Values) := by
  intro d
  unfold ipv4Into IPv4.unpack
  rcases loop_cases junk ipv4Fields buff off d with ⟨e, ops, h, ho, hl⟩ | ⟨vs, e, h, hlen, hl⟩
  · simp only [h, bind_eq, hl]; exact ⟨rfl, nofun⟩
  obtain ⟨a1, a2, a3, a4, a5, a6, a7, a8, a9, a10, a11, a12, rfl⟩ := twelve hlen
  simp only [h, bind_eq, hl]
  clear h hl hlen
  simp only [ipv4Fields, runSets, List.foldl_cons, List.foldl_nil, List.map_cons, List.map_nil, List.zip_cons_cons, List.zip_nil_right]
  cases h1 : decNum a1 with
  | error e => simp [num_lookup, text_lookup, raw_lookup, getattr_lookup, setattr_eq, set_lookup, bind_eq, h1]; exact ⟨rfl, nofun⟩
  | ok n1 =>
  cases h2 : decNum a2 with
  | error e => simp [num_lookup, text_lookup, raw_lookup, getattr_lookup, setattr_eq, set_lookup, bind_eq, h1, h2]; exact ⟨rfl, nofun⟩
  | ok n2 =>
  cases h3 : decNum a3 with
  | error e => simp [num_lookup, text_lookup, raw_lookup, getattr_lookup, setattr_eq, set_lookup, bind_eq, h1, h2, h3]; exact ⟨rfl, nofun⟩
  | ok n3 =>
  cases h4 : decNum a4 with
  | error e => simp [num_lookup, text_lookup, raw_lookup, getattr_lookup, setattr_eq, set_lookup, bind_eq, h1, h2, h3, h4]; exact ⟨rfl, nofun⟩
  | ok n4 =>
  cases h5 : decNum a5 with
  | error e => simp [num_lookup, text_lookup, raw_lookup, getattr_lookup, setattr_eq, set_lookup, bind_eq, h1, h2, h3, h4, h5]; exact ⟨rfl, nofun⟩
  | ok n5 =>
  cases h6 : decNum a6 with
  | error e => simp [num_lookup, text_lookup, raw_lookup, getattr_lookup, setattr_eq, set_lookup, bind_eq, h1, h2, h3, h4, h5, h6]; exact ⟨rfl, nofun⟩
  | ok n6 =>
  cases h7 : decNum a7 with
  | error e => simp [num_lookup, text_lookup, raw_lookup, getattr_lookup, setattr_eq, set_lookup, bind_eq, h1, h2, h3, h4, h5, h6, h7]; exact ⟨rfl, nofun⟩
  | ok n7 =>
  cases h8 : decNum a8 with
  | error e => simp [num_lookup, text_lookup, raw_lookup, getattr_lookup, setattr_eq, set_lookup, bind_eq, h1, h2, h3, h4, h5, h6, h7, h8]; exact ⟨rfl, nofun⟩
  | ok n8 =>
  cases h9 : decText a9 with
  | error e => simp [num_lookup, text_lookup, raw_lookup, getattr_lookup, setattr_eq, set_lookup, bind_eq, h1, h2, h3, h4, h5, h6, h7, h8, h9]; exact ⟨rfl, nofun⟩
  | ok n9 =>
  cases h10 : decText a10 with
  | error e => simp [num_lookup, text_lookup, raw_lookup, getattr_lookup, setattr_eq, set_lookup, bind_eq, h1, h2, h3, h4, h5, h6, h7, h8, h9, h10]; exact ⟨rfl, nofun⟩
  | ok n10 =>
  cases h11 : decBytes a11 with
  | error e =>
    simp only [num_lookup, text_lookup, raw_lookup, getattr_lookup, setattr_eq, set_lookup, bind_eq, String.reduceEq, if_false, if_true, h1, h2, h3, h4, h5, h6, h7, h8, h9, h10]
    split <;> simp only [raw_lookup, setattr_eq, set_lookup, bind_eq, String.reduceEq, if_false, if_true, h11] <;> exact ⟨rfl, nofun⟩
  | ok n11 =>
  simp only [num_lookup, text_lookup, raw_lookup, getattr_lookup, setattr_eq, set_lookup, bind_eq, String.reduceEq, if_false, if_true, h1, h2, h3, h4, h5, h6, h7, h8, h9, h10]
  simp only [bind, Except.bind, pure, Except.pure, Except.map, ipv4Values, ipv4Names]
  by_cases hi : n1 &&& 15 > 5
  · have hj : ((n1 &&& 15 : Nat) : Int) > 5 := by omega
    have hk : ((((n1 &&& 15 : Nat) : Int) - 5) * 4).toNat = ((n1 &&& 15) - 5) * 4 := by omega
    simp only [if_pos hi, if_pos hj, hk, raw_lookup, setattr_eq, set_lookup, bind_eq, String.reduceEq, if_false, if_true, h11]
    refine ⟨trivial, fun vs e => ?_⟩
    cases e
    simp [set_lookup]
  · have hj : ¬ ((n1 &&& 15 : Nat) : Int) > 5 := by omega
    simp only [if_neg hi, if_neg hj, raw_lookup, setattr_eq, set_lookup, bind_eq, String.reduceEq, if_false, if_true, h11]
    refine ⟨trivial, fun vs e => ?_⟩
    cases e
    simp [set_lookup]

/-- The attributes of an IPv6 object. -/
def ipv6Names : List String := ["version", "tclass", "flabel", "length", "next_header", "hop_limit", "source", "destination", "data"]
def ipv6Values (p : IPv6) : List Val := [.int p.version, .int p.tclass, .int p.flabel, .int p.length, .int p.nextHeader, .int p.hopLimit,
  p.source, p.destination, .bytes p.data]

theorem ipv6_sees (junk : Val) (buff : Bytes) (off : Nat) :
    Sees ipv6Names (ipv6Into junk buff off) ((IPv6.unpack buff off).map ipv6Values) := by
  intro d
  unfold ipv6Into IPv6.unpack
  rcases loop_cases junk ipv6Fields buff off d with ⟨e, ops, h, ho, hl⟩ | ⟨vs, e, h, hlen, hl⟩
  · simp only [h, bind_eq, hl]; exact ⟨rfl, nofun⟩
  obtain ⟨a1, a2, a3, a4, a5, a6, a7, rfl⟩ := seven hlen
  simp only [h, bind_eq, hl]
  clear h hl hlen
  simp only [ipv6Fields, runSets, List.foldl_cons, List.foldl_nil, List.map_cons, List.map_nil, List.zip_cons_cons, List.zip_nil_right]
  cases h1 : decNum a1 with
  | error e => simp [num_lookup, text_lookup, raw_lookup, getattr_lookup, setattr_eq, set_lookup, bind_eq, h1]; exact ⟨rfl, nofun⟩
  | ok n1 =>
  cases h2 : decNum a2 with
  | error e => simp [num_lookup, text_lookup, raw_lookup, getattr_lookup, setattr_eq, set_lookup, bind_eq, h1, h2]; exact ⟨rfl, nofun⟩
  | ok n2 =>
  cases h3 : decNum a3 with
  | error e => simp [num_lookup, text_lookup, raw_lookup, getattr_lookup, setattr_eq, set_lookup, bind_eq, h1, h2, h3]; exact ⟨rfl, nofun⟩
  | ok n3 =>
  cases h4 : decNum a4 with
  | error e => simp [num_lookup, text_lookup, raw_lookup, getattr_lookup, setattr_eq, set_lookup, bind_eq, h1, h2, h3, h4]; exact ⟨rfl, nofun⟩
  | ok n4 =>
  cases h5 : decText a5 with
  | error e => simp [num_lookup, text_lookup, raw_lookup, getattr_lookup, setattr_eq, set_lookup, bind_eq, h1, h2, h3, h4, h5]; exact ⟨rfl, nofun⟩
  | ok n5 =>
  cases h6 : decText a6 with
  | error e => simp [num_lookup, text_lookup, raw_lookup, getattr_lookup, setattr_eq, set_lookup, bind_eq, h1, h2, h3, h4, h5, h6]; exact ⟨rfl, nofun⟩
  | ok n6 =>
  cases h7 : decBytes a7 with
  | error e => simp [num_lookup, text_lookup, raw_lookup, getattr_lookup, setattr_eq, set_lookup, bind_eq, h1, h2, h3, h4, h5, h6, h7]; exact ⟨rfl, nofun⟩
  | ok n7 =>
  simp only [num_lookup, text_lookup, raw_lookup, getattr_lookup, setattr_eq, set_lookup, bind_eq, String.reduceEq, if_false, if_true, h1, h2, h3, h4, h5, h6, h7]
  simp only [bind, Except.bind, pure, Except.pure, Except.map, ipv6Values, ipv6Names]
  refine ⟨trivial, fun vs e => ?_⟩
  cases e
  simp [set_lookup]

theorem int_form_ne {w : Nat} {buff : Bytes} {b : Nat} {v : Val} {k : Nat} (hb : buff ≠ [])
    (h : unpackAttr (ubint w) buff b = .ok (v, k)) : ∃ t, v = .ub w (.int t) := by
  simp only [unpackAttr, if_neg hb, ubint, ubUnpack, refApply] at h
  split at h
  · cases h
  rename_i hv
  split at hv
  · cases hv
  cases hv
  cases h
  exact ⟨_, rfl⟩

/-- The attributes of a decoded object. -/
def Val.parts : Val → List Val
  | .obj _ vs => vs
  | _ => []

def oxmNames : List String := ["oxm_class", "oxm_field_and_mask", "oxm_length", "oxm_value", "oxm_field", "oxm_hasmask"]

theorem oxm_sees (junk : Val) (buff : Bytes) (off : Nat) :
    Sees oxmNames (oxmInto junk buff off) ((V04.oxmUnpack buff off).map Val.parts) := by
  intro d
  unfold oxmInto V04.oxmUnpack
  rcases loop_cases junk V04.oxmFields buff off d with ⟨e, ops, h, ho, hl⟩ | ⟨vs, e, h, hlen, hl⟩
  · simp only [h, bind_eq, hl]; exact ⟨rfl, nofun⟩
  obtain ⟨a, b, c, v, rfl⟩ := four hlen
  obtain ⟨k1, h1, hr⟩ := attrs_head h
  obtain ⟨k2, h2, hr⟩ := attrs_head hr
  obtain ⟨k3, h3, -⟩ := attrs_head hr
  simp only [h, bind_eq, hl]
  clear h hl hlen hr
  simp only [V04.oxmFields, runSets, List.foldl_cons, List.foldl_nil, List.map_cons, List.map_nil, List.zip_cons_cons, List.zip_nil_right,
    getattr_lookup, set_lookup, String.reduceEq, if_false, if_true]
  by_cases hb : buff = []
  · subst hb
    cases h1; cases h2; cases h3
    exact ⟨rfl, nofun⟩
  obtain ⟨fam, rfl⟩ := int_form_ne hb h2
  obtain ⟨len, rfl⟩ := int_form_ne hb h3
  simp only [bind_eq, getattr_lookup, set_lookup, String.reduceEq, if_false, if_true]
  by_cases hc : cmpNum a = some 0x8000
  · simp only [if_pos hc]
    by_cases hf : fam.toNat / 2 ∈ V04.ofbFields
    · simp only [if_pos hf, pure_eq, bind_eq, setattr_eq, getattr_lookup, set_lookup, String.reduceEq, if_false, if_true]
      refine ⟨rfl, fun vs e => ?_⟩
      cases e
      simp [set_lookup, oxmNames, Val.parts]
    · simp only [if_neg hf, raise_eq]
      exact ⟨rfl, nofun⟩
  · simp only [if_neg hc, pure_eq, bind_eq, setattr_eq, getattr_lookup, set_lookup, String.reduceEq, if_false, if_true]
    refine ⟨rfl, fun vs e => ?_⟩
    cases e
    simp [set_lookup, oxmNames, Val.parts]

theorem match_sees (junk : Val) (buff : Bytes) (off : Nat) :
    Sees (V04.matchFields.map (·.1)) (matchInto junk buff off) ((V04.matchUnpack buff off).map Val.parts) := by
  intro d
  unfold matchInto V04.matchUnpack
  rcases loop_cases junk [("match_type", ubint 2 (.enum [0, 1])), ("length", ubint 2)] buff off d with ⟨e, ops, h, ho, hl⟩ | ⟨vs, e, h, hlen, hl⟩
  · simp only [h, bind_eq, hl]; exact ⟨rfl, nofun⟩
  obtain ⟨a, b, rfl⟩ : ∃ a b, vs = [a, b] := by
    match vs, hlen with
    | [a, b], _ => exact ⟨a, b, rfl⟩
  obtain ⟨k1, h1, hr⟩ := attrs_head h
  obtain ⟨k2, h2, -⟩ := attrs_head hr
  simp only [h, bind_eq, hl]
  clear h hl hlen hr
  simp only [runSets, List.foldl_cons, List.foldl_nil, List.map_cons, List.map_nil, List.zip_cons_cons, List.zip_nil_right,
    getattr_lookup, set_lookup, String.reduceEq, if_false, if_true]
  by_cases hb : buff = []
  · subst hb
    cases h1; cases h2
    exact ⟨rfl, nofun⟩
  obtain ⟨n, rfl⟩ := int_form_ne hb h2
  simp only [bind_eq, unpackAttribute, unpackAttr]
  by_cases ht : buff.take (off + n.toNat) = []
  · simp only [if_pos ht, bind_eq, setattr_eq, pure_eq]
    refine ⟨rfl, fun vs e => ?_⟩
    cases e
    simp [set_lookup, V04.matchFields, Val.parts]
  · simp only [if_neg ht]
    cases hu : V04.oxms.unpack (buff.take (off + n.toNat)) e with
    | error x => simp only [bind_eq, setattr_eq, raise_eq]; exact ⟨rfl, nofun⟩
    | ok v =>
      simp only [bind_eq, setattr_eq, call_eq]
      cases hs : V04.oxms.usize v with
      | error x => simp only [hs]; exact ⟨rfl, nofun⟩
      | ok s =>
        simp only [pure_eq]
        refine ⟨rfl, fun vs e => ?_⟩
        cases e
        simp [set_lookup, V04.matchFields, Val.parts]

def vlanNames : List String := ["tpid", "_tci", "pcp", "cfi", "vid"]

theorem vlan_sees (junk : Val) (buff : Bytes) (off : Nat) :
    Sees vlanNames (vlanInto junk buff off) ((vlanUnpack buff off).map Val.parts) := by
  intro d
  unfold vlanInto vlanUnpack
  rcases loop_cases junk vlanFields buff off d with ⟨e, ops, h, ho, hl⟩ | ⟨vs, e, h, hlen, hl⟩
  · simp only [h, bind_eq, hl]; exact ⟨rfl, nofun⟩
  obtain ⟨a, b, rfl⟩ : ∃ a b, vs = [a, b] := by
    match vs, hlen with
    | [a, b], _ => exact ⟨a, b, rfl⟩
  simp only [h, bind_eq, hl]
  clear h hl hlen
  simp only [vlanFields, runSets, List.foldl_cons, List.foldl_nil, List.map_cons, List.map_nil, List.zip_cons_cons, List.zip_nil_right,
    getattr_lookup, set_lookup, String.reduceEq, if_false, if_true]
  cases gval a with
  | int t =>
    simp only []
    by_cases h0 : t = 0
    · simp only [if_pos h0, bind_eq, setattr_eq]
      refine ⟨rfl, fun vs e => ?_⟩
      cases e
      simp [set_lookup, vlanNames, Val.parts]
    · simp only [if_neg h0]
      by_cases h1 : t = 0x8100 ∨ t = 0x88a8
      · simp only [if_pos h1, bind_eq, setattr_eq, getattr_lookup, set_lookup, String.reduceEq, if_false, if_true]
        cases gval b with
        | int c =>
          simp only [bind_eq, setattr_eq]
          refine ⟨rfl, fun vs e => ?_⟩
          cases e
          simp [set_lookup, vlanNames, Val.parts]
        | _ => exact ⟨rfl, nofun⟩
      · simp only [if_neg h1, raise_eq]; exact ⟨rfl, nofun⟩
  | _ => exact ⟨rfl, nofun⟩

theorem nine {α : Type} {vs : List α} (h : vs.length = 9) : ∃ a b c d e f g i j, vs = [a, b, c, d, e, f, g, i, j] := by
  match vs, h with
  | [a, b, c, d, e, f, g, i, j], _ => exact ⟨a, b, c, d, e, f, g, i, j, rfl⟩

theorem arp_sees (junk : Val) (buff : Bytes) (off : Nat) : Sees (arpFields.map (·.1)) (arpInto junk buff off) (arpUnpack buff off) := by
  intro d
  unfold arpInto arpUnpack
  rcases loop_cases junk arpFields buff off d with ⟨e, ops, h, ho, hl⟩ | ⟨vs, e, h, hlen, hl⟩
  · simp only [h, bind_eq, hl]; exact ⟨rfl, nofun⟩
  obtain ⟨a1, a2, a3, a4, a5, a6, a7, a8, a9, rfl⟩ := nine hlen
  simp only [h, bind_eq, hl]
  clear h hl hlen
  simp only [arpFields, runSets, List.foldl_cons, List.foldl_nil, List.map_cons, List.map_nil, List.zip_cons_cons, List.zip_nil_right,
    getattr_lookup, set_lookup, String.reduceEq, if_false, if_true, call_eq]
  have e1 : arpIsValid [a1, a2, a3, a4, a5, a6, a7, a8, a9] = arpIsValid [a1, a2] := rfl
  rw [e1]
  cases arpIsValid [a1, a2] with
  | error x => exact ⟨rfl, nofun⟩
  | ok b =>
    cases b with
    | false => exact ⟨rfl, nofun⟩
    | true =>
      simp only [if_true, pure_eq]
      refine ⟨rfl, fun vs e => ?_⟩
      cases e
      simp [set_lookup]

theorem ethernetLoop_sees {len : Nat} : ∀ (fs : Fields), (fs.map (·.1)).Nodup → ∀ (buff : Bytes) (b : Nat),
    Sees (fs.map (·.1)) (ethernetLoopInto len fs buff b) (ethernetLoop len fs buff b) ∧
    ∀ (d : Dict) (n : String), n ∉ fs.map (·.1) → ((ethernetLoopInto len fs buff b).run d).2.lookup n = d.lookup n := by
  intro fs
  induction fs with
  | nil => intro _ buff b; exact ⟨fun d => ⟨rfl, fun vs e => by cases e; rfl⟩, fun d n _ => rfl⟩
  | cons p fs ih =>
    obtain ⟨name, c⟩ := p
    intro hn buff b
    simp only [List.map_cons, List.nodup_cons] at hn
    have hr : ∀ r : Res Val, (if name = "vlans" then readAttr c (slice buff b (b + len)) 0 else readAttr c buff b) =
        match (if name = "vlans" then c.unpack (slice buff b (b + len)) 0 else c.unpack buff b) with
        | .error e => .error e
        | .ok v => match c.usize v with | .error e => .error e | .ok n => .ok (v, n) := by
      intro _; split <;> rfl
    have hc : (if name = "vlans" then call (c.unpack (slice buff b (b + len)) 0) else call (c.unpack buff b)) =
        call (if name = "vlans" then c.unpack (slice buff b (b + len)) 0 else c.unpack buff b) := by split <;> rfl
    simp only [ethernetLoop, hr (.error .type), ethernetLoopInto, hc]
    generalize (if name = "vlans" then c.unpack (slice buff b (b + len)) 0 else c.unpack buff b) = r
    cases r with
    | error e => exact ⟨fun d => ⟨rfl, nofun⟩, fun d n _ => rfl⟩
    | ok v =>
      simp only []
      cases hs : c.usize v with
      | error e =>
        refine ⟨fun d => ⟨by simp only [bind_eq, call_eq, setattr_eq, hs]; rfl, nofun⟩, fun d n h => ?_⟩
        simp only [bind_eq, call_eq, setattr_eq, hs, set_lookup]
        exact if_neg fun e => h (by simp [e])
      | ok k =>
        obtain ⟨i1, i2⟩ := ih hn.2 buff (b + k)
        refine ⟨fun d => ?_, fun d n h => ?_⟩
        · simp only [bind_eq, call_eq, setattr_eq, hs]
          obtain ⟨j1, j2⟩ := i1 (d.set name v)
          cases hl : ethernetLoop len fs buff (b + k) with
          | error e => rw [hl] at j1; exact ⟨j1, nofun⟩
          | ok vs =>
            rw [hl] at j1
            refine ⟨j1, fun ws e => ?_⟩
            cases e
            simp only [List.map_cons]
            rw [j2 vs hl, i2 _ _ hn.1, set_lookup, if_pos rfl]
        · simp only [bind_eq, call_eq, setattr_eq, hs]
          simp only [List.map_cons, List.mem_cons, not_or] at h
          rw [i2 _ _ h.2, set_lookup, if_neg h.1]

theorem ethernet_sees (buff : Bytes) (off : Nat) :
    Sees (ethernetFields.map (·.1)) (ethernetInto buff off) (ethernetUnpack buff off) :=
  (ethernetLoop_sees ethernetFields (by decide) buff off).1

theorem tlv_sees (buff : Bytes) (off : Nat) : Sees ["tlv_type", "_value"] (tlvInto buff off) ((tlvUnpack buff off).map Val.parts) := by
  intro d
  unfold tlvInto tlvUnpack
  cases unpackFrom 2 (slice buff off (off + 2)) 0 with
  | none => exact ⟨rfl, nofun⟩
  | some h =>
    refine ⟨rfl, fun vs e => ?_⟩
    cases e
    simp [bind_eq, setattr_eq, set_lookup, Val.parts]

theorem subTlv_sees (buff : Bytes) (off : Nat) :
    Sees ["tlv_type", "sub_type", "sub_value"] (subTlvInto buff off) ((subTlvUnpack buff off).map Val.parts) := by
  intro d
  unfold subTlvInto subTlvUnpack
  cases unpackFrom 2 (slice buff off (off + 2)) 0 with
  | none => exact ⟨rfl, nofun⟩
  | some h =>
    simp only [bind_eq, setattr_eq]
    cases unpackFrom 1 (slice buff (off + 2) (off + 3)) 0 with
    | none => exact ⟨rfl, nofun⟩
    | some s =>
      refine ⟨rfl, fun vs e => ?_⟩
      cases e
      simp [bind_eq, setattr_eq, set_lookup, Val.parts]

macro "only_sets" : tactic => `(tactic| (
  repeat' first
    | exact sets_pure _
    | exact sets_raise _
    | exact sets_call _
    | exact sets_getattr _
    | (refine sets_setattr _ ?_; decide)
    | (refine sets_loop ?_; decide)
    | (refine sets_attribute ?_; decide)
    | (refine sets_bind ?_ fun _ => ?_)
    | split))

theorem oxm_sets (junk : Val) (buff : Bytes) (off : Nat) : OnlySets oxmNames (oxmInto junk buff off) := by
  unfold oxmInto; only_sets
theorem match_sets (junk : Val) (buff : Bytes) (off : Nat) : OnlySets (V04.matchFields.map (·.1)) (matchInto junk buff off) := by
  unfold matchInto; only_sets
theorem arp_sets (junk : Val) (buff : Bytes) (off : Nat) : OnlySets (arpFields.map (·.1)) (arpInto junk buff off) := by
  unfold arpInto; only_sets
theorem vlan_sets (junk : Val) (buff : Bytes) (off : Nat) : OnlySets vlanNames (vlanInto junk buff off) := by
  unfold vlanInto; only_sets
theorem ethernet_sets (buff : Bytes) (off : Nat) : OnlySets (ethernetFields.map (·.1)) (ethernetInto buff off) := by
  unfold ethernetInto ethernetFields ethernetLoopInto ethernetLoopInto ethernetLoopInto ethernetLoopInto ethernetLoopInto ethernetLoopInto; only_sets
theorem tlv_sets (buff : Bytes) (off : Nat) : OnlySets ["tlv_type", "_value"] (tlvInto buff off) := by
  unfold tlvInto; only_sets
theorem subTlv_sets (buff : Bytes) (off : Nat) : OnlySets ["tlv_type", "sub_type", "sub_value"] (subTlvInto buff off) := by
  unfold subTlvInto; only_sets
theorem ipv4_sets (junk : Val) (buff : Bytes) (off : Nat) : OnlySets (ipv4Fields.map (·.1) ++ ipv4Names) (ipv4Into junk buff off) := by
  unfold ipv4Into num text raw; only_sets
theorem ipv6_sets (junk : Val) (buff : Bytes) (off : Nat) : OnlySets (ipv6Fields.map (·.1) ++ ipv6Names) (ipv6Into junk buff off) := by
  unfold ipv6Into num text raw; only_sets

end Pyof
