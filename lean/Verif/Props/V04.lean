import Verif.Lemmas.Libs
import Verif.Lemmas.RoundTrip
import Verif.Lemmas.V04Facts
import Verif.Props.Messages
import Verif.Props.Struct
/-!
# C26–C28, C30–C32: matches, actions, instructions and hello elements of OpenFlow 1.3

The formats (`Spec.V04.oxm`, `Spec.V04.match`, …) are those of the OpenFlow 1.3 specification.
-/
namespace Pyof.Props
open Pyof.Spec

/-! ## C26 OXM TLVs -/

/-- C26.  An `OxmTLV` with class number `cn`, field number `fn`, mask flag `m` and payload `x` packs to class, field
and mask flag, payload length, payload; if one of them does not fit, or the field is not defined for the class, `pack`
raises `PackException`.  What the attributes `oxm_field_and_mask` (`a`) and `oxm_length` (`l`) held does not matter. -/
theorem C26_pack {c a l v f : Val} {cn fn m : Nat} {x : Bytes} (hc : numOf c = some cn) (hf : f = .int fn ∨ f = .enum fn)
    (hm : m < 2) (hv : v = .bytes x ∨ v = .none ∧ x = []) :
    V04.oxm.pack (.obj "04.OxmTLV" [c, a, l, v, f, .int m]) =
      if cn < 65536 ∧ fn < 128 ∧ (cn = 0x8000 → fn < 40) ∧ x.length < 256 then
        .ok (be 2 cn ++ be 1 (fn * 2 + m) ++ be 1 x.length ++ x)
      else .error .pack := by
  have hf' : Spec.V04.fieldNum f = some fn := by rcases hf with rfl | rfl <;> simp [Spec.V04.fieldNum]
  have hm' : Spec.V04.maskNum (.int m) = some m := by rcases (by omega : m = 0 ∨ m = 1) with rfl | rfl <;> rfl
  have hv' : rest.den v = some (.raw x) := by rcases hv with rfl | ⟨rfl, rfl⟩ <;> rfl
  have hd : Spec.V04.oxm.den (.obj "04.OxmTLV" [c, a, l, v, f, .int m]) = some (.record [.num cn, .num fn, .num m, .raw x]) := by
    simp [Spec.V04.oxm, hc, hf', hm', hv']
  have he := V04.enc_oxm.pack _ _ hd
  by_cases h : cn < 65536 ∧ fn < 128 ∧ (cn = 0x8000 → fn < 40) ∧ x.length < 256
  · rw [if_pos h]
    refine (he _).mpr ?_
    simp only [Spec.V04.oxm]
    rw [if_pos ⟨h.1, h.2.1, h.2.2.1, hm, h.2.2.2⟩]
  · rw [if_neg h]
    have hxp := (enc_rest.pack v _ hv' x).mpr rfl
    have hff := V04.oxmFieldInt_spec hc hf'
    simp only [V04.oxm, if_true, V04.oxmPack, V04.oxmPrep]
    cases hi : V04.oxmFieldInt c f with
    | error e =>
      have : e = .pack := by
        simp only [V04.oxmFieldInt] at hi
        repeat' split at hi
        all_goals (cases hi; try rfl)
      simp [this]
    | ok i =>
      obtain ⟨rfl, h1, h2⟩ := (hff i).mp hi
      have e1 : (fn : Int) * 2 + (m : Int) % 2 = ((fn * 2 + m : Nat) : Int) := by omega
      simp only [cmpNum, hxp, e1]
      simp only [V04.oxmFields]
      have p1 : (256 : Nat) ^ 1 = 256 := by decide
      have p2 : (256 : Nat) ^ 2 = 65536 := by decide
      by_cases g : cn < 256 ^ 2
      · refine packAttrs_next (b := be 2 cn) (by simp only [ubint, ubPack_num hc, packNum_fit g]) ?_
        have g2 : fn * 2 + m < 256 ^ 1 := by omega
        refine packAttrs_next (b := be 1 (fn * 2 + m)) ?_ ?_
        · simp only [ubint]
          rw [ubPack_num (show numOf (.int ((fn * 2 + m : Nat) : Int)) = some (fn * 2 + m) by simp [numOf]; omega), packNum_fit g2]
        · refine packAttrs_fail ?_
          simp only [ubint]
          rw [ubPack_num (show numOf (.int (x.length : Int)) = some x.length by simp [numOf])]
          exact packNum_big (by rw [p1]; intro g3; exact h ⟨by omega, h1, h2, g3⟩)
      · refine packAttrs_fail ?_
        simp only [ubint, ubPack_num hc, packNum_big g]

example := C26_pack (c := .enum 0x8000) (a := .none) (l := .none) (v := .bytes [0, 0, 0, 5]) (f := .enum 0) (m := 0) rfl (.inr rfl) (by decide) (.inl rfl)

/-- C26.  A mask flag that is no number (`None`, a text, bytes) is a `TypeError`, if the field is one the class defines. -/
theorem C26_no_mask {c a l v f m : Val} {cn fn : Nat} (hc : numOf c = some cn) (hf : f = .int fn ∨ f = .enum fn) (hr : fn < 128)
    (hd : cn = 0x8000 → fn < 40) (hm : m = .none ∨ (∃ s, m = .str s) ∨ ∃ x, m = .bytes x) :
    V04.oxm.pack (.obj "04.OxmTLV" [c, a, l, v, f, m]) = .error .type := by
  have hf' : Spec.V04.fieldNum f = some fn := by rcases hf with rfl | rfl <;> simp [Spec.V04.fieldNum]
  have hi := (V04.oxmFieldInt_spec hc hf' fn).mpr ⟨rfl, hr, hd⟩
  have hn : cmpNum m = none := by rcases hm with rfl | ⟨_, rfl⟩ | ⟨_, rfl⟩ <;> rfl
  simp only [V04.oxm, if_true, V04.oxmPack, V04.oxmPrep, hi, hn]

example : V04.oxm.pack (.obj "04.OxmTLV" [.enum 0x8000, .none, .none, .bytes [0, 1], .enum 3, .none]) = .error .type := by decide +kernel

/-- C26.  An OXM or a match cannot be decoded from no bytes: `TypeError`, where other structures give their defaults. -/
theorem C26_empty (off : Nat) : V04.oxm.unpack [] off = .error .type ∧ V04.«match».unpack [] off = .error .type := by
  constructor <;> rfl

/-- C26.  Those bytes, anywhere in any buffer, come back as the same class, field, mask flag and payload. -/
theorem C26_unpack {cn fn m : Nat} {x : Bytes} (hc : cn ∈ [0, 1, 0x8000, 0xffff]) (hf : fn < 128)
    (hb : cn = 0x8000 → fn < 40) (hm : m < 2) (hx : x.length < 256) (pre post : Bytes) :
    V04.oxm.unpack (pre ++ (be 2 cn ++ be 1 (fn * 2 + m) ++ be 1 x.length ++ x) ++ post) pre.length =
      .ok (.obj "04.OxmTLV" [.ub 2 (.enum cn), .ub 1 (.int (fn * 2 + m : Nat)), .ub 1 (.int x.length), .bytes x,
        if cn = 0x8000 then .enum fn else .int fn, .int m]) := by
  have e1 : (fn * 2 + m) / 2 = fn := by omega
  have e2 : (fn * 2 + m) % 2 = m := by omega
  have := V04.oxmUnpack_spec pre post (c := cn) (k := fn * 2 + m) (v := x) (by simp at hc; omega) hc (by omega) hx
    (by rw [e1]; exact hb)
  rw [e1, e2] at this
  exact this

/-- C26 is about the TLVs users write: an Ethernet destination with a mask. -/
example : V04.oxm.pack (.obj "04.OxmTLV" [.enum 0x8000, .none, .none, .bytes [1, 2, 3, 4, 5, 6, 255, 255, 255, 0, 0, 0], .enum 3, .int 1]) =
    .ok [0x80, 0, 7, 12, 1, 2, 3, 4, 5, 6, 255, 255, 255, 0, 0, 0] := by decide +kernel
/-- Field 40 of the basic class does not exist; class 1 has 128 fields. -/
example : V04.oxm.pack (.obj "04.OxmTLV" [.enum 0x8000, .none, .none, .none, .int 40, .int 0]) = .error .pack ∧
    V04.oxm.pack (.obj "04.OxmTLV" [.enum 1, .none, .none, .none, .int 127, .int 0]) = .ok [0, 1, 254, 0] := by decide +kernel

/-! ## C27 Match -/

/-- C27.  A packed match is its type, the length of the part before the padding, the TLVs and zeros up to a multiple of 8;
`get_size` is the length of the whole. -/
theorem C27_pack {t l xs : Val} {tn : Nat} {ds : Data} (ht : numOf t = some tn) (hx : Spec.V04.oxms.den xs = some ds)
    {b : Bytes} (hb : V04.match.pack (.obj "04.Match" [t, l, xs]) = .ok b) :
    ∃ core, Spec.V04.oxms.enc ds = some core ∧ b = be 2 tn ++ be 2 (4 + core.length) ++ core ++ zeros8 (4 + core.length) ∧
      4 + core.length < 65536 ∧ b.length % 8 = 0 ∧ V04.match.size (.obj "04.Match" [t, l, xs]) = .ok b.length := by
  have hd : Spec.V04.match.den (.obj "04.Match" [t, l, xs]) = some (.record [.num tn, ds]) :=
    V04.match_den ht hx
  have he := (V04.enc_match.pack _ _ hd b).mp hb
  have hs := V04.enc_match.size _ _ b hd he
  have he : (pad8 V04.matchCore).enc (.record [.num tn, ds]) = some b := he
  simp only [pad8] at he
  cases hc : V04.matchCore.enc (.record [.num tn, ds]) with
  | none => simp [hc] at he
  | some p =>
    simp [hc] at he
    obtain ⟨ds₁, ds₂, b₁, b₂, h1, h2, h3, h4, rfl⟩ := ownLen_enc_inv hc
    have hl := encAll_length h2
    obtain ⟨d, r, x, y, rfl, h5, h6, rfl⟩ := encAll_cons_inv h2
    obtain ⟨rfl, rfl⟩ := encAll_nil_inv h6
    obtain ⟨n, rfl, hn, rfl⟩ := uint_enc_inv h5
    simp only [List.append_nil, List.cons_append, List.nil_append] at h1 he h4 ⊢
    cases h1
    obtain ⟨e, r2, x2, y2, h0, h7, h8, rfl⟩ := encAll_cons_inv h3
    cases h0
    obtain ⟨_, rfl⟩ := encAll_nil_inv h8
    simp only [List.append_nil, be_length] at he h4
    refine ⟨x2, h7, ?_, by omega, ?_, hs⟩
    · rw [← he, show 2 + 2 + x2.length = 4 + x2.length by omega]
      have : (be 2 tn ++ be 2 (4 + x2.length) ++ x2).length = 4 + x2.length := by simp; omega
      simp only [← List.append_assoc, this]
    · rw [← he]
      simp [zeros8]
      omega

example := C27_pack (t := .enum 1) (l := .int 77) (xs := .list true [.obj "04.OxmTLV" [.enum 0x8000, .none, .none, .bytes [0, 0, 0, 1], .enum 0, .int 0]])
  (tn := 1) rfl rfl (b := [0, 1, 0, 12, 0x80, 0, 0, 4, 0, 0, 0, 1, 0, 0, 0, 0]) (by decide +kernel)

/-- C27.  A packed match, anywhere in any buffer, comes back with the same type and the same TLVs (classes, fields, mask
flags and payloads) in the same order. -/
theorem C27_round_trip {t l xs : Val} {tn : Nat} {ds : Data} (ht : numOf t = some tn) (htm : tn = 0 ∨ tn = 1)
    (hx : Spec.V04.oxms.den xs = some ds) (hok : Spec.V04.oxms.ok ds) {b : Bytes}
    (hb : V04.match.pack (.obj "04.Match" [t, l, xs]) = .ok b) (pre post : Bytes) :
    ∃ t' l' xs', V04.match.unpack (pre ++ b ++ post) pre.length = .ok (.obj "04.Match" [t', l', xs']) ∧
      numOf t' = some tn ∧ Spec.V04.oxms.den xs' = some ds := by
  have hd := V04.match_den (l := l) ht hx
  have he := (V04.enc_match.pack _ _ hd b).mp hb
  have hne : b ≠ [] := fun h => V04.nonEmpty_match _ (h ▸ he)
  obtain ⟨u, h1, h2, h3⟩ := V04.dec_match.unpack _ b pre post he ⟨⟨by intro ms h; cases h; simpa using htm, trivial⟩, ⟨hok, trivial⟩⟩
    (by simp) (by simp [hne])
  have h2 : V04.matchCore.den u = some (.record [.num tn, ds]) := by
    cases u <;> first | exact h2 | exact absurd rfl h3
  obtain ⟨vs₁, l', vs₂, ds₁, ds₂, rfl, h4, h5, h6⟩ := ownLen_den_inv h2
  obtain ⟨t', r, d', e, rfl, g1, g2, rfl⟩ := denAll_cons_inv h5
  obtain ⟨rfl, rfl⟩ := denAll_nil_inv g2
  obtain ⟨xs', r, d'', e, rfl, g3, g4, rfl⟩ := denAll_cons_inv h6
  obtain ⟨rfl, rfl⟩ := denAll_nil_inv g4
  cases h4
  refine ⟨t', l', xs', h1, ?_, g3⟩
  cases t' <;> simp_all [uint, numOf]

/-- A match on input port and masked destination: 26 bytes of TLVs, length 30, padded to 32. -/
def exTlvs : List Val :=
  [.obj "04.OxmTLV" [.enum 0x8000, .none, .none, .bytes [0, 0, 0, 1], .enum 0, .int 0],
   .obj "04.OxmTLV" [.enum 0x8000, .none, .none, .bytes [1, 2, 3, 4, 5, 6, 255, 255, 255, 0, 0, 0], .enum 3, .int 1]]
example : V04.match.pack (.obj "04.Match" [.enum 1, .int 77, .list true exTlvs]) =
    .ok [0, 1, 0, 28, 0x80, 0, 0, 4, 0, 0, 0, 1, 0x80, 0, 7, 12, 1, 2, 3, 4, 5, 6, 255, 255, 255, 0, 0, 0, 0, 0, 0, 0] := by
  decide +kernel
example : ∃ ds, Spec.V04.oxms.den (.list true exTlvs) = some ds ∧ Spec.V04.oxms.ok ds := by
  refine ⟨_, rfl, ?_⟩
  intro d hd
  simp at hd
  rcases hd with rfl | rfl <;> exact .inr (.inr (.inl rfl))

/-! ## C28 get_field -/

/-- `x` is a TLV of field `t` with value `v`; its class can be anything. -/
def IsField (t : Nat) (x v : Val) : Prop :=
  ∃ cls c a l f m, x = .obj cls [c, a, l, v, f, m] ∧ cmpNum f = some (t : Int)

theorem getField_hit {t x v r} (h : IsField t x v) : V04.getField t (x :: r) = some v := by
  obtain ⟨cls, c, a, l, f, m, rfl, hf⟩ := h
  simp [V04.getField, V04.fieldIs, hf]

theorem getField_miss {t x r} (h : ∀ v, ¬ IsField t x v) : V04.getField t (x :: r) = V04.getField t r := by
  rw [V04.getField.eq_def]
  split
  · rename_i heq
    cases heq
  · rename_i heq
    cases heq
    rw [if_neg]
    intro hf
    exact h _ ⟨_, _, _, _, _, _, rfl, by simpa [V04.fieldIs] using hf⟩
  · rename_i heq
    cases heq
    rfl

/-- C28.  `get_field(t)` is the value of the first TLV of field `t`. -/
theorem C28_first (t : Nat) (xs : List Val) (v : Val) :
    V04.getField t xs = some v ↔
      ∃ pre x post, xs = pre ++ x :: post ∧ IsField t x v ∧ ∀ y ∈ pre, ∀ w, ¬ IsField t y w := by
  induction xs with
  | nil => simp [V04.getField]
  | cons x xs ih =>
    by_cases h : ∃ w, IsField t x w
    · obtain ⟨w, hw⟩ := h
      rw [getField_hit hw]
      constructor
      · intro h; cases h; exact ⟨[], x, xs, rfl, hw, by simp⟩
      · rintro ⟨pre, y, post, h1, h2, h3⟩
        cases pre with
        | nil => cases h1; rw [← getField_hit hw, getField_hit (r := xs) h2]
        | cons z pre => cases h1; exact absurd hw (h3 x (by simp) w)
    · rw [getField_miss (fun w hw => h ⟨w, hw⟩), ih]
      constructor
      · rintro ⟨pre, y, post, rfl, h2, h3⟩
        refine ⟨x :: pre, y, post, rfl, h2, ?_⟩
        intro z hz
        rcases List.mem_cons.mp hz with rfl | hz
        · exact fun w hw => h ⟨w, hw⟩
        · exact h3 z hz
      · rintro ⟨pre, y, post, h1, h2, h3⟩
        cases pre with
        | nil => cases h1; exact absurd ⟨v, h2⟩ h
        | cons z pre => cases h1; exact ⟨pre, y, post, rfl, h2, fun a ha => h3 a (by simp [ha])⟩

/-- C28.  `get_field(t)` is `None` iff there is no TLV of that field. -/
theorem C28_none (t : Nat) (xs : List Val) :
    V04.getField t xs = none ↔ ∀ x ∈ xs, ∀ v, ¬ IsField t x v := by
  induction xs with
  | nil => simp [V04.getField]
  | cons x xs ih =>
    by_cases h : ∃ w, IsField t x w
    · obtain ⟨w, hw⟩ := h
      rw [getField_hit hw]
      simp only [reduceCtorEq, false_iff]
      exact fun h => h x (by simp) w hw
    · rw [getField_miss (fun w hw => h ⟨w, hw⟩), ih]
      simp only [List.mem_cons, forall_eq_or_imp]
      exact ⟨fun g => ⟨fun w hw => h ⟨w, hw⟩, g⟩, fun g => g.2⟩

/-- The payload of the first TLV of field `t` in a list of contents. -/
def firstPayload (t : Nat) : List Data → Option Bytes
  | [] => none
  | .record [_, .num f, _, .raw b] :: ds => if f = t then some b else firstPayload t ds
  | _ :: ds => firstPayload t ds

/-- C28.  The bytes `get_field` finds depend only on the contents of the TLVs; so they survive packing and unpacking. -/
theorem C28_content (t : Nat) (xs : List Val) (ds : List Data) (h : optMap Spec.V04.oxm.den xs = some ds) :
    (V04.getField t xs).map rest.den = (firstPayload t ds).map fun b => some (.raw b) := by
  induction xs generalizing ds with
  | nil => simp [optMap] at h; subst h; rfl
  | cons x xs ih =>
    obtain ⟨d, ds', h1, h2, rfl⟩ := optMap_cons_inv h
    obtain ⟨c, a, b, y, f, m, cn, fn, mn, xb, rfl, hc, hf, hm, hx, rfl⟩ := V04.oxm_den_inv h1
    have hcmp := V04.fieldNum_cmp hf
    by_cases g : fn = t
    · subst g
      rw [getField_hit ⟨_, _, _, _, _, _, rfl, hcmp⟩]
      simp [firstPayload, hx]
    · rw [getField_miss]
      · rw [ih _ h2]; simp [firstPayload, g]
      · rintro v ⟨_, _, _, _, _, _, h3, h4⟩
        cases h3
        rw [hcmp] at h4
        exact g (Int.ofNat.inj (Option.some.inj h4))

/-- C28.  `get_field` gives the same bytes on a packed and unpacked match. -/
theorem C28_decoded {t l : Val} {tn : Nat} {xs : List Val} {ds : List Data} (ht : numOf t = some tn) (htm : tn = 0 ∨ tn = 1)
    (hx : optMap Spec.V04.oxm.den xs = some ds) (hok : ∀ d ∈ ds, Spec.V04.oxm.ok d) {b : Bytes}
    (hb : V04.match.pack (.obj "04.Match" [t, l, .list true xs]) = .ok b) (pre post : Bytes) :
    ∃ t' l' g ys, V04.match.unpack (pre ++ b ++ post) pre.length = .ok (.obj "04.Match" [t', l', .list g ys]) ∧
      ∀ k, (V04.getField k ys).map rest.den = (V04.getField k xs).map rest.den := by
  obtain ⟨t', l', xs', h1, h2, h3⟩ := C27_round_trip ht htm (xs := .list true xs) (ds := .arr ds) (by simp [Spec.V04.oxms, Spec.list, hx])
    hok hb pre post
  have hl : ∃ g ys, xs' = .list g ys ∧ optMap Spec.V04.oxm.den ys = some ds := by
    rcases list_den_inv h3 with ⟨rfl, h⟩ | ⟨g, ys, ds', rfl, h4, h5⟩
    · obtain ⟨ys, h⟩ := V04.matchUnpack_list h1; cases h
    · cases h5; exact ⟨g, ys, rfl, h4⟩
  obtain ⟨g, ys, rfl, hy⟩ := hl
  exact ⟨t', l', g, ys, h1, fun k => by rw [C28_content k _ _ hx, C28_content k _ _ hy]⟩

/-- The same TLVs, of fields 0 and 3. -/
example : V04.getField 3 exTlvs = some (.bytes [1, 2, 3, 4, 5, 6, 255, 255, 255, 0, 0, 0]) ∧ V04.getField 5 exTlvs = none := by
  decide +kernel

/-- C28.  The class is ignored: a TLV of class 1 hides the input port of the basic class that follows. -/
theorem C28_class_ignored :
    V04.getField 0 [.obj "04.OxmTLV" [.enum 1, .none, .none, .bytes [9], .int 0, .int 0],
      .obj "04.OxmTLV" [.enum 0x8000, .none, .none, .bytes [0, 0, 0, 1], .enum 0, .int 0]] = some (.bytes [9]) := by
  decide +kernel

example : V04.getField 3 exTlvs = some (.bytes [1, 2, 3, 4, 5, 6, 255, 255, 255, 0, 0, 0]) :=
  (C28_first 3 exTlvs _).2 ⟨exTlvs.take 1, _, [], rfl, ⟨_, _, _, _, _, _, rfl, rfl⟩, by
    rintro y hy w ⟨cls, c, a, l, f, m, rfl, hf⟩
    simp [exTlvs] at hy
    obtain ⟨_, _, _, _, _, rfl, _⟩ := hy
    simp [cmpNum] at hf⟩
example := C28_content 3 exTlvs _ rfl

/-- C28.  `PacketIn.in_port` is the number in the first TLV of field 0 … -/
theorem C28_in_port (xs : List Val) (b : Bytes) (h : V04.getField 0 xs = some (.bytes b)) : V04.inPort xs = .ok (beVal b) := by
  simp [V04.inPort, h]

example := C28_in_port [.obj "04.OxmTLV" [.enum 0x8000, .none, .none, .bytes [0, 0, 0, 5], .enum 0, .int 0]] [0, 0, 0, 5] (by decide +kernel)

/-- … and, contrary to its documentation, raises `TypeError` instead of giving `None` when there is none. -/
theorem C28_in_port_counterexample : V04.inPort [] = .error .type := rfl

/-! ## C30 actions -/

/-- C30.  Every action packs to a multiple of 8 bytes, and `get_size` says how many: 16 for output, 8 for the others except
set-field (the OXM field, padded) and experimenter (8 plus the body, which has to be a multiple of 8). -/
theorem C30_size {c : String} {vs : List Val} {d : Data} {b : Bytes} (hd : Spec.V04.action.den (.obj c vs) = some d)
    (hb : V04.action.pack (.obj c vs) = .ok b) :
    b.length % 8 = 0 ∧ V04.action.size (.obj c vs) = .ok b.length ∧
      (c ≠ "04.ActionSetField" → c ≠ "04.ActionExperimenter" → b.length = if c = "04.ActionOutput" then 16 else 8) := by
  have he := (V04.enc_action.pack _ _ hd b).mp hb
  have hs := V04.enc_action.size _ _ _ hd he
  obtain ⟨t, ds, h1, h2, h3, rfl⟩ := V04.action_parts hd he
  refine ⟨?_, hs, fun h4 h5 => V04.actionLay_length h1 h3 h4 h5⟩
  by_cases h4 : c = "04.ActionSetField"
  · subst h4; exact (V04.setField_length h3).2.2
  · by_cases h5 : c = "04.ActionExperimenter"
    · subst h5
      obtain ⟨_, _, body, _, h6, h7⟩ := V04.experimenter_length h3
      omega
    · rw [V04.actionLay_length h1 h3 h4 h5]
      split <;> rfl

example := C30_size (c := "04.ActionOutput") (vs := [.enum 0, .int 16, .int 2, .int 65535, .none])
  (b := [0, 0, 0, 16, 0, 0, 0, 2, 255, 255, 0, 0, 0, 0, 0, 0]) rfl (by decide +kernel)

/-- C30.  The length field of the bytes is the length attribute of the object; set-field computes it. -/
theorem C30_length_field {c : String} {t l : Val} {vs : List Val} {d : Data} {b : Bytes}
    (hd : Spec.V04.action.den (.obj c (t :: l :: vs)) = some d) (hb : V04.action.pack (.obj c (t :: l :: vs)) = .ok b) :
    if c = "04.ActionSetField" then slice b 2 4 = be 2 b.length ∧ b.length < 65536
    else ∃ n, numOf l = some n ∧ slice b 2 4 = be 2 n ∧ n < 65536 := by
  have he := (V04.enc_action.pack _ _ hd b).mp hb
  obtain ⟨tn, ds, h1, h2, h3, rfl⟩ := V04.action_parts hd he
  split
  · rename_i h4
    subst h4
    have := V04.setField_length h3
    exact ⟨this.1, this.2.1⟩
  · rename_i h4
    have h2' := h2
    rw [V04.actionLay_ne h4] at h2
    obtain ⟨vs', ds', h0, g, h5⟩ := struct_den_inv h2
    cases h0; cases h5
    obtain ⟨_, _, _, _, h0, g1, g2, h5⟩ := denAll_cons_inv g
    cases h0; cases h5
    obtain ⟨_, _, dl, _, h0, g3, g4, h5⟩ := denAll_cons_inv g2
    cases h0; subst h5
    obtain ⟨n, hn, rfl⟩ := V04.uint_den_num g3
    exact ⟨n, hn, V04.action_len_field h4 h3⟩

example := C30_length_field (c := "04.ActionOutput") (vs := [.int 2, .int 65535, .none]) (t := .enum 0) (l := .int 16)
  (b := [0, 0, 0, 16, 0, 0, 0, 2, 255, 255, 0, 0, 0, 0, 0, 0]) rfl (by decide +kernel)

/-- C30.  A list of actions, each with its right length, packs to the concatenation of the actions and comes back with the
same classes and fields in the same order, wherever it starts. -/
theorem C30_round_trip {g : Bool} {xs : List Val} {ds : List Data} (hx : xs.map Spec.V04.action.den = ds.map some)
    (hok : ∀ d ∈ ds, Spec.V04.action.ok d) {b : Bytes} (hb : V04.actions.pack (.list g xs) = .ok b) (pre : Bytes) :
    ∃ ys, V04.actions.unpack (pre ++ b) pre.length = .ok (.list true ys) ∧ ys.map Spec.V04.action.den = ds.map some :=
  C14_round_trip V04.enc_action V04.dec_action V04.nonEmpty_action V04.itemOk_action xs g ds b pre hx hok hb

/-- C30.  When `C30_round_trip` applies to an action: its length attribute is its size. -/
theorem C30_acceptable {c : String} {t l : Val} {vs : List Val} {d : Data} {b : Bytes} (hc : c ≠ "04.ActionSetField")
    (hd : Spec.V04.action.den (.obj c (t :: l :: vs)) = some d) (hb : V04.action.pack (.obj c (t :: l :: vs)) = .ok b)
    (hl : numOf l = some b.length) : Spec.V04.action.ok d :=
  V04.action_ok hd ((V04.enc_action.pack _ _ hd b).mp hb) hc hl

def exActions : List Val :=
  [.obj "04.ActionSetField" [.enum 25, .none, .obj "04.OxmTLV" [.enum 0x8000, .none, .none, .bytes [0x10, 5], .enum 6, .int 0]],
   .obj "04.ActionOutput" [.enum 0, .int 16, .int 2, .int 65535, .none],
   .obj "04.ActionExperimenter" [.enum 0xffff, .int 16, .int 0x2320, .bytes [1, 2, 3, 4, 5, 6, 7, 8]]]
example : V04.actions.pack (.list true exActions) =
    .ok [0, 25, 0, 16, 0x80, 0, 12, 2, 0x10, 5, 0, 0, 0, 0, 0, 0, 0, 0, 0, 16, 0, 0, 0, 2, 255, 255, 0, 0, 0, 0, 0, 0,
      255, 255, 0, 16, 0, 0, 0x23, 0x20, 1, 2, 3, 4, 5, 6, 7, 8] := by decide +kernel
example (pre : Bytes) := C30_round_trip (g := true) (xs := [.obj "04.ActionOutput" [.enum 0, .int 16, .int 2, .int 65535, .none]])
  (ds := [.tag "04.ActionOutput" (.record [.num 0, .num 16, .num 2, .num 65535, .unit])]) rfl
  (by
    simp only [List.mem_singleton]
    rintro _ rfl
    exact C30_acceptable (c := "04.ActionOutput") (t := .enum 0) (l := .int 16) (vs := [.int 2, .int 65535, .none]) (by decide) rfl (b := [0, 0, 0, 16, 0, 0, 0, 2, 255, 255, 0, 0, 0, 0, 0, 0]) (by decide +kernel) rfl)
  (b := [0, 0, 0, 16, 0, 0, 0, 2, 255, 255, 0, 0, 0, 0, 0, 0]) (by decide +kernel) pre
/-- An action with a wrong length is packed as it is, and the list does not come back. -/
example : ∃ b, V04.actions.pack (.list true [.obj "04.ActionOutput" [.enum 0, .int 8, .int 2, .int 65535, .none]]) = .ok b ∧
    V04.actions.unpack b 0 = .error .unpack := ⟨_, rfl, by decide +kernel⟩

/-! ## C31 instructions -/

/-- C31.  An instruction carries its own length, computed from its content; `get_size` is that length. -/
theorem C31_length {v : Val} {d : Data} {b : Bytes} (hd : Spec.V04.instruction.den v = some d)
    (hb : V04.instruction.pack v = .ok b) : slice b 2 4 = be 2 b.length ∧ b.length < 65536 ∧ V04.instruction.size v = .ok b.length := by
  have he := (V04.enc_instruction.pack _ _ hd b).mp hb
  have := selfSized_union (k := 2) (sel := Spec.V04.instructionSel) (fun _ c _ => selfSized_ownLen (cls := c)
    (fs₁ := [("instruction_type", uint 2 (some Spec.V04.instructionMembers))]) (fs₂ := Spec.V04.instructionTail c)
    (show FixedLens _ 2 by fixed_len)) d b he
  exact ⟨this.1, this.2, V04.enc_instruction.size _ _ _ hd he⟩

example := C31_length (v := .obj "04.InstructionGotoTable" [.enum 1, .int 99, .int 5, .pad 3]) (b := [0, 1, 0, 8, 5, 0, 0, 0]) rfl (by decide +kernel)

/-- C31.  A list of instructions comes back with the same classes, fields and nested actions, in order. -/
theorem C31_round_trip {g : Bool} {xs : List Val} {ds : List Data} (hx : xs.map Spec.V04.instruction.den = ds.map some)
    (hok : ∀ d ∈ ds, Spec.V04.instruction.ok d) {b : Bytes} (hb : V04.instructions.pack (.list g xs) = .ok b) (pre : Bytes) :
    ∃ ys, V04.instructions.unpack (pre ++ b) pre.length = .ok (.list true ys) ∧ ys.map Spec.V04.instruction.den = ds.map some :=
  C14_round_trip V04.enc_instruction V04.dec_instruction V04.nonEmpty_instruction V04.itemOk_instruction xs g ds b pre hx hok hb

def exInstructions : List Val :=
  [.obj "04.InstructionApplyAction" [.enum 4, .none, .pad 4, .list true exActions],
   .obj "04.InstructionGotoTable" [.enum 1, .int 99, .int 5, .pad 3],
   .obj "04.InstructionWriteAction" [.enum 3, .none, .pad 4, .list true []]]
example : V04.instructions.pack (.list true exInstructions) =
    .ok ([0, 4, 0, 56, 0, 0, 0, 0] ++ [0, 25, 0, 16, 0x80, 0, 12, 2, 0x10, 5, 0, 0, 0, 0, 0, 0, 0, 0, 0, 16, 0, 0, 0, 2, 255, 255, 0, 0, 0, 0, 0, 0,
      255, 255, 0, 16, 0, 0, 0x23, 0x20, 1, 2, 3, 4, 5, 6, 7, 8] ++ [0, 1, 0, 8, 5, 0, 0, 0] ++ [0, 3, 0, 8, 0, 0, 0, 0]) := by
  decide +kernel

/-! ## C32 hello elements -/

/-- C32.  A hello element packs to its type, its length and its content, whatever its length attribute was. -/
theorem C32_element {t l x : Val} {tn : Nat} {c : Bytes} (ht : numOf t = some tn) (hx : rest.den x = some (.raw c)) (b : Bytes) :
    V04.helloElem.pack (.obj "04.HelloElemHeader" [t, l, x]) = .ok b ↔
      tn < 65536 ∧ 4 + c.length < 65536 ∧ b = be 2 tn ++ be 2 (4 + c.length) ++ c := by
  rw [V04.enc_helloElem.pack _ _ (V04.helloElem_den ht hx) b, V04.helloElem_enc]

example (b : Bytes) := C32_element (t := .enum 1) (l := .none) (x := .bytes [0, 0, 0, 18]) rfl rfl b

/-- C32.  A list of hello elements comes back with the same types and contents, in order. -/
theorem C32_round_trip {g : Bool} {xs : List Val} {ds : List Data} (hx : xs.map Spec.V04.helloElem.den = ds.map some) {b : Bytes}
    (hb : V04.helloElems.pack (.list g xs) = .ok b) (pre : Bytes) :
    ∃ ys, V04.helloElems.unpack (pre ++ b) pre.length = .ok (.list true ys) ∧ ys.map Spec.V04.helloElem.den = ds.map some :=
  C14_round_trip V04.enc_helloElem V04.dec_helloElem nonEmpty_ownLen itemOk_ownLen xs g ds b pre hx
    (by
      intro d hd
      have : some d ∈ xs.map Spec.V04.helloElem.den := by rw [hx]; exact List.mem_map_of_mem hd
      obtain ⟨v, _, hv⟩ := List.mem_map.mp this
      exact V04.helloElem_ok hv) hb

example := C32_round_trip (g := true) (xs := [.obj "04.HelloElemHeader" [.enum 1, .none, .bytes [0, 0, 0, 18]]])
  (ds := [.record [.num 1, .raw [0, 0, 0, 18]]]) rfl (b := [0, 1, 0, 8, 0, 0, 0, 18]) (by decide +kernel) [9]

/-- C32.  A whole Hello message with any elements. -/
theorem C32_message {v : Val} {x : Nat} {d : Data}
    (hv : msgDen (Spec.V04.plain "04.Hello" 0 [("elements", Spec.list Spec.V04.helloElem)]) v = some (x, d))
    {p : Bytes} (hp : pyPack libs v = .ok p) :
    ∃ u, pyUnpack libs (.bytes p) = .ok u ∧
      msgDen (Spec.V04.plain "04.Hello" 0 [("elements", Spec.list Spec.V04.helloElem)]) u = some (x, d) := by
  obtain ⟨hdr, vs, rfl, _, h2⟩ := msgDen_inv hv
  have h2 : (Spec.struct "04.Hello" [("elements", Spec.list Spec.V04.helloElem)]).den (.obj "04.Hello" vs) = some d := h2
  obtain ⟨vs, ds, h0, h3, rfl⟩ := struct_den_inv h2
  cases h0
  obtain ⟨_, _, dl, _, rfl, g1, g2, rfl⟩ := denAll_cons_inv h3
  have hok : (Spec.list Spec.V04.helloElem).ok dl := by
    rcases list_den_inv g1 with ⟨rfl, rfl⟩ | ⟨g, xs, ds, rfl, h4, rfl⟩
    · intro x hx; cases hx
    · intro d hd
      obtain ⟨v, _, hv⟩ := V04.optMap_src h4 d hd
      exact V04.helloElem_ok hv
  obtain ⟨u, h4, h5, _⟩ := C20_round_trip (s := Spec.V04.plain "04.Hello" 0 [("elements", Spec.list Spec.V04.helloElem)])
    (List.mem_append_left _ (List.mem_cons_self ..)) hv (And.intro hok (by cases denAll_nil_inv g2; subst_vars; trivial)) hp
  exact ⟨u, h4, h5⟩

example : V04.helloElems.pack (.list true [.obj "04.HelloElemHeader" [.enum 1, .none, .bytes [0, 0, 0, 18]],
    .obj "04.HelloElemHeader" [.int 7, .int 3, .bytes [9]]]) = .ok [0, 1, 0, 8, 0, 0, 0, 18, 0, 7, 0, 5, 9] := by decide +kernel

end Pyof.Props
