import Verif.Spec.Msg
import Verif.Lemmas.Leaf
import Verif.Lemmas.Window
/-! Generic facts about messages. -/
namespace Pyof
open Spec

/-- A call that returns. -/
theorem isOk_iff {α : Type} {r : Res α} : r.isOk = true ↔ ∃ x, r = .ok x := by
  cases r <;> simp [Except.isOk, Except.toBool]

theorem be_length' (w n : Nat) : (be w n).length = w := by simp

theorem ubPack_num {w dv v n} (h : numOf v = some n) : ubPack w dv v = packNum w (.int n) := by
  have h2 := numOf_dot h
  cases v <;> simp_all [ubPack]

theorem packAttrs_cons {n c fs v vs b} : packAttrs ((n, c) :: fs) (v :: vs) = .ok b ↔
    ∃ x y, c.pack v = .ok x ∧ packAttrs fs vs = .ok y ∧ b = x ++ y := by
  simp only [packAttrs]
  cases c.pack v with
  | error e => simp
  | ok x => cases packAttrs fs vs <;> simp [eq_comm]

theorem packAttrs_nil {vs b} : packAttrs [] vs = .ok b ↔ b = [] := by
  simp [packAttrs, eq_comm]

/-- Packing a header whose fields are numbers. -/
theorem headerAttr_pack {ver types code a t x tn xn n} (ht : numOf t = some tn) (hx : numOf x = some xn)
    (ha : a = .none ∨ numOf a = some ver) (b : Bytes) :
    (headerAttr ver types code).pack (.obj (hdrName ver) [a, t, .int (n : Nat), x]) = .ok b ↔
      ver < 256 ∧ tn < 256 ∧ n < 65536 ∧ xn < 4294967296 ∧ b = be 1 ver ++ be 1 tn ++ be 2 n ++ be 4 xn := by
  have hap : ubPack 1 (.int ver) a = packNum 1 (.int ver) := by
    rcases ha with rfl | ha
    · simp [ubPack, unwrap]
    · exact ubPack_num ha
  have p1 : (256 : Nat) ^ 1 = 256 := by decide
  have p2 : (256 : Nat) ^ 2 = 65536 := by decide
  have p4 : (256 : Nat) ^ 4 = 4294967296 := by decide
  simp only [headerAttr, structAttr, if_true, headerFields, packAttrs_cons, packAttrs_nil, ubint, hap, ubPack_num ht, ubPack_num hx,
    ubPack_num (show numOf (.int (n : Nat)) = some n by simp [numOf]), packNum_ok, Int.toNat_natCast, p1, p2, p4]
  constructor
  · rintro ⟨_, _, ⟨_, h1, rfl⟩, ⟨_, _, ⟨_, h2, rfl⟩, ⟨_, _, ⟨_, h3, rfl⟩, ⟨_, _, ⟨_, h4, rfl⟩, rfl, rfl⟩, rfl⟩, rfl⟩, rfl⟩
    exact ⟨h1, h2, h3, h4, by simp⟩
  · rintro ⟨h1, h2, h3, h4, rfl⟩
    exact ⟨_, _, ⟨by omega, h1, rfl⟩, ⟨_, _, ⟨by omega, h2, rfl⟩, ⟨_, _, ⟨by omega, h3, rfl⟩,
      ⟨_, _, ⟨by omega, h4, rfl⟩, rfl, rfl⟩, rfl⟩, rfl⟩, by simp⟩

theorem headerAttr_size {ver types code c a t l x} (hc : c = hdrName ver) :
    (headerAttr ver types code).size (.obj c [a, t, l, x]) = .ok 8 := by
  subst hc
  simp [headerAttr, structAttr, headerFields, sizeAttrs, ubint]

theorem hdrDen_inv {hdr ver code h x} (hh : hdrDen hdr ver code h = some x) :
    ∃ a t l y, h = .obj hdr [a, t, l, y] ∧ (a = .none ∨ numOf a = some ver) ∧ numOf t = some code ∧
      numOf y = some x := by
  simp only [hdrDen] at hh
  split at hh
  · split at hh
    · rename_i h2
      obtain ⟨rfl, h3, h4⟩ := h2
      exact ⟨_, _, _, _, rfl, h3, h4, hh⟩
    · cases hh
  · cases hh

theorem be_one (n : Nat) : be 1 n = [UInt8.ofNat n] := by simp [be]

/-- Packing a message whose header is in order and whose body packs to `enc`. -/
theorem genericPack_spec {m : MsgCls} {hdr : Val} {vs : List Val} {x : Nat} {enc : Option Bytes}
    (hh : hdrDen (hdrName m.ver) m.ver m.code hdr = some x) (hver : m.ver < 256) (hcode : m.code < 256)
    (hp : ∀ b, packAttrs m.body vs = .ok b ↔ enc = some b)
    (hs : ∀ b, enc = some b → sizeAttrs m.body vs = .ok b.length) (p : Bytes) :
    genericPack m hdr vs = .ok p ↔ m.valid vs = .ok () ∧
      ∃ body, enc = some body ∧ 8 + body.length < 65536 ∧ x < 4294967296 ∧ p = packet m.ver m.code x body := by
  obtain ⟨a, t, l, y, rfl, ha, ht, hy⟩ := hdrDen_inv hh
  simp only [genericPack, MsgCls.fields, sizeAttrs, headerAttr_size]
  cases he : enc with
  | none =>
    simp only [reduceCtorEq, false_and, exists_false, and_false, iff_false]
    cases hsz : sizeAttrs m.body vs with
    | error e => simp
    | ok k =>
      simp only [setLength, packAttrs]
      cases hq : packAttrs m.body vs with
      | ok b => rw [(hp b).mp hq] at he; cases he
      | error e =>
        cases m.valid vs
        · simp
        · cases (headerAttr m.ver m.types m.code).pack _ <;> simp
  | some body =>
    rw [hs body he]
    simp only [setLength, packAttrs, (hp body).mpr he]
    cases hv : m.valid vs
    · simp
    · simp only [true_and]
      have key := headerAttr_pack (ver := m.ver) (types := m.types) (code := m.code) (n := 8 + body.length) ht hy ha
      cases hb : (headerAttr m.ver m.types m.code).pack (.obj (hdrName m.ver) [a, t, .int (8 + body.length : Nat), y])
        with
      | error e =>
        simp only [reduceCtorEq, false_iff]
        rintro ⟨bd, h1, h2, h3, _⟩
        cases h1
        have := (key _).mpr ⟨hver, hcode, h2, h3, rfl⟩
        rw [hb] at this; cases this
      | ok hd =>
        obtain ⟨_, _, h1, h2, rfl⟩ := (key _).mp hb
        simp only [Except.ok.injEq]
        constructor
        · rintro rfl
          exact ⟨body, rfl, h1, h2, by simp [packet, be_one]⟩
        · rintro ⟨bd, h3, _, _, rfl⟩
          cases h3
          simp [packet, be_one]

theorem packNum_fit {w n : Nat} (h : n < 256 ^ w) : packNum w (.int n) = .ok (be w n) :=
  packNum_ok.mpr ⟨by omega, by simpa using h, by simp⟩

theorem packNum_refuse {v : Nat} {w n x : Nat} (h : ¬ (n < 256 ^ w ∧ x < 256 ^ v)) :
    packNum w (.int n) = .error .pack ∨ ∃ b, packNum w (.int n) = .ok b ∧ packNum v (.int x) = .error .pack := by
  cases h2 : packNum w (.int n) with
  | ok b =>
    have hn := (packNum_ok.mp h2).2.1
    rw [Int.toNat_natCast] at hn
    exact .inr ⟨b, rfl, packNum_big (fun h' => h ⟨hn, h'⟩)⟩
  | error e =>
    have : ¬ n < 256 ^ w := fun h => by rw [packNum_fit h] at h2; cases h2
    rw [packNum_big this] at h2
    cases h2
    exact .inl rfl

theorem packAttrs_fail {n c fs v vs e} (h : c.pack v = .error e) : packAttrs ((n, c) :: fs) (v :: vs) = .error e := by
  simp [packAttrs, h]

theorem packAttrs_next {n c fs v vs b e} (h : c.pack v = .ok b) (h2 : packAttrs fs vs = .error e) :
    packAttrs ((n, c) :: fs) (v :: vs) = .error e := by
  simp [packAttrs, h, h2]

theorem headerAttr_refuse {ver types code a t x tn xn n} (ht : numOf t = some tn) (hx : numOf x = some xn)
    (ha : a = .none ∨ numOf a = some ver) (hver : ver < 256 ^ 1) (hcode : tn < 256 ^ 1)
    (hbig : ¬ (n < 256 ^ 2 ∧ xn < 256 ^ 4)) :
    (headerAttr ver types code).pack (.obj (hdrName ver) [a, t, .int (n : Nat), x]) = .error .pack := by
  have hap : ubPack 1 (.int ver) a = .ok (be 1 ver) := by
    rw [← packNum_fit hver]
    rcases ha with rfl | ha
    · simp [ubPack, unwrap]
    · exact ubPack_num ha
  have htp : ubPack 1 .none t = .ok (be 1 tn) := by rw [ubPack_num ht, packNum_fit hcode]
  have hn : ubPack 2 .none (.int n) = packNum 2 (.int n) := ubPack_num (show numOf (.int (n : Nat)) = some n by simp [numOf])
  have hxp : ubPack 4 .none x = packNum 4 (.int xn) := ubPack_num hx
  simp only [headerAttr, structAttr, if_true, headerFields]
  refine packAttrs_next (b := be 1 ver) hap (packAttrs_next (b := be 1 tn) htp ?_)
  rcases packNum_refuse hbig with h | ⟨b, h, h'⟩
  · exact packAttrs_fail (by simp only [ubint, hn, h])
  · exact packAttrs_next (b := b) (by simp only [ubint, hn, h]) (packAttrs_fail (by simp only [ubint, hxp, h']))

/-- `PackException` when the length or the transaction id does not fit. -/
theorem genericPack_refuse {m : MsgCls} {hdr : Val} {vs : List Val} {x : Nat} {body : Bytes}
    (hh : hdrDen (hdrName m.ver) m.ver m.code hdr = some x) (hver : m.ver < 256) (hcode : m.code < 256)
    (hs : sizeAttrs m.body vs = .ok body.length) (hv : m.valid vs = .ok ())
    (hbig : ¬ (8 + body.length < 65536 ∧ x < 4294967296)) : genericPack m hdr vs = .error .pack := by
  obtain ⟨a, t, l, y, rfl, ha, ht, hy⟩ := hdrDen_inv hh
  simp only [genericPack, MsgCls.fields, sizeAttrs, headerAttr_size, hs, setLength, hv, packAttrs]
  rw [headerAttr_refuse ht hy ha (by simpa using hver) (by simpa using hcode) (by simpa using hbig)]

theorem Spec.PackOk.none {s : MsgFmt} {x d r} (h : s.fmt.enc d = .none) (hr : ∀ p, r ≠ .ok p) : PackOk s x d r :=
  ⟨fun p => by simp [h, hr], fun body he => by rw [h] at he; cases he⟩

/-- A message whose body can be packed: the outcome of `GenericMessage.pack`. -/
theorem Spec.PackOk.generic {m : MsgCls} {s : MsgFmt} {hdr : Val} {vs : List Val} {x : Nat} {d : Data}
    (hx : hdrDen s.hdr s.ver s.code hdr = some x) (hhdr : s.hdr = hdrName s.ver) (hver : m.ver = s.ver)
    (hcode : m.code = s.code) (hv : s.ver < 256) (hc : s.code < 256) (hvalid : m.valid vs = .ok ())
    (hp : ∀ b, packAttrs m.body vs = .ok b ↔ s.fmt.enc d = some b)
    (hs : ∀ b, s.fmt.enc d = some b → sizeAttrs m.body vs = .ok b.length) : PackOk s x d (genericPack m hdr vs) := by
  rw [hhdr, ← hver, ← hcode] at hx
  refine ⟨fun p => ?_, fun body he hbig => ?_⟩
  · rw [genericPack_spec (m := m) (enc := s.fmt.enc d) hx (by omega) (by omega) hp hs]
    simp [hvalid, hver, hcode]
  · exact genericPack_refuse hx (by omega) (by omega) (hs body he) hvalid hbig

/-- A message class without overridden methods implements the format of its fields. -/
theorem Spec.Impl.msg {m : MsgCls} {s : MsgFmt} {t fs} (h : Impl t m.body fs) (hname : m.name = s.name)
    (hver : m.ver = s.ver) (hcode : m.code = s.code) (hhdr : s.hdr = hdrName s.ver) (hv : s.ver < 256) (hc : s.code < 256)
    (hprep : m.prep = fun vs => .ok vs) (hvalid : m.valid = fun _ => .ok ())
    (hun : m.unpack = fun buff => match unpackAttrs m.body buff 0 with | .ok (vs, _) => .ok vs | .error e => .error e)
    (hfmt : s.fmt = Spec.struct s.name fs) : MsgOk m s where
  name := hname
  ver := hver
  code := hcode
  hdr := hhdr
  pack := by
    intro v x d hd
    simp only [msgDen] at hd
    split at hd
    · rename_i c hdr vs
      split at hd
      · rename_i hcn
        subst hcn
        split at hd
        · rename_i x' d' hx hd'
          cases hd
          rw [hfmt] at hd'
          obtain ⟨ws, ds, hw, h1, rfl⟩ := struct_den_inv hd'
          cases hw
          simp only [MsgCls.pack, hprep]
          refine .generic hx hhdr hver hcode hv hc (by rw [hvalid]) ?_ ?_ <;> rw [hfmt]
          · exact (h.encs _ _ h1).1
          · exact (h.encs _ _ h1).2
        · cases hd
      · cases hd
    · cases hd
  unpack := by
    intro d body he ho
    rw [hfmt] at he ho ⊢
    obtain ⟨ds, rfl, he⟩ := struct_enc_inv he
    obtain ⟨vs, hvs, hden⟩ := h.decs_body he ho
    exact ⟨vs, by simp [hun, hvs], by simp [Spec.struct, hden]⟩

/-! ## decoding packets -/

theorem packet_length (ver code x body) : (packet ver code x body).length = 8 + body.length := by
  simp [packet]; omega

theorem packet_split (ver code x body) : packet ver code x body =
    (be 1 ver ++ be 1 code ++ be 2 (8 + body.length) ++ be 4 x) ++ body := by
  simp [packet, be_one]

theorem take8_packet (ver code x body) :
    (packet ver code x body).take 8 = be 1 ver ++ be 1 code ++ be 2 (8 + body.length) ++ be 4 x := by
  rw [packet_split]
  exact List.take_left' (by simp)

theorem drop8_packet (ver code x body) : (packet ver code x body).drop 8 = body := by
  rw [packet_split]
  exact List.drop_left' (by simp)

theorem ubUnpack_be {w n : Nat} (ref : Ref) (pre post : Bytes) (h : n < 256 ^ w) {off} (ho : off = pre.length) :
    ubUnpack w ref (pre ++ be w n ++ post) off =
      match refApply ref n with | none => .error .unpack | some x => .ok (.ub w x) := by
  subst ho
  simp only [ubUnpack, unpackFrom_be pre post h]
  cases refApply ref n <;> rfl

/-- Decoding a header. -/
theorem header_unpack {ver code x n : Nat} {lver types} (hv : ver < 256) (hc : code < 256) (hn : n < 65536)
    (hx : x < 4294967296) (hm : code ∈ types) :
    unpackAttrs (headerFields lver types) (be 1 ver ++ be 1 code ++ be 2 n ++ be 4 x) 0 =
      .ok ([.ub 1 (.int ver), .ub 1 (.enum code), .ub 2 (.int n), .ub 4 (.int x)], 8) := by
  have hne : be 1 ver ++ be 1 code ++ be 2 n ++ be 4 x ≠ [] := by simp [be_one]
  have e1 := ubUnpack_be (w := 1) .none [] (be 1 code ++ be 2 n ++ be 4 x) (n := ver) (by simpa using hv) (off := 0) (by simp)
  have e2 := ubUnpack_be (w := 1) (.enum types) (be 1 ver) (be 2 n ++ be 4 x) (n := code) (by simpa using hc) (off := 1) (by simp)
  have e3 := ubUnpack_be (w := 2) .none (be 1 ver ++ be 1 code) (be 4 x) (n := n) (by simpa using hn) (off := 2) (by simp)
  have e4 := ubUnpack_be (w := 4) .none (be 1 ver ++ be 1 code ++ be 2 n) [] (n := x) (by simpa using hx) (off := 4) (by simp)
  simp only [List.nil_append, List.append_nil, List.append_assoc, refApply, if_pos hm] at e1 e2 e3 e4 hne ⊢
  simp [headerFields, unpackAttrs, unpackAttr, ubint, hne, e1, e2, e3, e4]

theorem packet_valid {ver code x : Nat} {body : Bytes} (h1 : 1 ≤ ver) (h2 : ver < 128)
    (hb : 8 + body.length < 65536) : validatePacket (.bytes (packet ver code x body)) = .ok () := by
  have hl := packet_length ver code x body
  have hsl : slice (packet ver code x body) 2 4 = be 2 (8 + body.length) := by
    simp [slice, packet, be]
  simp only [validatePacket, hl, hsl, beVal_be_of_lt (show 8 + body.length < 256 ^ 2 by omega)]
  rw [if_neg (by omega), if_neg (by omega)]
  rw [show packet ver code x body = UInt8.ofNat ver :: ([UInt8.ofNat code] ++ be 2 (8 + body.length) ++ be 4 x ++ body) by
    simp [packet]]
  have hvv : (UInt8.ofNat ver).toNat = ver := by simp; omega
  simp only
  rw [if_neg]
  intro h
  rcases h with h | h
  · rw [h] at hvv; simp at hvv; omega
  · rw [ge_iff_le, UInt8.le_iff_toNat_le, hvv] at h
    simp at h; omega

theorem packet_head (ver code x body) :
    packet ver code x body = UInt8.ofNat ver :: ([UInt8.ofNat code] ++ be 2 (8 + body.length) ++ be 4 x ++ body) := by
  simp [packet]

/-- Decoding the packet of a content gives a message with that content. -/
theorem Spec.LibOk.unpack {libs : List Lib} {l : Lib} {specs} (h : LibOk l specs)
    (hl : libs.find? (fun k => k.ver == l.ver) = some l) (hv1 : 1 ≤ l.ver) (hv2 : l.ver < 128)
    {s} (hs : s ∈ specs) {x d body} (he : s.fmt.enc d = some body) (ho : s.fmt.ok d)
    (hb : 8 + body.length < 65536) (hx : x < 4294967296) :
    ∃ v, pyUnpack libs (.bytes (packet s.ver s.code x body)) = .ok v ∧ msgDen s v = some (x, d) ∧
      msgLength v = some (8 + body.length) := by
  obtain ⟨hsv, hc, hm⟩ := h.ver s hs
  obtain ⟨m, hf, _, ok⟩ := h.cls s hs
  obtain ⟨vs, hvs, hden⟩ := ok.unpack d body he ho
  refine ⟨.obj m.name (.obj (hdrName m.ver) [.ub 1 (.int m.ver), .enum m.code, .ub 2 (.int (8 + body.length : Nat)),
    .ub 4 (.int x)] :: vs), ?_, ?_, ?_⟩
  · simp only [pyUnpack, packet_valid (code := s.code) (x := x) (hsv ▸ hv1) (hsv ▸ hv2) hb]
    rw [packet_head]
    have hvv : (UInt8.ofNat s.ver).toNat = l.ver := by simp; omega
    simp only [hvv, hl]
    rw [← packet_head]
    simp only [unpackMessage, take8_packet, drop8_packet,
      header_unpack (lver := l.ver) (show s.ver < 256 by omega) hc hb hx hm, Int.toNat_natCast, hf, hvs, rewrap]
  · simp [msgDen, ok.name, hdrDen, ok.hdr, ok.ver, ok.code, numOf, hden]
  · simp [msgLength, numOf]; omega

end Pyof
