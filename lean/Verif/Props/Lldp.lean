import Verif.Model.Network
import Verif.Lemmas.Reads
import Verif.Lemmas.Msg
/-!
# C39 LLDP TLVs
-/
namespace Pyof.Props
open Pyof Net

/-- The object `v` is a `GenericTLV` of type `t` whose value packs to `b`. -/
def IsTlv (v : Val) (t : Nat) (b : Bytes) : Prop :=
  ∃ ty value, v = .obj "net.GenericTLV" [ty, value] ∧ (ty = .int t ∨ ty = .enum t) ∧ gpack value = .ok b

/-- The object `v` is a `TLVWithSubType` of type `t` and subtype `s` whose value packs to `b`. -/
def IsSubTlv (v : Val) (t s : Nat) (b : Bytes) : Prop :=
  ∃ ty sub value, v = .obj "net.TLVWithSubType" [ty, sub, value] ∧ (ty = .int t ∨ ty = .enum t) ∧ (sub = .int s ∨ sub = .enum s) ∧
    gpack value = .ok b

/-- Seven bits of type, nine bits of length, the value. -/
def tlv (t : Nat) (b : Bytes) : Bytes := be 2 (t * 512 + b.length) ++ b

private theorem header_eq (t n : Nat) : tlvHeader t n = t % 128 * 512 + n % 512 := by
  have h1 : t &&& 127 = t % 128 := Nat.and_two_pow_sub_one_eq_mod t 7
  have h2 : n &&& 511 = n % 512 := Nat.and_two_pow_sub_one_eq_mod n 9
  rw [tlvHeader, h1, h2, ← Nat.shiftLeft_add_eq_or_of_lt (show n % 512 < 2 ^ 9 by omega), Nat.shiftLeft_eq]

private theorem q2 : (256 : Nat) ^ 2 = 65536 := by decide

private theorem ubPack_fit {w n : Nat} {v : Val} (hv : v = .int n ∨ v = .enum n) (h : n < 256 ^ w) :
    ubPack w .none (.ub w v) = .ok (be w n) := by
  rcases hv with rfl | rfl <;> exact packNum_fit h

private theorem tlvBytes_eq (t : Nat) (b : Bytes) : tlvBytes t b = .ok (be 2 (t % 128 * 512 + b.length % 512) ++ b) := by
  have h : t % 128 * 512 + b.length % 512 < 256 ^ 2 := by rw [q2]; omega
  rw [tlvBytes, header_eq, ubPack_fit (.inl rfl) h]
  rfl

private theorem IsTlv.type {v t b} (h : IsTlv v t b) : tlvType v = .ok t ∧ tlvValue v = .ok b ∧ Net.isTlv v = true := by
  obtain ⟨ty, value, rfl, hty, hv⟩ := h
  refine ⟨?_, ?_, by simp [Net.isTlv]⟩
  · rcases hty with rfl | rfl <;> rfl
  · simp [tlvValue, hv]

private theorem IsSubTlv.type {v t s b} (h : IsSubTlv v t s b) (hs : s < 256) :
    tlvType v = .ok t ∧ tlvValue v = .ok (be 1 s ++ b) ∧ Net.isSubTlv v = true := by
  obtain ⟨ty, sub, value, rfl, hty, hsub, hv⟩ := h
  refine ⟨?_, ?_, by simp [Net.isSubTlv]⟩
  · rcases hty with rfl | rfl <;> rfl
  · have : ubPack 1 .none (.ub 1 sub) = .ok (be 1 s) := ubPack_fit hsub (by simpa using hs)
    simp [tlvValue, hv, this]

/-- C39.  A TLV of type below 128 whose value has at most 511 bytes packs to the 7-bit type, the 9-bit length and the value; `get_size` is
the number of bytes. -/
theorem C39_pack {v : Val} {t : Nat} {b : Bytes} (h : IsTlv v t b) (ht : t < 128) (hb : b.length ≤ 511) :
    tlvPack v = .ok (tlv t b) ∧ tlvSize v = .ok (tlv t b).length := by
  obtain ⟨h1, h2, _⟩ := h.type
  constructor
  · simp only [tlvPack, h1, h2, tlvBytes_eq, tlv]
    rw [Nat.mod_eq_of_lt ht, Nat.mod_eq_of_lt (by omega)]
  · simp only [tlvSize, h2, tlv, List.length_append, be_length]

example := C39_pack (v := .obj "net.GenericTLV" [.int 5, .bin (.bytes [1, 2, 3])]) (t := 5) (b := [1, 2, 3]) ⟨_, _, rfl, .inl rfl, rfl⟩ (by decide)
  (by decide)

/-- C39.  The same for a TLV with a subtype (below 256) and at most 510 bytes after it. -/
theorem C39_pack_sub {v : Val} {t s : Nat} {b : Bytes} (h : IsSubTlv v t s b) (ht : t < 128) (hs : s < 256) (hb : b.length ≤ 510) :
    tlvPack v = .ok (tlv t (be 1 s ++ b)) ∧ tlvSize v = .ok (tlv t (be 1 s ++ b)).length := by
  obtain ⟨h1, h2, _⟩ := h.type hs
  have hl : (be 1 s ++ b).length < 512 := by simp; omega
  constructor
  · simp only [tlvPack, h1, h2, tlvBytes_eq, tlv]
    rw [Nat.mod_eq_of_lt ht, Nat.mod_eq_of_lt hl]
  · simp only [tlvSize, h2, tlv, List.length_append, be_length]

example := C39_pack_sub (v := .obj "net.TLVWithSubType" [.int 1, .int 7, .dpid (.str "00:00:00:00:00:00:00:01".toList)]) (t := 1) (s := 7)
  (b := [0, 0, 0, 0, 0, 0, 0, 1]) ⟨_, _, _, rfl, .inl rfl, .inl rfl, by decide +kernel⟩ (by decide) (by decide) (by decide)

private theorem header_read {buff : Bytes} {off n : Nat} (h : slice buff off (off + 2) = be 2 n) (hn : n < 65536) :
    unpackFrom 2 (slice buff off (off + 2)) 0 = some n := by
  have := unpackFrom_be (w := 2) (n := n) [] [] (by rw [q2]; exact hn)
  rw [h]
  simpa using this

/-- C39 (decoding any buffer).  With two bytes of header at the offset the type is the upper seven bits and the value the following bytes,
as many as the lower nine bits say but at most what the buffer has; with fewer bytes `UnpackException` is raised. -/
theorem C39_decode (buff : Bytes) (off : Nat) :
    (∀ t n : Nat, slice buff off (off + 2) = be 2 (t * 512 + n) → t < 128 → n < 512 →
      tlvUnpack buff off = .ok (.obj "net.GenericTLV" [.int t, .bin (.bytes ((buff.drop (off + 2)).take n))])) ∧
    (¬ off + 2 ≤ buff.length → tlvUnpack buff off = .error .unpack) := by
  constructor
  · intro t n h ht hn
    have hh : t * 512 + n < 65536 := by omega
    have e1 : (t * 512 + n) >>> 9 = t := by rw [Nat.shiftRight_eq_div_pow]; omega
    have e2 : (t * 512 + n) &&& 511 = n := by rw [show (511 : Nat) = 2 ^ 9 - 1 by decide, Nat.and_two_pow_sub_one_eq_mod]; omega
    have e3 : slice buff (off + 2) (off + 2 + n) = (buff.drop (off + 2)).take n := by
      rw [slice, List.drop_take]; congr 1; omega
    simp only [tlvUnpack, header_read h hh, e1, e2, e3]
  · intro h
    have : ¬ 0 + 2 ≤ (slice buff off (off + 2)).length := by rw [slice_length]; omega
    simp only [tlvUnpack, unpackFrom, if_neg this]

example := (C39_decode [9, 10, 3, 1, 2, 3, 7] 1).1 5 3 (by decide +kernel) (by decide) (by decide)
example := (C39_decode [9, 10] 1).2 (by decide)

/-- C39 (decoding any buffer with a subtype).  Two bytes of header and one byte of subtype are needed. -/
theorem C39_decode_sub (buff : Bytes) (off : Nat) :
    (∀ t n s : Nat, slice buff off (off + 2) = be 2 (t * 512 + n) → slice buff (off + 2) (off + 3) = be 1 s → t < 128 → n < 512 → s < 256 →
      subTlvUnpack buff off = .ok (.obj "net.TLVWithSubType" [.int t, .int s, .bin (.bytes ((buff.drop (off + 3)).take (n - 1)))])) ∧
    (¬ off + 3 ≤ buff.length → subTlvUnpack buff off = .error .unpack) := by
  constructor
  · intro t n s h h' ht hn hs
    have hh : t * 512 + n < 65536 := by omega
    have e1 : (t * 512 + n) >>> 9 = t := by rw [Nat.shiftRight_eq_div_pow]; omega
    have e2 : (t * 512 + n) &&& 511 = n := by rw [show (511 : Nat) = 2 ^ 9 - 1 by decide, Nat.and_two_pow_sub_one_eq_mod]; omega
    have e3 : slice buff (off + 3) (off + 2 + n) = (buff.drop (off + 3)).take (n - 1) := by
      rw [slice, List.drop_take]; congr 1; omega
    have e4 : unpackFrom 1 (slice buff (off + 2) (off + 3)) 0 = some s := by
      have := unpackFrom_be (w := 1) (n := s) [] [] (by simpa using hs)
      rw [h']
      simpa using this
    simp only [subTlvUnpack, header_read h hh, e1, e2, e3, e4]
  · intro h
    by_cases h2 : off + 2 ≤ buff.length
    · have h1 : 0 + 2 ≤ (slice buff off (off + 2)).length := by rw [slice_length]; omega
      have : ¬ 0 + 1 ≤ (slice buff (off + 2) (off + 3)).length := by rw [slice_length]; omega
      simp only [subTlvUnpack, unpackFrom, if_pos h1, if_neg this]
    · have : ¬ 0 + 2 ≤ (slice buff off (off + 2)).length := by rw [slice_length]; omega
      simp only [subTlvUnpack, unpackFrom, if_neg this]

example := (C39_decode_sub [9, 2, 2, 7, 1, 7] 1).1 1 2 7 (by decide +kernel) (by decide +kernel) (by decide) (by decide) (by decide)
example := (C39_decode_sub [9, 2, 2] 1).2 (by decide)

private theorem slice_header (pre b post : Bytes) {h : Bytes} (hl : h.length = 2) :
    slice (pre ++ (h ++ b) ++ post) pre.length (pre.length + 2) = h := by
  have := slice_mid' pre h (b ++ post) (n := pre.length + 2) (by rw [hl])
  simpa only [List.append_assoc] using this

/-- C39 (round trip).  The packed TLV decodes in any context to its type and value. -/
theorem C39_roundtrip {t : Nat} {b : Bytes} (ht : t < 128) (hb : b.length ≤ 511) (pre post : Bytes) :
    tlvUnpack (pre ++ tlv t b ++ post) pre.length = .ok (.obj "net.GenericTLV" [.int t, .bin (.bytes b)]) := by
  rw [(C39_decode (pre ++ tlv t b ++ post) pre.length).1 t b.length (slice_header pre b post (be_length ..)) ht (by omega)]
  have e : pre ++ tlv t b ++ post = (pre ++ be 2 (t * 512 + b.length)) ++ (b ++ post) := by simp only [tlv, List.append_assoc]
  rw [e, List.drop_left' (by simp), List.take_left]

example := C39_roundtrip (t := 5) (b := [1, 2, 3]) (by decide) (by decide) [9] [7]

theorem C39_roundtrip_sub {t s : Nat} {b : Bytes} (ht : t < 128) (hs : s < 256) (hb : b.length ≤ 510) (pre post : Bytes) :
    subTlvUnpack (pre ++ tlv t (be 1 s ++ b) ++ post) pre.length = .ok (.obj "net.TLVWithSubType" [.int t, .int s, .bin (.bytes b)]) := by
  have hl : (be 1 s ++ b).length = b.length + 1 := by simp; omega
  have h3 : slice (pre ++ tlv t (be 1 s ++ b) ++ post) (pre.length + 2) (pre.length + 3) = be 1 s := by
    have := slice_mid' (pre ++ be 2 (t * 512 + (be 1 s ++ b).length)) (be 1 s) (b ++ post) (n := pre.length + 3) (by simp)
    rw [List.length_append (as := pre), be_length] at this
    rw [tlv]
    simp only [List.append_assoc] at this ⊢
    exact this
  rw [(C39_decode_sub (pre ++ tlv t (be 1 s ++ b) ++ post) pre.length).1 t (be 1 s ++ b).length s (slice_header pre _ post (be_length ..)) h3 ht (by omega) hs]
  have e : pre ++ tlv t (be 1 s ++ b) ++ post = (pre ++ be 2 (t * 512 + (be 1 s ++ b).length) ++ be 1 s) ++ (b ++ post) := by
    simp only [tlv, List.append_assoc]
  rw [hl, Nat.add_sub_cancel, e, List.drop_left' (by simp), List.take_left]

example := C39_roundtrip_sub (t := 1) (s := 7) (b := [1, 2, 3]) (by decide) (by decide) (by decide) [9] [7]

/-- C39.  A longer value is encoded with the length modulo 512, so that decoding the packed TLV loses the end of the value. -/
theorem C39_long {v : Val} {t : Nat} {b : Bytes} (h : IsTlv v t b) (ht : t < 128) (hb : 511 < b.length) :
    ∃ p, tlvPack v = .ok p ∧ p.length = 2 + b.length ∧
      tlvUnpack p 0 = .ok (.obj "net.GenericTLV" [.int t, .bin (.bytes (b.take (b.length % 512)))]) ∧ b.take (b.length % 512) ≠ b := by
  obtain ⟨h1, h2, _⟩ := h.type
  refine ⟨be 2 (t * 512 + b.length % 512) ++ b, ?_, by simp, ?_, ?_⟩
  · simp only [tlvPack, h1, h2, tlvBytes_eq]
    rw [Nat.mod_eq_of_lt ht]
  · have hs := slice_header [] b [] (be_length 2 (t * 512 + b.length % 512))
    simp only [List.nil_append, List.append_nil, List.length_nil] at hs
    rw [(C39_decode _ _).1 t (b.length % 512) hs ht (by omega), List.drop_left' (by simp)]
  · intro e
    have := congrArg List.length e
    rw [List.length_take] at this
    omega

/-- TLVs meeting the hypotheses. -/
example : IsTlv (.obj "net.GenericTLV" [.int 5, .bin (.bytes [1, 2, 3])]) 5 [1, 2, 3] ∧ tlv 5 [1, 2, 3] = [10, 3, 1, 2, 3] ∧
    IsSubTlv (.obj "net.TLVWithSubType" [.int 1, .int 7, .dpid (.str "00:00:00:00:00:00:00:01".toList)]) 1 7 [0, 0, 0, 0, 0, 0, 0, 1] :=
  ⟨⟨_, _, rfl, .inl rfl, rfl⟩, by decide +kernel, ⟨_, _, _, rfl, .inl rfl, .inl rfl, by decide +kernel⟩⟩

private theorem at_tlv (d : Val) {t : Nat} {b : Bytes} (ht : t < 128) (hb : b.length ≤ 511) :
    At (tlvAttr d) (tlv t b) (.obj "net.GenericTLV" [.int t, .bin (.bytes b)]) := by
  intro pre post hne
  have hs := (C39_pack (v := .obj "net.GenericTLV" [.int t, .bin (.bytes b)]) ⟨_, _, rfl, .inl rfl, rfl⟩ ht hb).2
  simp only [unpackAttr, if_neg hne, tlvAttr, C39_roundtrip ht hb, hs]

private theorem at_sub (d : Val) {t s : Nat} {b : Bytes} (ht : t < 128) (hs : s < 256) (hb : b.length ≤ 510) :
    At (subTlvAttr d) (tlv t (be 1 s ++ b)) (.obj "net.TLVWithSubType" [.int t, .int s, .bin (.bytes b)]) := by
  intro pre post hne
  have hz := (C39_pack_sub (v := .obj "net.TLVWithSubType" [.int t, .int s, .bin (.bytes b)]) ⟨_, _, _, rfl, .inl rfl, .inl rfl, rfl⟩ ht hs hb).2
  simp only [unpackAttr, if_neg hne, subTlvAttr, C39_roundtrip_sub ht hs hb, hz]

private theorem pack_tlv (d : Val) {v t b} (h : IsTlv v t b) (ht : t < 128) (hb : b.length ≤ 511) : (tlvAttr d).pack v = .ok (tlv t b) := by
  have h1 := (C39_pack h ht hb).1
  have h2 := h.type.2.2
  obtain ⟨ty, value, rfl, _⟩ := h
  simp only [tlvAttr, h2, if_true, h1]

private theorem pack_sub (d : Val) {v t s b} (h : IsSubTlv v t s b) (ht : t < 128) (hs : s < 256) (hb : b.length ≤ 510) :
    (subTlvAttr d).pack v = .ok (tlv t (be 1 s ++ b)) := by
  have h1 := (C39_pack_sub h ht hs hb).1
  have h2 := (h.type hs).2.2
  obtain ⟨ty, sub, value, rfl, _⟩ := h
  simp only [subTlvAttr, h2, if_true, h1]

/-- The object an LLDP packet decodes to. -/
def lldpObject (t1 s1 : Nat) (b1 : Bytes) (t2 s2 : Nat) (b2 : Bytes) (t3 : Nat) (b3 : Bytes) (t4 : Nat) (b4 : Bytes) : List Val :=
  [.obj "net.TLVWithSubType" [.int t1, .int s1, .bin (.bytes b1)], .obj "net.TLVWithSubType" [.int t2, .int s2, .bin (.bytes b2)],
   .obj "net.GenericTLV" [.int t3, .bin (.bytes b3)], .obj "net.GenericTLV" [.int t4, .bin (.bytes b4)]]

/-- C39 (LLDP).  A packet of four TLVs in range packs to the four TLVs one after the other; these bytes decode in any context to the same
types, subtypes and values, and the result packs to the same bytes. -/
theorem C39_lldp {c p l e : Val} {t1 s1 t2 s2 t3 t4 : Nat} {b1 b2 b3 b4 : Bytes}
    (hc : IsSubTlv c t1 s1 b1) (hp : IsSubTlv p t2 s2 b2) (hl : IsTlv l t3 b3) (he : IsTlv e t4 b4)
    (ht : t1 < 128 ∧ t2 < 128 ∧ t3 < 128 ∧ t4 < 128) (hs : s1 < 256 ∧ s2 < 256)
    (hb : b1.length ≤ 510 ∧ b2.length ≤ 510 ∧ b3.length ≤ 511 ∧ b4.length ≤ 511) :
    let out := tlv t1 (be 1 s1 ++ b1) ++ tlv t2 (be 1 s2 ++ b2) ++ tlv t3 b3 ++ tlv t4 b4
    packAttrs lldpFields [c, p, l, e] = .ok out ∧
    (∀ pre post, unpackAttrs lldpFields (pre ++ out ++ post) pre.length =
      .ok (lldpObject t1 s1 b1 t2 s2 b2 t3 b3 t4 b4, pre.length + out.length)) ∧
    packAttrs lldpFields (lldpObject t1 s1 b1 t2 s2 b2 t3 b3 t4 b4) = .ok out := by
  have pack : ∀ {c p l e : Val}, IsSubTlv c t1 s1 b1 → IsSubTlv p t2 s2 b2 → IsTlv l t3 b3 → IsTlv e t4 b4 →
      packAttrs lldpFields [c, p, l, e] = .ok (tlv t1 (be 1 s1 ++ b1) ++ (tlv t2 (be 1 s2 ++ b2) ++ (tlv t3 b3 ++ (tlv t4 b4 ++ [])))) := by
    intro c p l e hc hp hl he
    exact packAttrs_cons (pack_sub _ hc ht.1 hs.1 hb.1) <| packAttrs_cons (pack_sub _ hp ht.2.1 hs.2 hb.2.1) <|
      packAttrs_cons (pack_tlv _ hl ht.2.2.1 hb.2.2.1) <| packAttrs_cons (pack_tlv _ he ht.2.2.2 hb.2.2.2) rfl
  have hf : FieldsAt lldpFields (tlv t1 (be 1 s1 ++ b1) ++ (tlv t2 (be 1 s2 ++ b2) ++ (tlv t3 b3 ++ (tlv t4 b4 ++ []))))
      (lldpObject t1 s1 b1 t2 s2 b2 t3 b3 t4 b4) false :=
    fieldsAt_cons (at_sub _ ht.1 hs.1 hb.1) <| fieldsAt_cons (at_sub _ ht.2.1 hs.2 hb.2.1) <|
    fieldsAt_cons (at_tlv _ ht.2.2.1 hb.2.2.1) <| fieldsAt_cons (at_tlv _ ht.2.2.2 hb.2.2.2) fieldsAt_nil
  have e : tlv t1 (be 1 s1 ++ b1) ++ tlv t2 (be 1 s2 ++ b2) ++ tlv t3 b3 ++ tlv t4 b4 =
      tlv t1 (be 1 s1 ++ b1) ++ (tlv t2 (be 1 s2 ++ b2) ++ (tlv t3 b3 ++ (tlv t4 b4 ++ []))) := by simp only [List.append_assoc, List.append_nil]
  intro out
  refine ⟨(pack hc hp hl he).trans (congrArg _ e.symm), ?_, ?_⟩
  · intro pre post
    have := hf pre post (by simp) (by
      intro h; have := congrArg List.length h; simp only [tlv, List.length_append, be_length, List.length_nil] at this; omega)
    rw [← e] at this
    exact this
  · exact (pack ⟨_, _, _, rfl, .inl rfl, .inl rfl, rfl⟩ ⟨_, _, _, rfl, .inl rfl, .inl rfl, rfl⟩ ⟨_, _, rfl, .inl rfl, rfl⟩
      ⟨_, _, rfl, .inl rfl, rfl⟩).trans (congrArg _ e.symm)

/-- The packet with the documented defaults. -/
example : packAttrs lldpFields [.obj "net.TLVWithSubType" [.int 1, .int 7, .bin (.bytes [1])], .obj "net.TLVWithSubType" [.int 2, .int 7, .bin (.bytes [9])],
      .obj "net.GenericTLV" [.int 3, .ub 2 (.int 120)], .obj "net.GenericTLV" [.int 0, .bin .none]] =
    .ok [2, 2, 7, 1, 4, 2, 7, 9, 6, 2, 0, 120, 0, 0] := by decide +kernel

/-- The bytes of the value of a decoded TLV. -/
def tlvData : Res Val → Option Bytes
  | .ok (.obj "net.GenericTLV" [_, .bin (.bytes b)]) => some b
  | .ok (.obj "net.TLVWithSubType" [_, .int s, .bin (.bytes b)]) => some (UInt8.ofNat s.toNat :: b)
  | _ => none

/-- C39.  An LLDP packet refuses anything but TLVs of the right kind with `PackException`: a `chassis_id` or `port_id` that is neither `None` nor a
`TLVWithSubType`, and a `ttl` or `end` that is neither `None` nor a TLV of either class. -/
theorem C39_refused {v c p l e : Val} {bc bp bl : Bytes} (hn : v ≠ .none)
    (hc : (subTlvAttr (.obj "net.TLVWithSubType" [.int 1, .int 7, .bin .none])).pack c = .ok bc)
    (hp : (subTlvAttr (.obj "net.TLVWithSubType" [.int 2, .int 7, .bin .none])).pack p = .ok bp)
    (hl : (tlvAttr (.obj "net.GenericTLV" [.int 3, .ub 2 (.int 120)])).pack l = .ok bl) :
    ((∀ vs, v ≠ .obj "net.TLVWithSubType" vs) →
      packAttrs lldpFields [v, p, l, e] = .error .pack ∧ packAttrs lldpFields [c, v, l, e] = .error .pack) ∧
    ((∀ vs, v ≠ .obj "net.TLVWithSubType" vs) → (∀ vs, v ≠ .obj "net.GenericTLV" vs) →
      packAttrs lldpFields [c, p, v, e] = .error .pack ∧ packAttrs lldpFields [c, p, l, v] = .error .pack) := by
  have sub : (∀ vs, v ≠ .obj "net.TLVWithSubType" vs) → isSubTlv v = false := by
    intro h
    unfold isSubTlv
    split
    · exact absurd rfl (h _)
    · rfl
  have gen : (∀ vs, v ≠ .obj "net.TLVWithSubType" vs) → (∀ vs, v ≠ .obj "net.GenericTLV" vs) → isTlv v = false := by
    intro h h'
    unfold isTlv
    split
    · exact absurd rfl (h' _)
    · exact sub h
  have a1 : ∀ d, isSubTlv v = false → (subTlvAttr d).pack v = .error .pack := by
    intro d h
    simp only [subTlvAttr]
    cases v <;> simp_all
  have a2 : ∀ d, isTlv v = false → (tlvAttr d).pack v = .error .pack := by
    intro d h
    simp only [tlvAttr]
    cases v <;> simp_all
  constructor
  · intro h
    have h1 := fun d => a1 d (sub h)
    simp only [lldpFields, packAttrs, h1, hc, and_self]
  · intro h h'
    have h1 := fun d => a2 d (gen h h')
    simp only [lldpFields, packAttrs, h1, hc, hp, hl, and_self]

example : Val.int 3 ≠ .none ∧ (∀ vs, Val.int 3 ≠ .obj "net.TLVWithSubType" vs) ∧ (∀ vs, Val.int 3 ≠ .obj "net.GenericTLV" vs) ∧
    (subTlvAttr (.obj "net.TLVWithSubType" [.int 1, .int 7, .bin .none])).pack (.obj "net.TLVWithSubType" [.int 1, .int 7, .bin (.bytes [5])]) =
      .ok [2, 2, 7, 5] ∧
    (tlvAttr (.obj "net.GenericTLV" [.int 3, .ub 2 (.int 120)])).pack .none = .ok [6, 2, 0, 120] :=
  ⟨nofun, nofun, nofun, by decide +kernel, by decide +kernel⟩

/-- C39: two things decoding does not check.  A length beyond the end of the buffer gives a shorter value without an exception, and a TLV of
length 0 decoded with a subtype takes its subtype from the byte after the TLV. -/
theorem C39_counterexamples :
    tlvData (tlvUnpack [10, 5, 1, 2] 0) = some [1, 2] ∧
    tlvData (subTlvUnpack (tlv 1 [] ++ [9, 9]) 0) = some [9] := by
  constructor <;> decide +kernel

end Pyof.Props
