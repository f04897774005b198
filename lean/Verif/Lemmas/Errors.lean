import Verif.Lemmas.Libs
/-!
# Lemmas: decoding a packet of a known class; error messages
-/
namespace Pyof
open Spec

/-- `pyof.utils.unpack` on a well-framed packet of a known class: what the body decodes to, with a fresh header. -/
theorem Known.pyUnpack_packet {s l m} (k : Known s l m) {x : Nat} {body : Bytes} (hb : 8 + body.length < 65536)
    (hx : x < 4294967296) :
    pyUnpack libs (.bytes (packet s.ver s.code x body)) = rewrap (match m.unpack body with
      | .error e => .error e
      | .ok vs => .ok (.obj m.name (.obj (hdrName m.ver) [.ub 1 (.int m.ver), .enum m.code,
          .ub 2 (.int (8 + body.length : Nat)), .ub 4 (.int x)] :: vs))) := by
  obtain ⟨h1, h2⟩ := k.range
  obtain ⟨hc, hm⟩ := k.code
  have hsv := k.ver
  simp only [pyUnpack, packet_valid (code := s.code) (x := x) (hsv ▸ h1) (hsv ▸ h2) hb]
  rw [packet_head]
  have hvv : (UInt8.ofNat s.ver).toNat = l.ver := by simp; omega
  simp only [hvv, k.vlib]
  rw [← packet_head]
  simp only [unpackMessage, take8_packet, drop8_packet,
    header_unpack (lver := l.ver) (show s.ver < 256 by omega) hc hb hx hm, Int.toNat_natCast, k.find]
  cases m.unpack body <;> rfl

/-- A packet that decodes is the packet of its parts. -/
theorem pyUnpack_parts {p : Bytes} {w : Val} (h : pyUnpack libs (.bytes p) = .ok w) :
    ∃ ver code x body, p = packet ver code x body ∧ ver < 256 ∧ code < 256 ∧ x < 4294967296 ∧ 8 + body.length < 65536 := by
  obtain ⟨b0, b1, b2, b3, b4, b5, b6, b7, r, l, m, vs, rfl, _, _, _, _, hl, _⟩ := pyUnpack_bytes _ _ _ h
  have h4 := beVal_lt [b4, b5, b6, b7]
  have h2 := beVal_lt [b2, b3]
  simp only [List.length_cons, List.length_nil] at h4 h2 hl
  refine ⟨b0.toNat, b1.toNat, beVal [b4, b5, b6, b7], r, ?_, b0.toNat_lt, b1.toNat_lt, by simpa using h4, by omega⟩
  have e2 := be_beVal' (b := [b2, b3]) (w := 2) rfl
  have e4 := be_beVal' (b := [b4, b5, b6, b7]) (w := 4) rfl
  rw [hl] at e2
  simp only [packet, e4, show 8 + r.length = r.length + 1 + 1 + 1 + 1 + 1 + 1 + 1 + 1 by omega, e2]
  simp

/-- Four bytes are two numbers. -/
theorem two_words {r : Bytes} (h : 4 ≤ r.length) : ∃ t c bb, t < 65536 ∧ c < 65536 ∧ r = be 2 t ++ be 2 c ++ bb := by
  match r, h with
  | a :: b :: c :: d :: bb, _ =>
    have h1 := beVal_lt [a, b]
    have h2 := beVal_lt [c, d]
    refine ⟨beVal [a, b], beVal [c, d], bb, by simpa using h1, by simpa using h2, ?_⟩
    rw [be_beVal' (b := [a, b]) (w := 2) rfl, be_beVal' (b := [c, d]) (w := 2) rfl]
    rfl

theorem lookup_none {α} {l : List (Nat × α)} {t : Nat} (h : t ∉ l.map (·.1)) : l.lookup t = none := by
  induction l with
  | nil => rfl
  | cons a l ih =>
    obtain ⟨k, v⟩ := a
    simp only [List.map_cons, List.mem_cons, not_or] at h
    have h1 : (t == k) = false := by simpa using h.1
    simp only [List.lookup, h1]
    exact ih h.2

end Pyof

namespace Pyof.V01
open Spec

theorem error_codes_iff {t c : Nat} : c ∈ Spec.V01.errorCodes t ↔ ∃ ms, errorCodes.lookup t = some ms ∧ c ∈ ms := by
  constructor
  · exact fun h => (error_codes h).2
  · rintro ⟨ms, h1, h2⟩
    by_cases ht : t ≤ 5
    · have : t = 0 ∨ t = 1 ∨ t = 2 ∨ t = 3 ∨ t = 4 ∨ t = 5 := by omega
      rcases this with rfl | rfl | rfl | rfl | rfl | rfl <;>
      · simp only [errorCodes, List.lookup] at h1
        cases h1
        simp only [List.mem_range] at h2
        simp [Spec.V01.errorCodes]
        omega
    · rw [lookup_none (by simp [errorCodes]; omega)] at h1
      cases h1

theorem errorFields_refuse {t c : Nat} {bb : Bytes} (ht : t < 65536) (hm : t ∉ errorCodes.map (·.1)) :
    unpackAttrs errorFields (be 2 t ++ be 2 c ++ bb) 0 = .error .unpack := by
  have hne : be 2 t ++ be 2 c ++ bb ≠ [] := by simp [be]
  have e1 := ubUnpack_be (w := 2) (.enum (errorCodes.map (·.1))) [] (be 2 c ++ bb) (n := t) (by simpa using ht) (off := 0) (by simp)
  simp only [List.nil_append, List.append_assoc, refApply, if_neg hm] at e1 hne ⊢
  simp only [errorFields, unpackAttrs, unpackAttr, ubint, hne, e1, if_false]

theorem errorUnpack_bytes {t c : Nat} {bb : Bytes} (ht : t < 65536) (hc : c < 65536) :
    errorUnpack (be 2 t ++ be 2 c ++ bb) =
      if c ∈ Spec.V01.errorCodes t then .ok [.ub 2 (.enum t), .enum c, .bin (.bytes bb)]
      else if t ∈ errorCodes.map (·.1) then .error .value else .error .unpack := by
  by_cases hm : t ∈ errorCodes.map (·.1)
  · obtain ⟨e, he⟩ := errorFields_unpack (bb := bb) ht hc hm
    simp only [errorUnpack, he, Int.toNat_natCast, if_pos hm]
    split
    · rename_i hl
      rw [if_neg]
      rw [error_codes_iff, hl]
      simp
    · rename_i ms hl
      split
      · rename_i h2
        rw [if_pos (error_codes_iff.mpr ⟨ms, hl, h2⟩)]
      · rename_i h2
        rw [if_neg]
        rw [error_codes_iff, hl]
        rintro ⟨ms', h3, h4⟩
        cases h3
        exact h2 h4
  · simp only [errorUnpack, errorFields_refuse ht hm, if_neg hm]
    rw [if_neg]
    rw [error_codes_iff, lookup_none hm]
    simp

theorem errorUnpack_ok {r : Bytes} {vs} (h : errorUnpack r = .ok vs) : 4 ≤ r.length := by
  match r, h with
  | [], h => simp [errorUnpack, errorFields, unpackAttrs, unpackAttr, ubint] at h
  | [a], h => simp [errorUnpack, errorFields, unpackAttrs, unpackAttr, ubint, ubUnpack, unpackFrom] at h
  | [a, b], h =>
    simp only [errorUnpack, errorFields, unpackAttrs, unpackAttr, ubint, ubUnpack, unpackFrom] at h
    cases hr : refApply (.enum (errorCodes.map (·.1))) (beVal [a, b]) <;> simp [hr, slice] at h
  | [a, b, c], h =>
    simp only [errorUnpack, errorFields, unpackAttrs, unpackAttr, ubint, ubUnpack, unpackFrom] at h
    cases hr : refApply (.enum (errorCodes.map (·.1))) (beVal [a, b]) <;> simp [hr, slice] at h
  | _ :: _ :: _ :: _ :: _, _ => simp

end Pyof.V01

namespace Pyof.V04
open Spec

theorem error_codes_iff {t c : Nat} : c < Spec.V04.errorCodes t ↔ ∃ ms, errorCodes.lookup t = some ms ∧ c ∈ ms := by
  constructor
  · exact fun h => (error_codes h).2
  · rintro ⟨ms, h1, h2⟩
    by_cases hm : t ∈ errorCodes.map (·.1)
    · simp only [errorCodes, List.map_cons, List.map_nil, List.mem_cons, List.not_mem_nil, or_false] at hm
      rcases hm with rfl | rfl | rfl | rfl | rfl | rfl | rfl | rfl | rfl | rfl | rfl | rfl | rfl | rfl | rfl <;>
      · simp only [errorCodes, List.lookup] at h1
        cases h1
        exact List.mem_range.mp h2
    · rw [lookup_none hm] at h1
      cases h1

theorem errorFields_refuse {t c : Nat} {bb : Bytes} (ht : t < 65536) (hm : t ∉ errorCodes.map (·.1)) :
    unpackAttrs errorFields (be 2 t ++ be 2 c ++ bb) 0 = .error .unpack := by
  have hne : be 2 t ++ be 2 c ++ bb ≠ [] := by simp [be]
  have e1 := ubUnpack_be (w := 2) (.enum (errorCodes.map (·.1))) [] (be 2 c ++ bb) (n := t) (by simpa using ht) (off := 0) (by simp)
  simp only [List.nil_append, List.append_assoc, refApply, if_neg hm] at e1 hne ⊢
  simp only [errorFields, unpackAttrs, unpackAttr, ubint, hne, e1, if_false]

theorem errorUnpack_bytes {t c : Nat} {bb : Bytes} (ht : t < 65536) (hc : c < 65536) :
    errorUnpack (be 2 t ++ be 2 c ++ bb) =
      if c < Spec.V04.errorCodes t then .ok [.ub 2 (.enum t), .enum c, .bin (.bytes bb)]
      else if t ∈ errorCodes.map (·.1) then .error .value else .error .unpack := by
  by_cases hm : t ∈ errorCodes.map (·.1)
  · obtain ⟨e, he⟩ := errorFields_unpack (bb := bb) ht hc hm
    simp only [errorUnpack, he, Int.toNat_natCast, if_pos hm]
    split
    · rename_i hl
      rw [if_neg]
      rw [error_codes_iff, hl]
      simp
    · rename_i ms hl
      split
      · rename_i h2
        rw [if_pos (error_codes_iff.mpr ⟨ms, hl, h2⟩)]
      · rename_i h2
        rw [if_neg]
        rw [error_codes_iff, hl]
        rintro ⟨ms', h3, h4⟩
        cases h3
        exact h2 h4
  · simp only [errorUnpack, errorFields_refuse ht hm, if_neg hm]
    rw [if_neg]
    rw [error_codes_iff, lookup_none hm]
    simp

theorem errorUnpack_ok {r : Bytes} {vs} (h : errorUnpack r = .ok vs) : 4 ≤ r.length := by
  match r, h with
  | [], h => simp [errorUnpack, errorFields, unpackAttrs, unpackAttr, ubint] at h
  | [a], h => simp [errorUnpack, errorFields, unpackAttrs, unpackAttr, ubint, ubUnpack, unpackFrom] at h
  | [a, b], h =>
    simp only [errorUnpack, errorFields, unpackAttrs, unpackAttr, ubint, ubUnpack, unpackFrom] at h
    cases hr : refApply (.enum (errorCodes.map (·.1))) (beVal [a, b]) <;> simp [hr, slice] at h
  | [a, b, c], h =>
    simp only [errorUnpack, errorFields, unpackAttrs, unpackAttr, ubint, ubUnpack, unpackFrom] at h
    cases hr : refApply (.enum (errorCodes.map (·.1))) (beVal [a, b]) <;> simp [hr, slice] at h
  | _ :: _ :: _ :: _ :: _, _ => simp

end Pyof.V04
