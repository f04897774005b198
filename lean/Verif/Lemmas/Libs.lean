import Verif.Model.Libs
import Verif.Lemmas.V01
import Verif.Lemmas.V04Msg
import Verif.Lemmas.Window
/-!
# Lemmas: both libraries through `pyof.utils`
-/
namespace Pyof
open Spec

/-- All message formats the library implements. -/
def Spec.messages : List MsgFmt := V01.messages ++ V04.messages

/-- A class of the specification as `pyof.utils` sees it. -/
structure Known (s : MsgFmt) (l : Lib) (m : MsgCls) : Prop where
  vlib : libs.find? (fun k => k.ver == l.ver) = some l
  ver : s.ver = l.ver
  range : 1 ≤ l.ver ∧ l.ver < 128
  code : s.code < 256 ∧ s.code ∈ l.types
  find : l.find s.code = some m
  named : libs.findSome? (fun k => k.named s.name) = some m
  ok : MsgOk m s

theorem v04_names : ∀ s ∈ Spec.V04.messages, V01.lib.named s.name = none := by
  have h : (Spec.V04.messages.map (·.name)).all (fun n => (V01.lib.named n).isNone) = true := by decide +kernel
  intro s hs
  rw [List.all_eq_true] at h
  simpa using h s.name (List.mem_map_of_mem hs)

theorem known_v01 {s} (hs : s ∈ Spec.V01.messages) : ∃ m, Known s V01.lib m := by
  obtain ⟨h1, h2, h3⟩ := V01.lib_ok.ver s hs
  obtain ⟨m, h4, h5, h6⟩ := V01.lib_ok.cls s hs
  exact ⟨m, rfl, h1, ⟨by decide, by decide⟩, ⟨h2, h3⟩, h4, by simp [libs, h5], h6⟩

theorem known_v04 {s} (hs : s ∈ Spec.V04.messages) : ∃ m, Known s V04.lib m := by
  obtain ⟨h1, h2, h3⟩ := V04.lib_ok.ver s hs
  obtain ⟨m, h4, h5, h6⟩ := V04.lib_ok.cls s hs
  exact ⟨m, rfl, h1, ⟨by decide, by decide⟩, ⟨h2, h3⟩, h4, by simp [libs, v04_names s hs, h5], h6⟩

theorem known {s} (hs : s ∈ messages) : ∃ l m, Known s l m := by
  rcases List.mem_append.mp hs with h | h
  · exact ⟨_, known_v01 h⟩
  · exact ⟨_, known_v04 h⟩

theorem msgDen_inv {s v x d} (h : msgDen s v = some (x, d)) :
    ∃ hdr vs, v = .obj s.name (hdr :: vs) ∧ hdrDen s.hdr s.ver s.code hdr = some x ∧ s.fmt.den (.obj s.name vs) = some d := by
  simp only [msgDen] at h
  split at h
  · split at h
    · rename_i hc
      subst hc
      split at h
      · rename_i h1 h2
        cases h
        exact ⟨_, _, rfl, h1, h2⟩
      · cases h
    · cases h
  · cases h

theorem Known.pyPack_eq {s l m vs} (k : Known s l m) : pyPack libs (.obj s.name vs) = m.pack (.obj s.name vs) := by
  simp only [pyPack, k.named]

theorem Known.pyPost_eq {s l m vs} (k : Known s l m) : pyPost libs (.obj s.name vs) = m.post (.obj s.name vs) := by
  simp only [pyPost, k.named]

theorem Known.pack {s l m v x d} (k : Known s l m) (h : msgDen s v = some (x, d)) : PackOk s x d (pyPack libs v) := by
  obtain ⟨hdr, vs, rfl, _, _⟩ := msgDen_inv h
  rw [k.pyPack_eq]
  exact k.ok.pack _ _ _ h

theorem packet_byte0 (ver code x body) : (packet ver code x body)[0]? = some (UInt8.ofNat ver) := rfl
theorem packet_byte1 (ver code x body) : (packet ver code x body)[1]? = some (UInt8.ofNat code) := rfl
theorem packet_len_field (ver code x body) : slice (packet ver code x body) 2 4 = be 2 (8 + body.length) := by
  simp [slice, packet, be]
theorem packet_xid_field (ver code x body) : slice (packet ver code x body) 4 8 = be 4 x := by
  simp [slice, packet, be]

/-! ## what any successful `pack` of any message class does -/

theorem genericPack_inv {m : MsgCls} {hdr : Val} {vs : List Val} {p : Bytes} (h : genericPack m hdr vs = .ok p) :
    ∃ a t l x n hb body, hdr = .obj (hdrName m.ver) [a, t, l, x] ∧ sizeAttrs m.fields (hdr :: vs) = .ok n ∧
      m.valid vs = .ok () ∧
      packAttrs (headerFields m.ver m.types) [a, t, .int (n : Nat), x] = .ok hb ∧
      packAttrs m.body vs = .ok body ∧ p = hb ++ body := by
  simp only [genericPack] at h
  split at h
  · cases h
  · rename_i n hn
    split at h
    · cases h
    · rename_i hdr' hh
      split at h
      · cases h
      · rename_i hv
        unfold setLength at hh
        split at hh
        · rename_i c a t l x
          cases hh
          simp only [MsgCls.fields] at h
          obtain ⟨hb, body, h1, h2, rfl⟩ := packAttrs_cons.mp h
          simp only [headerAttr, structAttr] at h1
          split at h1
          · rename_i hc
            subst hc
            exact ⟨a, t, l, x, n, hb, body, rfl, hn, hv, h1, h2, rfl⟩
          · cases h1
        · cases hh

theorem ubPack_length {w dv v b} (h : ubPack w dv v = .ok b) : b.length = w := by
  simp only [ubPack] at h
  split at h <;> exact packNum_length h

/-! ## decoding the header of any packet -/

theorem eight {p : Bytes} (h : 8 ≤ p.length) : ∃ b0 b1 b2 b3 b4 b5 b6 b7 r, p = b0 :: b1 :: b2 :: b3 :: b4 :: b5 :: b6 :: b7 :: r := by
  match p, h with
  | b0 :: b1 :: b2 :: b3 :: b4 :: b5 :: b6 :: b7 :: r, _ => exact ⟨b0, b1, b2, b3, b4, b5, b6, b7, r, rfl⟩

theorem header_bytes (lver types) (b0 b1 b2 b3 b4 b5 b6 b7 : UInt8) :
    unpackAttrs (headerFields lver types) [b0, b1, b2, b3, b4, b5, b6, b7] 0 =
      if b1.toNat ∈ types then .ok ([.ub 1 (.int b0.toNat), .ub 1 (.enum b1.toNat), .ub 2 (.int (beVal [b2, b3])),
        .ub 4 (.int (beVal [b4, b5, b6, b7]))], 8) else .error .unpack := by
  by_cases h : b1.toNat ∈ types
  · simp [headerFields, unpackAttrs, unpackAttr, ubint, ubUnpack, unpackFrom, refApply, slice, beVal, h]
  · simp [headerFields, unpackAttrs, unpackAttr, ubint, ubUnpack, unpackFrom, refApply, slice, beVal, h]

/-- `unpack_message` on any packet of at least eight bytes. -/
theorem unpackMessage_bytes (l : Lib) (b0 b1 b2 b3 b4 b5 b6 b7 : UInt8) (r : Bytes) :
    unpackMessage l (b0 :: b1 :: b2 :: b3 :: b4 :: b5 :: b6 :: b7 :: r) =
      if b1.toNat ∈ l.types then
        match l.find b1.toNat with
        | none => .error .value
        | some m =>
          match m.unpack r with
          | .error e => .error e
          | .ok vs => .ok (.obj m.name (.obj (hdrName m.ver) [.ub 1 (.int m.ver), .enum m.code,
              .ub 2 (.int (beVal [b2, b3])), .ub 4 (.int (beVal [b4, b5, b6, b7]))] :: vs))
      else .error .unpack := by
  simp only [unpackMessage, List.take_succ_cons, List.take_zero, List.drop_succ_cons, List.drop_zero, header_bytes]
  by_cases h : b1.toNat ∈ l.types
  · simp only [if_pos h, Int.toNat_natCast]
    cases l.find b1.toNat with
    | none => rfl
    | some m => simp only; cases m.unpack r <;> rfl
  · simp only [if_neg h]

theorem validate_bytes (p : Bytes) : validatePacket (.bytes p) =
    if 8 ≤ p.length ∧ p.length ≤ 65535 ∧ beVal (slice p 2 4) = p.length ∧ ∃ b, p[0]? = some b ∧ 1 ≤ b.toNat ∧ b.toNat ≤ 127
    then .ok () else .error .unpack := by
  simp only [validatePacket]
  by_cases h8 : 8 ≤ p.length
  · obtain ⟨b0, b1, b2, b3, b4, b5, b6, b7, r, rfl⟩ := eight h8
    have hlt : beVal (slice (b0 :: b1 :: b2 :: b3 :: b4 :: b5 :: b6 :: b7 :: r) 2 4) < 65536 := by
      simp only [slice, List.drop_succ_cons, List.drop_zero, List.take_succ_cons, List.take_zero]
      have h2 := b2.toNat_lt
      have h3 := b3.toNat_lt
      simp only [beVal, List.foldl_cons, List.foldl_nil]
      omega
    generalize hp : b0 :: b1 :: b2 :: b3 :: b4 :: b5 :: b6 :: b7 :: r = p at *
    have h0 : p[0]? = some b0 := by rw [← hp]; rfl
    by_cases hl : beVal (slice p 2 4) = p.length
    · rw [if_neg (by omega), if_neg (by omega)]
      have hv : (b0 = 0 ∨ b0 ≥ 128) ↔ ¬ (1 ≤ b0.toNat ∧ b0.toNat ≤ 127) := by
        rw [← UInt8.toNat_inj, ge_iff_le, UInt8.le_iff_toNat_le]
        simp
        omega
      subst hp
      simp only [hv]
      by_cases hb : 1 ≤ b0.toNat ∧ b0.toNat ≤ 127
      · rw [if_neg (by simp [hb]), if_pos ⟨h8, by omega, hl, b0, h0, hb⟩]
      · rw [if_pos hb, if_neg]
        rintro ⟨_, _, _, b, h1, h2⟩
        rw [h0] at h1
        cases h1
        exact hb h2
    · rw [if_neg (show ¬ (8 ≤ p.length ∧ p.length ≤ 65535 ∧ beVal (slice p 2 4) = p.length ∧ _) from fun h => hl h.2.2.1)]
      split
      · rfl
      · rw [if_pos (fun h => hl h.symm)]
  · rw [if_pos (by omega), if_neg (fun h => h8 h.1)]

/-- `pyof.utils.unpack` on bytes. -/
theorem pyUnpack_bytes (libs : List Lib) (p : Bytes) (w : Val) (h : pyUnpack libs (.bytes p) = .ok w) :
    ∃ b0 b1 b2 b3 b4 b5 b6 b7 r l m vs, p = b0 :: b1 :: b2 :: b3 :: b4 :: b5 :: b6 :: b7 :: r ∧
      libs.find? (fun k => k.ver == b0.toNat) = some l ∧ b1.toNat ∈ l.types ∧ l.find b1.toNat = some m ∧
      m.unpack r = .ok vs ∧ beVal [b2, b3] = p.length ∧
      w = .obj m.name (.obj (hdrName m.ver) [.ub 1 (.int m.ver), .enum m.code, .ub 2 (.int p.length),
        .ub 4 (.int (beVal [b4, b5, b6, b7]))] :: vs) := by
  simp only [pyUnpack, validate_bytes] at h
  split at h
  · cases h
  · rename_i hv
    split at hv
    · rename_i hc
      obtain ⟨h8, _, hl, _⟩ := hc
      obtain ⟨b0, b1, b2, b3, b4, b5, b6, b7, r, rfl⟩ := eight h8
      simp only at h
      split at h
      · cases h
      · rename_i l hf
        rw [unpackMessage_bytes] at h
        simp only [slice, List.drop_succ_cons, List.drop_zero, List.take_succ_cons, List.take_zero] at hl
        split at h
        · rename_i ht
          split at h
          · cases h
          · rename_i m hm
            split at h
            · rename_i e he
              cases e <;> cases h
            · rename_i vs hvs
              cases h
              exact ⟨b0, b1, b2, b3, b4, b5, b6, b7, r, l, m, vs, rfl, hf, ht, hm, hvs, hl, by rw [hl]⟩
        · cases h
    · cases hv

end Pyof
