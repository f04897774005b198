import Verif.Model.Equal
import Verif.Props.Multipart
import Verif.Props.Again
/-!
# C45: equality of messages
-/
namespace Pyof.Props
open Pyof.Spec

private theorem decoded {s : MsgFmt} (hs : s ∈ messages) {v : Val} {x : Nat} {d : Data} (hv : msgDen s v = some (x, d))
    (hok : s.fmt.ok d) {p : Bytes} (hp : pyPack libs v = .ok p) : ∃ w, pyUnpack libs (.bytes p) = .ok w ∧ msgDen s w = some (x, d) := by
  rcases List.mem_append.mp hs with h | h
  · obtain ⟨w, h1, h2, _⟩ := C19_round_trip h hv hok hp
    exact ⟨w, h1, h2⟩
  · obtain ⟨w, h1, h2, _⟩ := C20_round_trip h hv hok hp
    exact ⟨w, h1, h2⟩

private theorem same_class {s s' : MsgFmt} (hs : s ∈ messages) (hs' : s' ∈ messages) {v v' : Val} {x x' : Nat} {d d' : Data}
    (hv : msgDen s v = some (x, d)) (hv' : msgDen s' v' = some (x', d')) {p : Bytes} (hp : pyPack libs v = .ok p)
    (hp' : pyPack libs v' = .ok p) : s.name = s'.name := by
  obtain ⟨l, hl, m, h0, h1, hf, hn, _⟩ := C21_own_class hs hv hp
  obtain ⟨l', hl', m', h0', h1', hf', hn', _⟩ := C21_own_class hs' hv' hp'
  have e0 := Option.some.inj (h0.symm.trans h0')
  have e1 := Option.some.inj (h1.symm.trans h1')
  have c : s.code = s'.code := by
    obtain ⟨k, mm, kk⟩ := known hs
    obtain ⟨k', mm', kk'⟩ := known hs'
    have := congrArg UInt8.toNat e1
    simp only [UInt8.toNat_ofNat'] at this
    have a1 := kk.code.1
    have a2 := kk'.code.1
    omega
  have e : l = l' := by
    simp only [libs, List.mem_cons, List.not_mem_nil, or_false] at hl hl'
    rcases hl with rfl | rfl <;> rcases hl' with rfl | rfl <;> first | rfl | exact absurd e0 (by decide)
  subst e
  rw [c] at hf
  rw [← hn, ← hn', Option.some.inj (hf.symm.trans hf')]

private theorem inj_of_nodup {α : Type} {f : α → String} {l : List α} (h : (l.map f).Nodup) {a b : α} (ha : a ∈ l) (hb : b ∈ l)
    (e : f a = f b) : a = b := by
  induction l with
  | nil => cases ha
  | cons c l ih =>
    rw [List.map_cons, List.nodup_cons] at h
    rcases List.mem_cons.mp ha with e1 | ha' <;> rcases List.mem_cons.mp hb with e2 | hb'
    · rw [e1, e2]
    · exact absurd (List.mem_map.mpr ⟨b, hb', by rw [← e, e1]⟩) h.1
    · exact absurd (List.mem_map.mpr ⟨a, ha', by rw [e, e2]⟩) h.1
    · exact ih h.2 ha' hb'

private theorem names_nodup : (messages.map MsgFmt.name).Nodup := by decide +kernel

/-- C45.  Two messages of any classes that pack to the same bytes have the same class, transaction id and content; and messages of one
class with the same transaction id and content pack to the same bytes. -/
theorem C45_messages {s s' : MsgFmt} (hs : s ∈ messages) (hs' : s' ∈ messages) {v v' : Val} {x x' : Nat} {d d' : Data}
    (hv : msgDen s v = some (x, d)) (hv' : msgDen s' v' = some (x', d')) (hok : s.fmt.ok d) (hok' : s'.fmt.ok d') {p p' : Bytes}
    (hp : pyPack libs v = .ok p) (hp' : pyPack libs v' = .ok p') :
    p = p' ↔ s.name = s'.name ∧ x = x' ∧ d = d' := by
  constructor
  · rintro rfl
    have hn := same_class hs hs' hv hv' hp hp'
    cases inj_of_nodup names_nodup hs hs' hn
    obtain ⟨w, hw, hd⟩ := decoded hs hv hok hp
    obtain ⟨w', hw', hd'⟩ := decoded hs hv' hok' hp'
    cases hw.symm.trans hw'
    cases hd.symm.trans hd'
    exact ⟨rfl, rfl, rfl⟩
  · rintro ⟨hn, rfl, rfl⟩
    cases inj_of_nodup names_nodup hs hs' hn
    obtain ⟨l, m, k⟩ := known hs
    obtain ⟨b, hb, _, _, rfl⟩ := ((k.pack hv).ok p).mp hp
    obtain ⟨b', hb', _, _, rfl⟩ := ((k.pack hv').ok p').mp hp'
    cases hb.symm.trans hb'
    rfl

/-- C45.  `==` and `!=` on two messages that pack: equal exactly when they have the same class, transaction id and content. -/
theorem C45_equality {s s' : MsgFmt} (hs : s ∈ messages) (hs' : s' ∈ messages) {v v' : Val} {x x' : Nat} {d d' : Data}
    (hv : msgDen s v = some (x, d)) (hv' : msgDen s' v' = some (x', d')) (hok : s.fmt.ok d) (hok' : s'.fmt.ok d') {p p' : Bytes}
    (hp : pyPack libs v = .ok p) (hp' : pyPack libs v' = .ok p') :
    ∃ r, pyMsgEq libs v v' = .ok r ∧ pyMsgNe libs v v' = .ok (!r) ∧ (r = true ↔ s.name = s'.name ∧ x = x' ∧ d = d') := by
  obtain ⟨hdr, vs, rfl, _⟩ := msgDen_inv hv'
  have e : pyMsgEq libs v (.obj s'.name (hdr :: vs)) = .ok (p == p') := by simp only [pyMsgEq, hp, hp']
  refine ⟨p == p', e, by simp only [pyMsgNe, e], ?_⟩
  rw [beq_iff_eq]
  exact C45_messages hs hs' hv hv' hok hok' hp hp'

/-- C45.  Comparing packs both messages, which stores computed lengths in them; comparing again gives the same. -/
theorem C45_again {s : MsgFmt} {v v' : Val} {x : Nat} {d : Data} (hv' : msgDen s v' = some (x, d)) {p p' : Bytes}
    (hp : pyPack libs v = .ok p) (hp' : pyPack libs v' = .ok p') (hs : s ∈ messages) :
    pyMsgEq libs (pyPost libs v) (pyPost libs v') = pyMsgEq libs v v' := by
  have h1 := C23_pack_twice hp
  have h2 := C23_pack_twice hp'
  obtain ⟨hdr, vs, e, _⟩ := msgDen_inv hv'
  obtain ⟨hdr', vs', e', _⟩ := msgDen_inv (C53_content_kept hs hv')
  rw [e'] at h2 ⊢
  rw [e] at hp' ⊢
  simp only [pyMsgEq, h1, h2, hp, hp']

/-- Two echo requests described differently; another transaction id; an echo reply. -/
def exEcho (code xid : Nat) (data : Val) : Val :=
  .obj (if code = 2 then "01.EchoRequest" else "01.EchoReply") [.obj "01.Header" [.ub 1 (.int 1), .enum code, .none, .int xid], data]

example : pyMsgEq libs (exEcho 2 7 (.bytes [1, 2])) (exEcho 2 7 (.bin (.bytes [1, 2]))) = .ok true ∧
    pyMsgEq libs (exEcho 2 7 (.bytes [1, 2])) (exEcho 2 8 (.bytes [1, 2])) = .ok false ∧
    pyMsgEq libs (exEcho 2 7 (.bytes [1, 2])) (exEcho 3 7 (.bytes [1, 2])) = .ok false := by decide +kernel

/-- C45.  Comparing a message with `None`, a number, a string, bytes or a Python list raises `AttributeError` instead of being false, for every message
that packs. -/
theorem C45_other_types {v : Val} {p : Bytes} (hp : pyPack libs v = .ok p) (i : Int) (t : Str) (b : Bytes) (xs : List Val) :
    pyMsgEq libs v .none = .error .attribute ∧ pyMsgEq libs v (.int i) = .error .attribute ∧
    pyMsgEq libs v (.str t) = .error .attribute ∧ pyMsgEq libs v (.bytes b) = .error .attribute ∧
    pyMsgEq libs v (.enum i) = .error .attribute ∧ pyMsgEq libs v (.mask i) = .error .attribute ∧
    pyMsgEq libs v (.list false xs) = .error .attribute := by
  simp only [pyMsgEq, hp, and_self]

example := C45_other_types (v := exEcho 2 7 (.bytes [1, 2])) (p := [1, 2, 0, 10, 0, 0, 0, 7, 1, 2]) (by decide +kernel) 5 "a".toList [1] []

example := C45_messages (s := V01.messages[1]'(by decide +kernel)) (s' := V01.messages[2]'(by decide +kernel))
  (List.mem_append_left _ (List.getElem_mem _)) (List.mem_append_left _ (List.getElem_mem _)) (v := exEcho 2 7 (.bytes [1, 2]))
  (v' := exEcho 3 7 (.bytes [1, 2])) rfl rfl (by show_ok) (by show_ok) (p := [1, 2, 0, 10, 0, 0, 0, 7, 1, 2]) (p' := [1, 3, 0, 10, 0, 0, 0, 7, 1, 2])
  (by decide +kernel) (by decide +kernel)
example := C45_equality (s := V01.messages[1]'(by decide +kernel)) (s' := V01.messages[1]'(by decide +kernel))
  (List.mem_append_left _ (List.getElem_mem _)) (List.mem_append_left _ (List.getElem_mem _)) (v := exEcho 2 7 (.bytes [1, 2]))
  (v' := exEcho 2 7 (.bin (.bytes [1, 2]))) rfl rfl (by show_ok) (by show_ok) (p := [1, 2, 0, 10, 0, 0, 0, 7, 1, 2]) (p' := [1, 2, 0, 10, 0, 0, 0, 7, 1, 2])
  (by decide +kernel) (by decide +kernel)

end Pyof.Props
