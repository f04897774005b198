import Verif.Props.Messages
import Verif.Props.V04
import Verif.Lemmas.Errors
/-!
# C29, C33, C34, C41, C42, C51, C52: message bodies
-/
namespace Pyof.Props
open Pyof.Spec

/-! ## C33 PacketOut -/

/-- C33, OpenFlow 1.0.  `PacketOut.pack()` writes the encoded size of the actions in front of them, whatever `actions_len` was, and
the data after them; it succeeds exactly when the input port is a physical port, CONTROLLER, LOCAL or NONE and everything fits. -/
theorem C33_v01_pack {hdr b p l acts data : Val} {x bn pn : Nat} {as : Data} {ab raw : Bytes}
    (hx : hdrDen "01.Header" 1 13 hdr = some x) (hb : numOf b = some bn) (hp : numOf p = some pn)
    (ha : Spec.V01.actions.den acts = some as) (hae : V01.actions.pack acts = .ok ab) (hd : rest.den data = some (.raw raw))
    (pk : Bytes) :
    pyPack libs (.obj "01.PacketOut" [hdr, b, p, l, acts, data]) = .ok pk ↔
      Spec.V01.inPortOk pn ∧ bn < 4294967296 ∧ 16 + ab.length + raw.length < 65536 ∧ x < 4294967296 ∧
        pk = packet 1 13 x (be 4 bn ++ be 2 pn ++ be 2 ab.length ++ ab ++ raw) := by
  have hae' := (V01.enc_actions.pack _ _ ha ab).mp hae
  have hv : msgDen ⟨"01.PacketOut", 1, 13, "01.Header", Spec.V01.packetOut⟩ (.obj "01.PacketOut" [hdr, b, p, l, acts, data]) =
      some (x, .record [.num bn, .num pn, as, .raw raw]) := by
    simp [msgDen, hx, Spec.V01.packetOut, hb, hp, ha, hd]
  obtain ⟨m, k⟩ := known_v01 (s := ⟨"01.PacketOut", 1, 13, "01.Header", Spec.V01.packetOut⟩) (by simp [Spec.V01.messages])
  rw [(k.pack hv).ok pk]
  simp only [Spec.V01.packetOut, hae']
  constructor
  · rintro ⟨body, h1, h2, h3, rfl⟩
    split at h1
    · rename_i h4
      cases h1
      simp only [List.length_append, be_length, List.length_cons, List.length_nil] at h2
      exact ⟨h4.2.1, h4.1, by omega, h3, rfl⟩
    · cases h1
  · rintro ⟨h1, h2, h3, h4, rfl⟩
    refine ⟨_, by rw [if_pos ⟨h2, h1, by omega⟩], ?_, h4, rfl⟩
    simp only [List.length_append, be_length, List.length_cons, List.length_nil]
    omega

/-- Its hypotheses, with one action, a port number and data. -/
example (pk : Bytes) := C33_v01_pack (hdr := .obj "01.Header" [.ub 1 (.int 1), .enum 13, .none, .int 7]) (b := .int 4294967295) (p := .int 1)
  (l := .none) (acts := .list true [.obj "01.ActionOutput" [.enum 0, .int 8, .int 2, .int 65535]]) (data := .bytes [9])
  (ab := [0, 0, 0, 8, 0, 2, 255, 255]) (raw := [9]) rfl rfl rfl rfl (by decide +kernel) rfl pk

/-- C33, OpenFlow 1.0.  Unpacking splits the body at exactly that point: the actions decode to the actions, and the rest is the
data, byte for byte. -/
theorem C33_v01_unpack {hdr b p l acts data : Val} {x bn pn : Nat} {as : Data} {raw pk : Bytes}
    (hx : hdrDen "01.Header" 1 13 hdr = some x) (hb : numOf b = some bn) (hp : numOf p = some pn)
    (ha : Spec.V01.actions.den acts = some as) (hok : Spec.V01.actions.ok as) (hd : rest.den data = some (.raw raw))
    (hpk : pyPack libs (.obj "01.PacketOut" [hdr, b, p, l, acts, data]) = .ok pk) :
    ∃ hdr' b' p' l' acts' data', pyUnpack libs (.bytes pk) = .ok (.obj "01.PacketOut" [hdr', b', p', l', acts', data']) ∧
      hdrDen "01.Header" 1 13 hdr' = some x ∧ numOf b' = some bn ∧ numOf p' = some pn ∧
      Spec.V01.actions.den acts' = some as ∧ rest.den data' = some (.raw raw) := by
  have hv : msgDen ⟨"01.PacketOut", 1, 13, "01.Header", Spec.V01.packetOut⟩ (.obj "01.PacketOut" [hdr, b, p, l, acts, data]) =
      some (x, .record [.num bn, .num pn, as, .raw raw]) := by
    simp [msgDen, hx, Spec.V01.packetOut, hb, hp, ha, hd]
  obtain ⟨w, h1, h2, _⟩ := C19_round_trip (s := ⟨"01.PacketOut", 1, 13, "01.Header", Spec.V01.packetOut⟩) (by simp [Spec.V01.messages]) hv hok hpk
  obtain ⟨hdr', vs', rfl, h3, h4⟩ := msgDen_inv h2
  obtain ⟨b', p', l', acts', data', bn', pn', as', dd', h5, h6, h7, h8, h9, h10⟩ := V01.packetOut_den_inv h4
  cases h5
  cases h10
  exact ⟨hdr', b', p', l', acts', data', h1, h3, h6, h7, h8, h9⟩

example := C33_v01_unpack (hdr := .obj "01.Header" [.ub 1 (.int 1), .enum 13, .none, .int 7]) (b := .int 4294967295) (p := .int 1)
  (l := .none) (acts := .list true [.obj "01.ActionOutput" [.enum 0, .int 8, .int 2, .int 65535]]) (data := .bytes [9]) (raw := [9])
  (pk := [1, 13, 0, 25, 0, 0, 0, 7, 255, 255, 255, 255, 0, 1, 0, 8, 0, 0, 0, 8, 0, 2, 255, 255, 9]) rfl rfl rfl rfl
  (by show_ok) rfl (by decide +kernel)

/-- C33, OpenFlow 1.0.  Any other input port is refused with `ValidationError`. -/
theorem C33_v01_refused {hdr b p l acts data : Val} {x pn : Nat} {as : Data} {ab raw : Bytes}
    (hx : hdrDen "01.Header" 1 13 hdr = some x) (hp : numOf p = some pn)
    (ha : Spec.V01.actions.den acts = some as) (hae : V01.actions.pack acts = .ok ab) (hd : rest.den data = some (.raw raw))
    (hport : ¬ Spec.V01.inPortOk pn) :
    pyPack libs (.obj "01.PacketOut" [hdr, b, p, l, acts, data]) = .error .validation := by
  have hae' := (V01.enc_actions.pack _ _ ha ab).mp hae
  have hsz := V01.enc_actions.size _ _ ab ha hae'
  have hrs : (binAttr).size data = .ok raw.length := enc_rest.size _ _ raw hd rfl
  obtain ⟨a, t, l', y, rfl, _, _, _⟩ := hdrDen_inv hx
  obtain ⟨m, k⟩ := known_v01 (s := ⟨"01.PacketOut", 1, 13, "01.Header", Spec.V01.packetOut⟩) (by simp [Spec.V01.messages])
  have hm : V01.lib.find 13 = some V01.packetOut := rfl
  have hm2 := k.find
  have : m = V01.packetOut := Option.some.inj (hm2.symm.trans hm)
  subst this
  have hval : V01.packetOut.valid [b, p, .int ab.length, acts, data] = .error .validation := by
    rw [show V01.packetOut.valid = V01.packetOutValid from rfl]
    simp only [V01.packetOutValid, cmpNum_num hp]
    rw [if_neg (by unfold Spec.V01.inPortOk at hport; omega)]
  have := k.pyPack_eq (vs := [.obj "01.Header" [a, t, l', y], b, p, l, acts, data])
  refine this.trans ?_
  simp only [MsgCls.pack, show V01.packetOut.prep = V01.packetOutPrep from rfl, V01.packetOutPrep, hsz]
  simp only [genericPack, MsgCls.fields, show V01.packetOut.body = V01.packetOutFields from rfl, V01.packetOutFields, sizeAttrs,
    headerAttr_size (show "01.Header" = hdrName V01.packetOut.ver from rfl), ubint, hsz, hrs, setLength, hval]

example := C33_v01_refused (hdr := .obj "01.Header" [.ub 1 (.int 1), .enum 13, .none, .int 7]) (b := .int 4294967295) (p := .int 0xff01)
  (l := .none) (acts := .list true [.obj "01.ActionOutput" [.enum 0, .int 8, .int 2, .int 65535]]) (data := .bytes [9])
  (ab := [0, 0, 0, 8, 0, 2, 255, 255]) (raw := [9]) rfl rfl rfl (by decide +kernel) rfl (by decide)

/-- C33, OpenFlow 1.3.  `PacketOut.pack()` writes the encoded size of the actions in front of them, whatever `actions_len` was, and
the data after them; it succeeds exactly when the input port is a physical port, CONTROLLER, LOCAL or ANY and everything fits. -/
theorem C33_v04_pack {hdr b p l pd acts data : Val} {x bn pn : Nat} {as : Data} {ab raw : Bytes}
    (hx : hdrDen "04.Header" 4 13 hdr = some x) (hb : numOf b = some bn) (hp : numOf p = some pn)
    (ha : Spec.V04.actions.den acts = some as) (hae : V04.actions.pack acts = .ok ab) (hd : rest.den data = some (.raw raw))
    (pk : Bytes) :
    pyPack libs (.obj "04.PacketOut" [hdr, b, p, l, pd, acts, data]) = .ok pk ↔
      Spec.V04.inPortOk pn ∧ bn < 4294967296 ∧ 24 + ab.length + raw.length < 65536 ∧ x < 4294967296 ∧
        pk = packet 4 13 x (be 4 bn ++ be 4 pn ++ be 2 ab.length ++ [0, 0, 0, 0, 0, 0] ++ ab ++ raw) := by
  have hae' := (V04.enc_actions.pack _ _ ha ab).mp hae
  have hv : msgDen ⟨"04.PacketOut", 4, 13, "04.Header", Spec.V04.packetOut⟩ (.obj "04.PacketOut" [hdr, b, p, l, pd, acts, data]) =
      some (x, .record [.num bn, .num pn, as, .raw raw]) := by
    simp [msgDen, hx, Spec.V04.packetOut, hb, hp, ha, hd]
  obtain ⟨m, k⟩ := known_v04 (s := ⟨"04.PacketOut", 4, 13, "04.Header", Spec.V04.packetOut⟩) (by simp [Spec.V04.messages])
  rw [(k.pack hv).ok pk]
  simp only [Spec.V04.packetOut, hae']
  constructor
  · rintro ⟨body, h1, h2, h3, rfl⟩
    split at h1
    · rename_i h4
      cases h1
      simp only [List.length_append, be_length, List.length_cons, List.length_nil] at h2
      exact ⟨h4.2.1, h4.1, by omega, h3, rfl⟩
    · cases h1
  · rintro ⟨h1, h2, h3, h4, rfl⟩
    refine ⟨_, by rw [if_pos ⟨h2, h1, by omega⟩], ?_, h4, rfl⟩
    simp only [List.length_append, be_length, List.length_cons, List.length_nil]
    omega

example (pk : Bytes) := C33_v04_pack (hdr := .obj "04.Header" [.ub 1 (.int 4), .enum 13, .none, .int 7]) (b := .int 4294967295) (p := .int 1)
  (l := .none) (pd := .pad 6) (acts := .list true [.obj "04.ActionOutput" [.enum 0, .int 16, .int 2, .int 65535, .pad 6]]) (data := .bytes [9])
  (ab := [0, 0, 0, 16, 0, 0, 0, 2, 255, 255, 0, 0, 0, 0, 0, 0]) (raw := [9]) rfl rfl rfl rfl (by decide +kernel) rfl pk

/-- C33, OpenFlow 1.3.  Unpacking splits the body at exactly that point: the actions decode to the actions, and the rest is the
data, byte for byte. -/
theorem C33_v04_unpack {hdr b p l pd acts data : Val} {x bn pn : Nat} {as : Data} {raw pk : Bytes}
    (hx : hdrDen "04.Header" 4 13 hdr = some x) (hb : numOf b = some bn) (hp : numOf p = some pn)
    (ha : Spec.V04.actions.den acts = some as) (hok : Spec.V04.actions.ok as) (hd : rest.den data = some (.raw raw))
    (hpk : pyPack libs (.obj "04.PacketOut" [hdr, b, p, l, pd, acts, data]) = .ok pk) :
    ∃ hdr' b' p' l' pd' acts' data', pyUnpack libs (.bytes pk) = .ok (.obj "04.PacketOut" [hdr', b', p', l', pd', acts', data']) ∧
      hdrDen "04.Header" 4 13 hdr' = some x ∧ numOf b' = some bn ∧ numOf p' = some pn ∧
      Spec.V04.actions.den acts' = some as ∧ rest.den data' = some (.raw raw) := by
  have hv : msgDen ⟨"04.PacketOut", 4, 13, "04.Header", Spec.V04.packetOut⟩ (.obj "04.PacketOut" [hdr, b, p, l, pd, acts, data]) =
      some (x, .record [.num bn, .num pn, as, .raw raw]) := by
    simp [msgDen, hx, Spec.V04.packetOut, hb, hp, ha, hd]
  obtain ⟨w, h1, h2, _⟩ := C20_round_trip (s := ⟨"04.PacketOut", 4, 13, "04.Header", Spec.V04.packetOut⟩) (by simp [Spec.V04.messages]) hv hok hpk
  obtain ⟨hdr', vs', rfl, h3, h4⟩ := msgDen_inv h2
  obtain ⟨b', p', l', pd', acts', data', bn', pn', as', dd', h5, h6, h7, h8, h9, h10⟩ := V04.packetOut_den_inv h4
  cases h5
  cases h10
  exact ⟨hdr', b', p', l', pd', acts', data', h1, h3, h6, h7, h8, h9⟩

example := C33_v04_unpack (hdr := .obj "04.Header" [.ub 1 (.int 4), .enum 13, .none, .int 7]) (b := .int 4294967295) (p := .int 1)
  (l := .none) (pd := .pad 6) (acts := .list true [.obj "04.ActionOutput" [.enum 0, .int 16, .int 2, .int 65535, .pad 6]]) (data := .bytes [9])
  (raw := [9])
  (pk := [4, 13, 0, 41, 0, 0, 0, 7, 255, 255, 255, 255, 0, 0, 0, 1, 0, 16, 0, 0, 0, 0, 0, 0, 0, 0, 0, 16, 0, 0, 0, 2, 255, 255, 0, 0, 0, 0, 0, 0, 9])
  rfl rfl rfl rfl (by show_ok) rfl (by decide +kernel)

/-- C33, OpenFlow 1.3.  Any other input port is refused with `ValidationError`. -/
theorem C33_v04_refused {hdr b p l pd acts data : Val} {x pn : Nat} {as : Data} {ab raw : Bytes}
    (hx : hdrDen "04.Header" 4 13 hdr = some x) (hp : numOf p = some pn)
    (ha : Spec.V04.actions.den acts = some as) (hae : V04.actions.pack acts = .ok ab) (hd : rest.den data = some (.raw raw))
    (hport : ¬ Spec.V04.inPortOk pn) :
    pyPack libs (.obj "04.PacketOut" [hdr, b, p, l, pd, acts, data]) = .error .validation := by
  have hae' := (V04.enc_actions.pack _ _ ha ab).mp hae
  have hsz := V04.enc_actions.size _ _ ab ha hae'
  have hrs : (binAttr).size data = .ok raw.length := enc_rest.size _ _ raw hd rfl
  obtain ⟨a, t, l', y, rfl, _, _, _⟩ := hdrDen_inv hx
  obtain ⟨m, k⟩ := known_v04 (s := ⟨"04.PacketOut", 4, 13, "04.Header", Spec.V04.packetOut⟩) (by simp [Spec.V04.messages])
  have hm : V04.lib.find 13 = some V04.packetOut := rfl
  have hm2 := k.find
  have : m = V04.packetOut := Option.some.inj (hm2.symm.trans hm)
  subst this
  have hval : V04.packetOut.valid [b, p, .int ab.length, pd, acts, data] = .error .validation := by
    rw [show V04.packetOut.valid = V04.packetOutValid from rfl]
    simp only [V04.packetOutValid, cmpNum_num hp]
    rw [if_neg (by unfold Spec.V04.inPortOk at hport; omega)]
  have := k.pyPack_eq (vs := [.obj "04.Header" [a, t, l', y], b, p, l, pd, acts, data])
  refine this.trans ?_
  simp only [MsgCls.pack, show V04.packetOut.prep = V04.packetOutPrep from rfl, V04.packetOutPrep, hsz]
  simp only [genericPack, MsgCls.fields, show V04.packetOut.body = V04.packetOutFields from rfl, V04.packetOutFields, sizeAttrs,
    headerAttr_size (show "04.Header" = hdrName V04.packetOut.ver from rfl), ubint, hsz, hrs, padAttr, setLength, hval]

example := C33_v04_refused (hdr := .obj "04.Header" [.ub 1 (.int 4), .enum 13, .none, .int 7]) (b := .int 4294967295) (p := .int 0)
  (l := .none) (pd := .pad 6) (acts := .list true [.obj "04.ActionOutput" [.enum 0, .int 16, .int 2, .int 65535, .pad 6]]) (data := .bytes [9])
  (ab := [0, 0, 0, 16, 0, 0, 0, 2, 255, 255, 0, 0, 0, 0, 0, 0]) (raw := [9]) rfl rfl rfl (by decide +kernel) rfl (by decide)

/-- C33, OpenFlow 1.0.  An input port that is missing or not a number is refused too, with `TypeError`. -/
theorem C33_v01_no_port {hdr b p l acts data : Val} {x : Nat} {as : Data} {ab raw : Bytes}
    (hx : hdrDen "01.Header" 1 13 hdr = some x) (hp : p = .none ∨ (∃ s, p = .str s) ∨ ∃ r, p = .bytes r)
    (ha : Spec.V01.actions.den acts = some as) (hae : V01.actions.pack acts = .ok ab) (hd : rest.den data = some (.raw raw)) :
    pyPack libs (.obj "01.PacketOut" [hdr, b, p, l, acts, data]) = .error .type := by
  have hae' := (V01.enc_actions.pack _ _ ha ab).mp hae
  have hsz := V01.enc_actions.size _ _ ab ha hae'
  have hrs : (binAttr).size data = .ok raw.length := enc_rest.size _ _ raw hd rfl
  obtain ⟨a, t, l', y, rfl, _, _, _⟩ := hdrDen_inv hx
  obtain ⟨m, k⟩ := known_v01 (s := ⟨"01.PacketOut", 1, 13, "01.Header", Spec.V01.packetOut⟩) (by simp [Spec.V01.messages])
  have hm : V01.lib.find 13 = some V01.packetOut := rfl
  have hm2 := k.find
  have : m = V01.packetOut := Option.some.inj (hm2.symm.trans hm)
  subst this
  have hval : V01.packetOut.valid [b, p, .int ab.length, acts, data] = .error .type := by
    rw [show V01.packetOut.valid = V01.packetOutValid from rfl]
    rcases hp with rfl | ⟨_, rfl⟩ | ⟨_, rfl⟩ <;> rfl
  have := k.pyPack_eq (vs := [.obj "01.Header" [a, t, l', y], b, p, l, acts, data])
  refine this.trans ?_
  simp only [MsgCls.pack, show V01.packetOut.prep = V01.packetOutPrep from rfl, V01.packetOutPrep, hsz]
  simp only [genericPack, MsgCls.fields, show V01.packetOut.body = V01.packetOutFields from rfl, V01.packetOutFields, sizeAttrs,
    headerAttr_size (show "01.Header" = hdrName V01.packetOut.ver from rfl), ubint, hsz, hrs, setLength, hval]

example := C33_v01_no_port (hdr := .obj "01.Header" [.ub 1 (.int 1), .enum 13, .none, .int 7]) (b := .int 4294967295) (p := .none)
  (l := .none) (acts := .list true [.obj "01.ActionOutput" [.enum 0, .int 8, .int 2, .int 65535]]) (data := .bytes [9])
  (ab := [0, 0, 0, 8, 0, 2, 255, 255]) (raw := [9]) rfl (.inl rfl) rfl (by decide +kernel) rfl

/-- C33, OpenFlow 1.3.  An input port that is missing or not a number is refused too, with `TypeError`. -/
theorem C33_v04_no_port {hdr b p l pd acts data : Val} {x : Nat} {as : Data} {ab raw : Bytes}
    (hx : hdrDen "04.Header" 4 13 hdr = some x) (hp : p = .none ∨ (∃ s, p = .str s) ∨ ∃ r, p = .bytes r)
    (ha : Spec.V04.actions.den acts = some as) (hae : V04.actions.pack acts = .ok ab) (hd : rest.den data = some (.raw raw)) :
    pyPack libs (.obj "04.PacketOut" [hdr, b, p, l, pd, acts, data]) = .error .type := by
  have hae' := (V04.enc_actions.pack _ _ ha ab).mp hae
  have hsz := V04.enc_actions.size _ _ ab ha hae'
  have hrs : (binAttr).size data = .ok raw.length := enc_rest.size _ _ raw hd rfl
  obtain ⟨a, t, l', y, rfl, _, _, _⟩ := hdrDen_inv hx
  obtain ⟨m, k⟩ := known_v04 (s := ⟨"04.PacketOut", 4, 13, "04.Header", Spec.V04.packetOut⟩) (by simp [Spec.V04.messages])
  have hm : V04.lib.find 13 = some V04.packetOut := rfl
  have hm2 := k.find
  have : m = V04.packetOut := Option.some.inj (hm2.symm.trans hm)
  subst this
  have hval : V04.packetOut.valid [b, p, .int ab.length, pd, acts, data] = .error .type := by
    rw [show V04.packetOut.valid = V04.packetOutValid from rfl]
    rcases hp with rfl | ⟨_, rfl⟩ | ⟨_, rfl⟩ <;> rfl
  have := k.pyPack_eq (vs := [.obj "04.Header" [a, t, l', y], b, p, l, pd, acts, data])
  refine this.trans ?_
  simp only [MsgCls.pack, show V04.packetOut.prep = V04.packetOutPrep from rfl, V04.packetOutPrep, hsz]
  simp only [genericPack, MsgCls.fields, show V04.packetOut.body = V04.packetOutFields from rfl, V04.packetOutFields, sizeAttrs,
    headerAttr_size (show "04.Header" = hdrName V04.packetOut.ver from rfl), ubint, hsz, hrs, padAttr, setLength, hval]

/-- The hypotheses of the C33 theorems hold: `PacketOut(xid=7, in_port=1, actions=[ActionOutput(port=2)], data=b'\\x09')`. -/
example : pyPack libs (.obj "01.PacketOut" [.obj "01.Header" [.ub 1 (.int 1), .enum 13, .none, .int 7], .int 4294967295, .int 1,
    .none, .list true [.obj "01.ActionOutput" [.enum 0, .int 8, .int 2, .int 65535]], .bytes [9]]) =
    .ok [1, 13, 0, 25, 0, 0, 0, 7, 255, 255, 255, 255, 0, 1, 0, 8, 0, 0, 0, 8, 0, 2, 255, 255, 9] := by decide +kernel
example : pyPack libs (.obj "01.PacketOut" [.obj "01.Header" [.ub 1 (.int 1), .enum 13, .none, .int 7], .int 4294967295, .int 0xff01,
    .none, .list true [.obj "01.ActionOutput" [.enum 0, .int 8, .int 2, .int 65535]], .bytes [9]]) = .error .validation := by decide +kernel
example : Spec.V01.actions.den (.list true [.obj "01.ActionOutput" [.enum 0, .int 8, .int 2, .int 65535]]) ≠ none ∧
    rest.den (.bytes [9]) = some (.raw [9]) ∧ ¬ Spec.V01.inPortOk 0xff01 := by
  refine ⟨by decide +kernel, rfl, by decide⟩

example : pyPack libs (.obj "04.PacketOut" [.obj "04.Header" [.ub 1 (.int 4), .enum 13, .none, .int 7], .int 4294967295, .none,
    .none, .pad 6, .list true [], .bytes [9]]) = .error .type := by decide +kernel

/-! ## C34 error messages

`Spec.V01.errorCodes t` lists the codes of error type `t`; in OpenFlow 1.3 the codes of type `t` are `0 … Spec.V04.errorCodes t - 1`. -/

/-- The error message object with header `xid`, type, code and data as the decoder builds it. -/
def errorObjV01 (x t c : Nat) (data : Bytes) : Val :=
  .obj "01.ErrorMsg" [.obj "01.Header" [.ub 1 (.int 1), .enum 1, .ub 2 (.int (8 + (4 + data.length) : Nat)), .ub 4 (.int x)],
    .ub 2 (.enum t), .enum c, .bin (.bytes data)]

/-- C34, OpenFlow 1.0.  A code of the enumeration of its error type is accepted, and becomes that member. -/
theorem C34_v01_accept {x t c : Nat} {data : Bytes} (hx : x < 4294967296) (ht : t < 65536) (hc : c < 65536)
    (hl : 12 + data.length < 65536) (hm : c ∈ Spec.V01.errorCodes t) :
    pyUnpack libs (.bytes (packet 1 1 x (be 2 t ++ be 2 c ++ data))) = .ok (errorObjV01 x t c data) := by
  obtain ⟨m, k⟩ := known_v01 (s := ⟨"01.ErrorMsg", 1, 1, "01.Header", Spec.V01.errorMsg⟩) (by simp [Spec.V01.messages])
  have : m = V01.errorMsg := Option.some.inj (k.find.symm.trans (rfl : V01.lib.find 1 = some V01.errorMsg))
  subst this
  have e := k.pyUnpack_packet (x := x) (body := be 2 t ++ be 2 c ++ data) (by simp; omega) hx
  rw [show V01.errorMsg.unpack = V01.errorUnpack from rfl, V01.errorUnpack_bytes ht hc, if_pos hm] at e
  refine e.trans ?_
  simp [rewrap, errorObjV01, List.length_append, be_length, ← Nat.add_assoc]
  exact ⟨rfl, rfl, rfl, rfl⟩

example := C34_v01_accept (x := 9) (t := 2) (c := 8) (data := [170, 187]) (by decide) (by decide) (by decide) (by decide) (by decide)

/-- C34.  Every other pair of type and code is rejected, with `UnpackException`. -/
theorem C34_v01_reject {x t c : Nat} {data : Bytes} (hx : x < 4294967296) (ht : t < 65536) (hc : c < 65536)
    (hl : 12 + data.length < 65536) (hm : c ∉ Spec.V01.errorCodes t) :
    pyUnpack libs (.bytes (packet 1 1 x (be 2 t ++ be 2 c ++ data))) = .error .unpack := by
  obtain ⟨m, k⟩ := known_v01 (s := ⟨"01.ErrorMsg", 1, 1, "01.Header", Spec.V01.errorMsg⟩) (by simp [Spec.V01.messages])
  have : m = V01.errorMsg := Option.some.inj (k.find.symm.trans (rfl : V01.lib.find 1 = some V01.errorMsg))
  subst this
  have e := k.pyUnpack_packet (x := x) (body := be 2 t ++ be 2 c ++ data) (by simp; omega) hx
  rw [show V01.errorMsg.unpack = V01.errorUnpack from rfl, V01.errorUnpack_bytes ht hc, if_neg hm] at e
  refine e.trans ?_
  by_cases htm : t ∈ V01.errorCodes.map (·.1)
  · rw [if_pos htm]; rfl
  · rw [if_neg htm]; rfl

example := C34_v01_reject (x := 9) (t := 2) (c := 9) (data := [170, 187]) (by decide) (by decide) (by decide) (by decide) (by decide)

/-- C34.  The decoded error message packs to the packet it came from. -/
theorem C34_v01_repack {x t c : Nat} {data : Bytes} (hx : x < 4294967296) (ht : t < 65536) (hc : c < 65536)
    (hl : 12 + data.length < 65536) :
    pyPack libs (errorObjV01 x t c data) = .ok (packet 1 1 x (be 2 t ++ be 2 c ++ data)) := by
  obtain ⟨m, k⟩ := known_v01 (s := ⟨"01.ErrorMsg", 1, 1, "01.Header", Spec.V01.errorMsg⟩) (by simp [Spec.V01.messages])
  have hd : msgDen ⟨"01.ErrorMsg", 1, 1, "01.Header", Spec.V01.errorMsg⟩ (errorObjV01 x t c data) =
      some (x, .record [.num t, .num c, .raw data]) := by
    simp [msgDen, errorObjV01, hdrDen, numOf, Spec.V01.errorMsg, struct, denAll, Spec.V01.u16, uint, rest]
  refine ((k.pack hd).ok _).mpr ⟨be 2 t ++ be 2 c ++ data, ?_, by simp; omega, hx, rfl⟩
  simp [Spec.V01.errorMsg, struct, encAll, Spec.V01.u16, uint, rest, ht, hc]

example := C34_v01_repack (x := 9) (t := 2) (c := 8) (data := [170, 187]) (by decide) (by decide) (by decide) (by decide)

/-- C34.  For any bytes at all: whatever decodes as an error message has a code of the enumeration of its type, is the
object with exactly the type, code and data of the packet, and packs to the packet again. -/
theorem C34_v01 {p : Bytes} {w : Val} (h : pyUnpack libs (.bytes p) = .ok w) (h0 : p[0]? = some 1) (h1 : p[1]? = some 1) :
    ∃ x t c data, c ∈ Spec.V01.errorCodes t ∧ p = packet 1 1 x (be 2 t ++ be 2 c ++ data) ∧ w = errorObjV01 x t c data ∧ pyPack libs w = .ok p := by
  obtain ⟨ver, code, x, body, rfl, hv, hco, hx, hb⟩ := pyUnpack_parts h
  have e0 : UInt8.ofNat ver = 1 := Option.some.inj h0
  have e1 : UInt8.ofNat code = 1 := Option.some.inj h1
  have e0 : ver = 1 := by have := congrArg UInt8.toNat e0; simp at this; omega
  have e1 : code = 1 := by have := congrArg UInt8.toNat e1; simp at this; omega
  subst e0 e1
  obtain ⟨m, k⟩ := known_v01 (s := ⟨"01.ErrorMsg", 1, 1, "01.Header", Spec.V01.errorMsg⟩) (by simp [Spec.V01.messages])
  have : m = V01.errorMsg := Option.some.inj (k.find.symm.trans (rfl : V01.lib.find 1 = some V01.errorMsg))
  subst this
  have e := k.pyUnpack_packet (x := x) (body := body) hb hx
  have e := e.symm.trans h
  rw [show V01.errorMsg.unpack = V01.errorUnpack from rfl] at e
  have h4 : 4 ≤ body.length := by
    cases hu : V01.errorUnpack body with
    | ok vs => exact V01.errorUnpack_ok hu
    | error er => rw [hu] at e; cases er <;> cases e
  obtain ⟨t, c, data, ht, hc, rfl⟩ := two_words h4
  have hl : 12 + data.length < 65536 := by simp at hb; omega
  by_cases hm : c ∈ Spec.V01.errorCodes t
  · have ha := C34_v01_accept hx ht hc hl hm
    have : w = errorObjV01 x t c data := Except.ok.inj (h.symm.trans ha)
    subst this
    exact ⟨x, t, c, data, hm, rfl, rfl, C34_v01_repack hx ht hc hl⟩
  · rw [C34_v01_reject hx ht hc hl hm] at h
    cases h

example := C34_v01 (p := [1, 1, 0, 14, 0, 0, 0, 9, 0, 2, 0, 8, 170, 187]) (w := errorObjV01 9 2 8 [170, 187]) (by decide +kernel) rfl rfl

/-- The error message object with header `xid`, type, code and data as the decoder builds it. -/
def errorObjV04 (x t c : Nat) (data : Bytes) : Val :=
  .obj "04.ErrorMsg" [.obj "04.Header" [.ub 1 (.int 4), .enum 1, .ub 2 (.int (8 + (4 + data.length) : Nat)), .ub 4 (.int x)],
    .ub 2 (.enum t), .enum c, .bin (.bytes data)]

/-- C34, OpenFlow 1.3.  A code of the enumeration of its error type is accepted, and becomes that member. -/
theorem C34_v04_accept {x t c : Nat} {data : Bytes} (hx : x < 4294967296) (ht : t < 65536) (hc : c < 65536)
    (hl : 12 + data.length < 65536) (hm : c < Spec.V04.errorCodes t) :
    pyUnpack libs (.bytes (packet 4 1 x (be 2 t ++ be 2 c ++ data))) = .ok (errorObjV04 x t c data) := by
  obtain ⟨m, k⟩ := known_v04 (s := ⟨"04.ErrorMsg", 4, 1, "04.Header", Spec.V04.errorMsg⟩) (by simp [Spec.V04.messages])
  have : m = V04.errorMsg := Option.some.inj (k.find.symm.trans (rfl : V04.lib.find 1 = some V04.errorMsg))
  subst this
  have e := k.pyUnpack_packet (x := x) (body := be 2 t ++ be 2 c ++ data) (by simp; omega) hx
  rw [show V04.errorMsg.unpack = V04.errorUnpack from rfl, V04.errorUnpack_bytes ht hc, if_pos hm] at e
  refine e.trans ?_
  simp [rewrap, errorObjV04, List.length_append, be_length, ← Nat.add_assoc]
  exact ⟨rfl, rfl, rfl, rfl⟩

example := C34_v04_accept (x := 9) (t := 13) (c := 5) (data := [170, 187]) (by decide) (by decide) (by decide) (by decide) (by decide)

/-- C34.  Every other pair of type and code is rejected, with `UnpackException`. -/
theorem C34_v04_reject {x t c : Nat} {data : Bytes} (hx : x < 4294967296) (ht : t < 65536) (hc : c < 65536)
    (hl : 12 + data.length < 65536) (hm : ¬ c < Spec.V04.errorCodes t) :
    pyUnpack libs (.bytes (packet 4 1 x (be 2 t ++ be 2 c ++ data))) = .error .unpack := by
  obtain ⟨m, k⟩ := known_v04 (s := ⟨"04.ErrorMsg", 4, 1, "04.Header", Spec.V04.errorMsg⟩) (by simp [Spec.V04.messages])
  have : m = V04.errorMsg := Option.some.inj (k.find.symm.trans (rfl : V04.lib.find 1 = some V04.errorMsg))
  subst this
  have e := k.pyUnpack_packet (x := x) (body := be 2 t ++ be 2 c ++ data) (by simp; omega) hx
  rw [show V04.errorMsg.unpack = V04.errorUnpack from rfl, V04.errorUnpack_bytes ht hc, if_neg hm] at e
  refine e.trans ?_
  by_cases htm : t ∈ V04.errorCodes.map (·.1)
  · rw [if_pos htm]; rfl
  · rw [if_neg htm]; rfl

example := C34_v04_reject (x := 9) (t := 14) (c := 0) (data := [170, 187]) (by decide) (by decide) (by decide) (by decide) (by decide)

/-- C34.  The decoded error message packs to the packet it came from. -/
theorem C34_v04_repack {x t c : Nat} {data : Bytes} (hx : x < 4294967296) (ht : t < 65536) (hc : c < 65536)
    (hl : 12 + data.length < 65536) :
    pyPack libs (errorObjV04 x t c data) = .ok (packet 4 1 x (be 2 t ++ be 2 c ++ data)) := by
  obtain ⟨m, k⟩ := known_v04 (s := ⟨"04.ErrorMsg", 4, 1, "04.Header", Spec.V04.errorMsg⟩) (by simp [Spec.V04.messages])
  have hd : msgDen ⟨"04.ErrorMsg", 4, 1, "04.Header", Spec.V04.errorMsg⟩ (errorObjV04 x t c data) =
      some (x, .record [.num t, .num c, .raw data]) := by
    simp [msgDen, errorObjV04, hdrDen, numOf, Spec.V04.errorMsg, struct, denAll, Spec.V04.u16, uint, rest]
  refine ((k.pack hd).ok _).mpr ⟨be 2 t ++ be 2 c ++ data, ?_, by simp; omega, hx, rfl⟩
  simp [Spec.V04.errorMsg, struct, encAll, Spec.V04.u16, uint, rest, ht, hc]

example := C34_v04_repack (x := 9) (t := 13) (c := 5) (data := [170, 187]) (by decide) (by decide) (by decide) (by decide)

/-- C34.  For any bytes at all: whatever decodes as an error message has a code of the enumeration of its type, is the
object with exactly the type, code and data of the packet, and packs to the packet again. -/
theorem C34_v04 {p : Bytes} {w : Val} (h : pyUnpack libs (.bytes p) = .ok w) (h0 : p[0]? = some 4) (h1 : p[1]? = some 1) :
    ∃ x t c data, c < Spec.V04.errorCodes t ∧ p = packet 4 1 x (be 2 t ++ be 2 c ++ data) ∧ w = errorObjV04 x t c data ∧ pyPack libs w = .ok p := by
  obtain ⟨ver, code, x, body, rfl, hv, hco, hx, hb⟩ := pyUnpack_parts h
  have e0 : UInt8.ofNat ver = 4 := Option.some.inj h0
  have e1 : UInt8.ofNat code = 1 := Option.some.inj h1
  have e0 : ver = 4 := by have := congrArg UInt8.toNat e0; simp at this; omega
  have e1 : code = 1 := by have := congrArg UInt8.toNat e1; simp at this; omega
  subst e0 e1
  obtain ⟨m, k⟩ := known_v04 (s := ⟨"04.ErrorMsg", 4, 1, "04.Header", Spec.V04.errorMsg⟩) (by simp [Spec.V04.messages])
  have : m = V04.errorMsg := Option.some.inj (k.find.symm.trans (rfl : V04.lib.find 1 = some V04.errorMsg))
  subst this
  have e := k.pyUnpack_packet (x := x) (body := body) hb hx
  have e := e.symm.trans h
  rw [show V04.errorMsg.unpack = V04.errorUnpack from rfl] at e
  have h4 : 4 ≤ body.length := by
    cases hu : V04.errorUnpack body with
    | ok vs => exact V04.errorUnpack_ok hu
    | error er => rw [hu] at e; cases er <;> cases e
  obtain ⟨t, c, data, ht, hc, rfl⟩ := two_words h4
  have hl : 12 + data.length < 65536 := by simp at hb; omega
  by_cases hm : c < Spec.V04.errorCodes t
  · have ha := C34_v04_accept hx ht hc hl hm
    have : w = errorObjV04 x t c data := Except.ok.inj (h.symm.trans ha)
    subst this
    exact ⟨x, t, c, data, hm, rfl, rfl, C34_v04_repack hx ht hc hl⟩
  · rw [C34_v04_reject hx ht hc hl hm] at h
    cases h

example : pyUnpack libs (.bytes [1, 1, 0, 14, 0, 0, 0, 9, 0, 2, 0, 8, 170, 187]) = .ok (errorObjV01 9 2 8 [170, 187]) := by decide +kernel
example : pyUnpack libs (.bytes [1, 1, 0, 14, 0, 0, 0, 9, 0, 2, 0, 9, 170, 187]) = .error .unpack := by decide +kernel
example : pyUnpack libs (.bytes [4, 1, 0, 14, 0, 0, 0, 9, 0, 13, 0, 5, 170, 187]) = .ok (errorObjV04 9 13 5 [170, 187]) := by decide +kernel
example : pyUnpack libs (.bytes [4, 1, 0, 14, 0, 0, 0, 9, 0, 14, 0, 0, 170, 187]) = .error .unpack := by decide +kernel

end Pyof.Props
