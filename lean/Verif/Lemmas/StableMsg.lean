import Verif.Lemmas.StableCut
import Verif.Lemmas.Libs
/-!
# Decoding arbitrary bytes and encoding the result again: messages
-/
namespace Pyof
open Spec

/-- What a message class does with an arbitrary non-empty body it accepts: if `T` the attributes have a content, and a
content `d` with `P d` can be encoded, in at most `k` bytes more, and decoded to the same content. -/
def MsgStab (m : MsgCls) (s : MsgFmt) (T : Bytes → List Val → Prop) (P : Data → Prop) (k : Nat) : Prop :=
  ∀ body vs, body ≠ [] → body.length + k < 65536 → m.unpack body = .ok vs →
    (T body vs → ∃ d, s.fmt.den (.obj s.name vs) = some d) ∧
    ∀ d, s.fmt.den (.obj s.name vs) = some d → P d → ∃ b, s.fmt.enc d = some b ∧ b.length ≤ body.length + k ∧
      ∃ vs', m.unpack b = .ok vs' ∧ s.fmt.den (.obj s.name vs') = some d

theorem MsgStab.mono {m s T P k k'} (h : MsgStab m s T P k) (hk : k ≤ k') : MsgStab m s T P k' := by
  intro body vs hb hl hu
  obtain ⟨h1, h2⟩ := h body vs hb (by omega) hu
  refine ⟨h1, fun d hd hp => ?_⟩
  obtain ⟨b, h3, h4, h5⟩ := h2 d hd hp
  exact ⟨b, h3, by omega, h5⟩

/-- The whole of `b`, as available bytes. -/
theorem Avail.whole {tail avail} {b : Bytes} (h : b ≠ []) : Avail tail avail b b 0 (max avail b.length) [] where
  ne := h
  le := by omega
  eq := by simp [List.take_of_length_le (show b.length ≤ max avail b.length by omega)]
  cut := fun _ => rfl
  last := fun _ _ => rfl

/-- A message without overridden methods. -/
theorem StabRun.msg {m : MsgCls} {s : MsgFmt} {fs t tot k T} (h : StabRun m.body fs t tot k) (hok : MsgOk m s)
    (hun : m.unpack = fun buff => match unpackAttrs m.body buff 0 with | .ok (vs, _) => .ok vs | .error e => .error e)
    (hfmt : s.fmt = Spec.struct s.name fs) (hempty : ∀ d, s.fmt.enc d = some [] → s.fmt.ok d)
    (hT : ∀ b vs, T b vs → tot = true) : MsgStab m s T (fun _ => True) k := by
  intro body vs hb hl hu
  rw [hun] at hu
  simp only at hu
  cases h1 : unpackAttrs m.body body 0 with
  | error e => rw [h1] at hu; cases hu
  | ok p =>
    obtain ⟨vs', e⟩ := p
    rw [h1] at hu
    cases hu
    obtain ⟨h2, h3⟩ := h body 0 vs e hb (by simpa using hl) h1
    rw [hfmt] at hempty ⊢
    refine ⟨fun ht => ?_, fun d hd _ => ?_⟩
    · obtain ⟨ds, hds⟩ := h2 (hT _ _ ht)
      exact ⟨.record ds, by simp [Spec.struct, hds]⟩
    · obtain ⟨ws, ds, hw, hds, rfl⟩ := struct_den_inv hd
      cases hw
      obtain ⟨b, h4, rfl, h6, h7⟩ := h3 ds hds
      refine ⟨b, h4, by simpa using h6, ?_⟩
      by_cases hbn : b = []
      · subst hbn
        have := hok.unpack (.record ds) [] (by rw [hfmt]; exact h4) (by rw [hfmt]; exact hempty _ h4)
        rwa [hfmt] at this
      · obtain ⟨us, h8, h9⟩ := h7 b 0 _ [] (.whole hbn)
        exact ⟨us, by rw [hun]; simp [h8], by simp [Spec.struct, h9]⟩

/-- The class of what `pyof.utils.unpack` returns determines version and type number. -/
theorem names_table : ∀ l ∈ libs, ∀ c ∈ l.classes, ∀ s ∈ messages, c.2.name = s.name → l.ver = s.ver ∧ c.1 = s.code := by
  have h : (libs.all fun l => (l.classes.map fun c => (c.1, c.2.name)).all fun c =>
      (messages.map fun s => (s.name, s.ver, s.code)).all fun s => c.2 != s.1 || (l.ver == s.2.1 && c.1 == s.2.2)) = true := by
    decide +kernel
  intro l hl c hc s hs hn
  have h1 := List.all_eq_true.mp (List.all_eq_true.mp (List.all_eq_true.mp h l hl) _ (List.mem_map_of_mem hc)) _
    (List.mem_map_of_mem hs)
  simpa [hn] using h1

theorem find_mem {l : Lib} {t m} (h : l.find t = some m) : (t, m) ∈ l.classes := by
  unfold Lib.find at h
  cases h1 : l.classes.find? (fun p => p.1 == t) with
  | none => rw [h1] at h; cases h
  | some q =>
    rw [h1] at h
    cases h
    have h2 := List.find?_some h1
    have h3 := List.mem_of_find?_eq_some h1
    obtain ⟨a, b⟩ := q
    simp only [beq_iff_eq] at h2
    subst h2
    exact h3

/-- A decoded message of a given class: version, type, transaction id and body. -/
theorem Known.decoded {s l m p w vs} (kn : Known s l m) (hs : s ∈ messages) (h : pyUnpack libs (.bytes p) = .ok w)
    (hw : w = .obj s.name vs) :
    ∃ (x : Nat) (r : Bytes) (us : List Val) (n : Nat), x < 4294967296 ∧ p.length = 8 + r.length ∧ p.drop 8 = r ∧ p.length < 65536 ∧ m.unpack r = .ok us ∧
      w = .obj s.name (.obj (hdrName s.ver) [.ub 1 (.int s.ver), .enum s.code, .ub 2 (.int n), .ub 4 (.int x)] :: us) ∧
      hdrDen s.hdr s.ver s.code (.obj (hdrName s.ver) [.ub 1 (.int s.ver), .enum s.code, .ub 2 (.int n), .ub 4 (.int (x : Nat))])
        = some x := by
  obtain ⟨b0, b1, b2, b3, b4, b5, b6, b7, r, l', m', us, rfl, h1, h2, h3, h4, h5, h6⟩ := pyUnpack_bytes _ _ _ h
  have hl := beVal_lt [b2, b3]
  have hx := beVal_lt [b4, b5, b6, b7]
  simp only [List.length_cons, List.length_nil] at hl hx h5
  have hmem := List.mem_of_find?_eq_some h1
  have hn : m'.name = s.name := by rw [hw] at h6; exact ((Val.obj.inj h6).1).symm
  obtain ⟨hv, hc⟩ := names_table l' hmem _ (find_mem h3) s hs hn
  have hver : l'.ver = b0.toNat := by simpa using List.find?_some h1
  have hll : l' = l := by
    have := kn.vlib
    rw [← kn.ver, ← hv, hver, h1] at this
    exact Option.some.inj this
  subst hll
  have hc : b1.toNat = s.code := hc
  rw [hc, kn.find] at h3
  cases h3
  refine ⟨beVal [b4, b5, b6, b7], r, us, (b0 :: b1 :: b2 :: b3 :: b4 :: b5 :: b6 :: b7 :: r).length, by simpa using hx, by simp; omega, rfl, by simp; omega, h4, ?_, ?_⟩
  · rw [h6, kn.ok.name, kn.ok.ver, kn.ok.code]
  · rw [kn.ok.hdr]
    simp [hdrDen, numOf]

/-- Encoding what `pyof.utils.unpack` returned. -/
theorem MsgStab.unpack {s l m T P k p w hdr vs} (h : MsgStab m s T P k) (kn : Known s l m) (hs : s ∈ messages)
    (hp : pyUnpack libs (.bytes p) = .ok w) (hw : w = .obj s.name (hdr :: vs)) (hlen : p.length + k < 65536)
    (hr : p.length = 8 → ∃ d, s.fmt.enc d = some [] ∧ s.fmt.ok d) :
    (T (p.drop 8) vs → ∃ x d, msgDen s w = some (x, d)) ∧
    ∀ x d, msgDen s w = some (x, d) → P d → ∃ q w', pyPack libs w = .ok q ∧ q.length ≤ p.length + k ∧
      pyUnpack libs (.bytes q) = .ok w' ∧ msgDen s w' = some (x, d) := by
  obtain ⟨x, r, us, n, hx, h1, hdr8, h2, h3, h4, h5⟩ := kn.decoded hs hp hw
  rw [hdr8]
  have hmd : ∀ d, s.fmt.den (.obj s.name us) = some d → msgDen s w = some (x, d) := by
    intro d hd
    rw [h4]
    simp [msgDen, h5, hd]
  have hus : vs = us := by rw [hw] at h4; simpa using (Val.obj.inj h4).2 |> List.cons.inj |>.2
  subst hus
  have key : (T r vs → ∃ d, s.fmt.den (.obj s.name vs) = some d) ∧
    ∀ d, s.fmt.den (.obj s.name vs) = some d → P d → ∃ b, s.fmt.enc d = some b ∧ b.length ≤ r.length + k ∧
      ∃ vs', m.unpack b = .ok vs' ∧ s.fmt.den (.obj s.name vs') = some d := by
    by_cases hrn : r = []
    · subst hrn
      obtain ⟨d, hd, ho⟩ := hr (by simpa using h1)
      obtain ⟨us', hu, hden⟩ := kn.ok.unpack d [] hd ho
      rw [h3] at hu
      cases hu
      refine ⟨fun _ => ⟨d, hden⟩, fun d' hd' _ => ?_⟩
      rw [hden] at hd'
      cases hd'
      exact ⟨[], hd, by simp, _, h3, hden⟩
    · exact h r vs hrn (by omega) h3
  refine ⟨fun ht => ?_, fun x' d hd hP => ?_⟩
  · obtain ⟨d, hd⟩ := key.1 ht
    exact ⟨x, d, hmd d hd⟩
  · obtain ⟨hdr', vs', hv, h6, h7⟩ := msgDen_inv hd
    rw [h4] at hv
    cases hv
    rw [h5] at h6
    cases h6
    obtain ⟨b, h8, h9, vs'', h10, h11⟩ := key.2 d h7 hP
    refine ⟨packet s.ver s.code x b, .obj s.name (.obj (hdrName s.ver) [.ub 1 (.int s.ver), .enum s.code,
      .ub 2 (.int (8 + b.length : Nat)), .ub 4 (.int x)] :: vs''), ?_, ?_, ?_, ?_⟩
    · exact ((kn.pack hd).ok _).mpr ⟨b, h8, by omega, hx, rfl⟩
    · simp [packet]; omega
    · rw [kn.pyUnpack_packet (by omega) hx, h10, kn.ok.name, kn.ok.ver, kn.ok.code]
      rfl
    · have : hdrDen s.hdr s.ver s.code (.obj (hdrName s.ver) [.ub 1 (.int s.ver), .enum s.code,
          .ub 2 (.int (8 + b.length : Nat)), .ub 4 (.int (x : Nat))]) = some x := by
        rw [kn.ok.hdr]; simp [hdrDen, numOf]
      simp only [msgDen, if_true, this, h11]

end Pyof
