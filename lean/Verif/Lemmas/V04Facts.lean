import Verif.Lemmas.V04
import Verif.Lemmas.V04Body
/-! Facts about OpenFlow 1.3 structures used by the property theorems. -/
namespace Pyof.V04
open Spec

theorem match_den {t l xs : Val} {tn : Nat} {ds : Data} (ht : numOf t = some tn) (hx : Spec.V04.oxms.den xs = some ds) :
    Spec.V04.match.den (.obj "04.Match" [t, l, xs]) = some (.record [.num tn, ds]) := by
  have htv : (uint 2 (some [0, 1])).den t = some (.num tn) := by cases t <;> simp [numOf] at ht <;> simp [uint, numOf, ht]
  have := ownLen_den (cls := "04.Match") (l := l) (fs₁ := [("match_type", uint 2 (some [0, 1]))])
    (fs₂ := [("oxm_match_fields", Spec.V04.oxms)]) (vs₁ := [t]) (vs₂ := [xs])
    (ds₁ := [.num tn]) (ds₂ := [ds]) (by simp only [denAll, htv]) (by simp only [denAll, hx])
  exact this

theorem listAttr_list {isItem it} {buff : Bytes} {o n : Nat} {x : Val} (h : unpackAttr (listAttr isItem it) buff o = .ok (x, n)) :
    ∃ ys, x = .list true ys := by
  simp only [unpackAttr] at h
  split at h
  · cases h; exact ⟨_, rfl⟩
  · simp only [listAttr] at h
    cases hu : unpackItems it buff o with
    | error e => simp [hu] at h
    | ok ys =>
      simp only [hu] at h
      split at h
      · cases h
      · cases h; exact ⟨_, rfl⟩

theorem matchUnpack_list {buff : Bytes} {o : Nat} {t l x : Val} (h : «match».unpack buff o = .ok (.obj "04.Match" [t, l, x])) :
    ∃ ys, x = .list true ys := by
  simp only [«match», matchUnpack] at h
  split at h
  · cases h
  · split at h
    · cases h
    · rename_i heq
      cases h
      exact listAttr_list heq
  · cases h

theorem actionLay_length {t c ds b} (h : Spec.V04.actionSel t = some c) (he : (Spec.V04.actionLay c).enc (.record (.num t :: ds)) = some b)
    (h1 : c ≠ "04.ActionSetField") (h2 : c ≠ "04.ActionExperimenter") : b.length = if c = "04.ActionOutput" then 16 else 8 := by
  rw [actionLay_ne h1] at he
  obtain ⟨ds', h0, he⟩ := struct_enc_inv he
  unfold Spec.V04.actionSel at h
  rcases ite_some h with ⟨_, rfl⟩ | h
  · exact (show FixedLens _ 16 by unfold Spec.V04.actionTail; fixed_len) _ _ he
  iterate 14
    rcases ite_some h with ⟨_, rfl⟩ | h
    · first
      | exact absurd rfl h1
      | exact absurd rfl h2
      | exact (show FixedLens _ 8 by unfold Spec.V04.actionTail; fixed_len) _ _ he
  cases h


theorem action_len_field {t c ds b l} (h1 : c ≠ "04.ActionSetField")
    (he : (Spec.V04.actionLay c).enc (.record (t :: .num l :: ds)) = some b) : slice b 2 4 = be 2 l ∧ l < 65536 := by
  rw [actionLay_ne h1] at he
  obtain ⟨ds', h0, he⟩ := struct_enc_inv he
  cases h0
  obtain ⟨_, _, x1, y1, h0, h2, h3, rfl⟩ := encAll_cons_inv he
  cases h0
  obtain ⟨_, _, x2, y2, h0, h4, h5, rfl⟩ := encAll_cons_inv h3
  cases h0
  obtain ⟨n, h0, hn, rfl⟩ := uint_enc_inv h4
  cases h0
  have hl := fixed_uint _ _ h2
  have := slice_mid x1 (be 2 l) y2
  rw [hl] at this
  simp only [be_length, List.append_assoc] at this
  exact ⟨this, hn⟩

theorem okAll_of {fs : FieldFmts} : ∀ {ds b}, (∀ p ∈ fs, ∀ d b, (p : String × Fmt).2.enc d = some b → p.2.ok d) →
    encAll fs ds = some b → okAll fs ds := by
  induction fs with
  | nil => intros; exact trivial
  | cons p fs ih =>
    intro ds b hp hb
    obtain ⟨d, r, x, y, rfl, k1, k2, _⟩ := encAll_cons_inv hb
    exact ⟨hp p (by simp) d x k1, ih (fun q hq => hp q (by simp [hq])) k2⟩

theorem ok_uint {w d b dflt} (h : (uint w none dflt).enc d = some b) : (uint w none dflt).ok d := by
  obtain ⟨n, rfl, _, _⟩ := uint_enc_inv h
  intro ms h; cases h

theorem actionTail_ok {c : String} : ∀ p ∈ Spec.V04.actionTail c, ∀ d b, p.2.enc d = some b → p.2.ok d := by
  intro p hp d b h
  unfold Spec.V04.actionTail at hp
  split at hp <;> (simp only [List.mem_cons, List.not_mem_nil, or_false] at hp) <;> (try rcases hp with rfl | rfl | rfl) <;>
    (try rcases hp with rfl | rfl) <;> (try subst hp) <;> first | exact ok_uint h | exact trivial

/-- An action whose length attribute is its size is acceptable to the decoder. -/
theorem action_ok {c t l vs d b} (hd : Spec.V04.action.den (.obj c (t :: l :: vs)) = some d) (he : Spec.V04.action.enc d = some b)
    (h1 : c ≠ "04.ActionSetField") (hl : numOf l = some b.length) : Spec.V04.action.ok d := by
  have hd : (union Spec.V04.actionSel Spec.V04.actionLay).den (.obj c (t :: l :: vs)) = some d := hd
  have he : (union Spec.V04.actionSel Spec.V04.actionLay).enc d = some b := he
  obtain ⟨c', vs', tn, ds, h0, h2, h3, rfl⟩ := union_den_inv hd
  cases h0
  obtain ⟨_, _, _, h0, _, he'⟩ := union_enc_inv he
  cases h0
  obtain ⟨_, _, _, _, _, hmem⟩ := action_sub_of h3
  have h2' := h2
  rw [actionLay_ne h1] at h2
  obtain ⟨vs', ds', h0, h4, h5⟩ := struct_den_inv h2
  cases h0; cases h5
  obtain ⟨_, _, _, _, h0, g1, g2, h5⟩ := denAll_cons_inv h4
  cases h0; cases h5
  obtain ⟨_, _, _, _, h0, g3, g4, h5⟩ := denAll_cons_inv g2
  cases h0; subst h5
  have hlen : Spec.V04.u16.den l = some (.num b.length) := by cases l <;> simp [numOf] at hl <;> simp [uint, numOf, hl]
  rw [hlen] at g3
  cases g3
  have hf := action_len_field h1 he'
  refine ⟨?_, ?_⟩
  · show (Spec.V04.actionLay c).ok _
    rw [actionLay_ne h1]
    refine And.intro (by intro ms h; cases h; exact hmem) (And.intro (by intro ms h; cases h) ?_)
    rw [actionLay_ne h1] at he'
    obtain ⟨ds', h0, he'⟩ := struct_enc_inv he'
    cases h0
    obtain ⟨_, _, x1, y1, h0, k2, k3, rfl⟩ := encAll_cons_inv he'
    cases h0
    obtain ⟨_, _, x2, y2, h0, k4, k5, rfl⟩ := encAll_cons_inv k3
    cases h0
    exact okAll_of actionTail_ok k5
  · intro b' hb'
    have : b' = b := Option.some.inj (hb'.symm.trans he)
    subst this
    exact hf

theorem action_parts {c vs d b} (hd : Spec.V04.action.den (.obj c vs) = some d) (he : Spec.V04.action.enc d = some b) :
    ∃ t ds, Spec.V04.actionSel t = some c ∧ (Spec.V04.actionLay c).den (.obj c vs) = some (.record (.num t :: ds)) ∧
      (Spec.V04.actionLay c).enc (.record (.num t :: ds)) = some b ∧ d = .tag c (.record (.num t :: ds)) := by
  have hd : (union Spec.V04.actionSel Spec.V04.actionLay).den (.obj c vs) = some d := hd
  have he : (union Spec.V04.actionSel Spec.V04.actionLay).enc d = some b := he
  obtain ⟨c', vs', tn, ds, h0, h2, h3, rfl⟩ := union_den_inv hd
  cases h0
  obtain ⟨_, _, _, h0, _, he'⟩ := union_enc_inv he
  cases h0
  exact ⟨tn, ds, h3, h2, he', rfl⟩

theorem setField_length {t ds b} (he : Spec.V04.setField.enc (.record (t :: ds)) = some b) :
    slice b 2 4 = be 2 b.length ∧ b.length < 65536 ∧ b.length % 8 = 0 := by
  obtain ⟨t, x, xb, h1, h2, h3, rfl⟩ := setField_enc_inv he
  have hs := oxm_enc_short h2
  have hl : (be 2 t ++ be 2 (4 + xb.length + (zeros8 (4 + xb.length)).length) ++ xb ++ zeros8 (4 + xb.length)).length =
      4 + xb.length + (zeros8 (4 + xb.length)).length := by simp; omega
  refine ⟨?_, ?_, ?_⟩
  · rw [hl]
    have := slice_mid (be 2 t) (be 2 (4 + xb.length + (zeros8 (4 + xb.length)).length)) (xb ++ zeros8 (4 + xb.length))
    simp only [be_length, ← List.append_assoc] at this
    exact this
  · rw [hl]; simp [zeros8]; omega
  · rw [hl]; simp [zeros8]; omega

theorem experimenter_length {t ds b} (he : (Spec.V04.actionLay "04.ActionExperimenter").enc (.record (t :: ds)) = some b) :
    ∃ l x body, ds = [l, x, .raw body] ∧ b.length = 8 + body.length ∧ body.length % 8 = 0 := by
  rw [actionLay_ne (by decide)] at he
  obtain ⟨ds', h0, he⟩ := struct_enc_inv he
  cases h0
  simp only [Spec.V04.actionTail] at he
  obtain ⟨_, _, _, _, h0, h1, g1, rfl⟩ := encAll_cons_inv he
  cases h0
  obtain ⟨_, _, _, _, rfl, h2, g2, rfl⟩ := encAll_cons_inv g1
  obtain ⟨_, _, _, _, rfl, h3, g3, rfl⟩ := encAll_cons_inv g2
  obtain ⟨d, _, _, _, rfl, h4, g4, rfl⟩ := encAll_cons_inv g3
  obtain ⟨rfl, rfl⟩ := encAll_nil_inv g4
  have e1 := fixed_uint _ _ h1
  have e2 := fixed_uint _ _ h2
  have e3 := fixed_uint _ _ h3
  cases d <;> simp [rest8] at h4
  obtain ⟨h5, rfl⟩ := h4
  exact ⟨_, _, _, rfl, by simp [e1, e2, e3]; omega, h5⟩

theorem uint_den_num {w ms v d} (h : (uint w ms none).den v = some d) : ∃ n, numOf v = some n ∧ d = .num n := by
  cases v <;> simp [uint] at h
  all_goals (obtain ⟨n, h1, h2⟩ := h; exact ⟨n, h1, h2.symm⟩)

theorem uint_num_den {w ms dflt v n} (h : numOf v = some n) : (uint w ms dflt).den v = some (.num n) := by
  cases v <;> simp [numOf] at h <;> simp [uint, numOf, h]

theorem optMap_src {α β} {f : α → Option β} {xs bs} (h : optMap f xs = some bs) : ∀ b ∈ bs, ∃ x ∈ xs, f x = some b := by
  induction xs generalizing bs with
  | nil => simp [optMap] at h; subst h; simp
  | cons a r ih =>
    obtain ⟨b, s, h1, h2, rfl⟩ := optMap_cons_inv h
    intro c hc
    rcases List.mem_cons.mp hc with rfl | hc
    · exact ⟨a, by simp, h1⟩
    · obtain ⟨x, hx, h3⟩ := ih h2 c hc
      exact ⟨x, by simp [hx], h3⟩

theorem helloElem_ok {v d} (h : Spec.V04.helloElem.den v = some d) : Spec.V04.helloElem.ok d := by
  obtain ⟨vs₁, l, vs₂, ds₁, ds₂, rfl, rfl, h1, h2⟩ := ownLen_den_inv h
  obtain ⟨_, _, _, _, rfl, g1, g2, rfl⟩ := denAll_cons_inv h1
  obtain ⟨rfl, rfl⟩ := denAll_nil_inv g2
  obtain ⟨n, _, rfl⟩ := uint_den_num g1
  obtain ⟨_, _, _, _, rfl, g3, g4, rfl⟩ := denAll_cons_inv h2
  obtain ⟨rfl, rfl⟩ := denAll_nil_inv g4
  exact And.intro (And.intro (by intro ms h; cases h) trivial) (And.intro trivial trivial)

theorem helloElem_den {t l x tn c} (ht : numOf t = some tn) (hx : rest.den x = some (.raw c)) :
    Spec.V04.helloElem.den (.obj "04.HelloElemHeader" [t, l, x]) = some (.record [.num tn, .raw c]) := by
  have htv : Spec.V04.u16.den t = some (.num tn) := uint_num_den ht
  have := ownLen_den (cls := "04.HelloElemHeader") (l := l) (fs₁ := [("element_type", Spec.V04.u16)])
    (fs₂ := [("content", rest)]) (vs₁ := [t]) (vs₂ := [x])
    (ds₁ := [.num tn]) (ds₂ := [.raw c]) (by simp only [denAll, htv]) (by simp only [denAll, hx])
  exact this

theorem helloElem_enc {tn c b} : Spec.V04.helloElem.enc (.record [.num tn, .raw c]) = some b ↔
    tn < 65536 ∧ 4 + c.length < 65536 ∧ b = be 2 tn ++ be 2 (4 + c.length) ++ c := by
  have p2 : (256 : Nat) ^ 2 = 65536 := by decide
  constructor
  · intro h
    obtain ⟨ds₁, ds₂, b₁, b₂, h1, h2, h3, h4, rfl⟩ := ownLen_enc_inv h
    obtain ⟨_, _, _, _, rfl, g1, g2, rfl⟩ := encAll_cons_inv h2
    obtain ⟨rfl, rfl⟩ := encAll_nil_inv g2
    cases h1
    obtain ⟨n, h0, hn, rfl⟩ := uint_enc_inv g1
    cases h0
    obtain ⟨_, _, _, _, h0, g3, g4, rfl⟩ := encAll_cons_inv h3
    cases h0
    obtain ⟨_, rfl⟩ := encAll_nil_inv g4
    simp [rest] at g3
    subst g3
    simp only [List.append_nil, be_length] at h4 ⊢
    refine ⟨by omega, by omega, ?_⟩
    simp only [show 2 + 2 + c.length = 4 + c.length by omega]
  · rintro ⟨h1, h2, rfl⟩
    have h1' : tn < 256 ^ 2 := by omega
    simp only [Spec.V04.helloElem, ownLen, List.length_cons, List.length_nil, List.take_succ_cons, List.take_zero, List.drop_succ_cons,
      List.drop_zero, encAll, uint, rest, if_pos h1', List.append_nil, be_length]
    rw [if_pos (by omega), show 2 + 2 + c.length = 4 + c.length by omega]

theorem sized_meterStats : SelfSized 4 Spec.V04.meterStats := selfSized_ownLen (show FixedLens _ 4 by fixed_len)
theorem sized_tableFeatures : SelfSized 0 Spec.V04.tableFeatures := selfSized_ownLen (show FixedLens _ 0 by fixed_len)
theorem sized_helloElem : SelfSized 2 Spec.V04.helloElem := selfSized_ownLen (show FixedLens _ 2 by fixed_len)
theorem sized_property : SelfSized 2 Spec.V04.property :=
  selfSized_union fun _ _ _ => selfSized_ownLen (show FixedLens _ 2 by fixed_len)
theorem sized_instruction : SelfSized 2 Spec.V04.instruction :=
  selfSized_union fun _ _ _ => selfSized_ownLen (show FixedLens _ 2 by fixed_len)

end Pyof.V04
