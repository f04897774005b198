import Verif.Lemmas.Threads
/-!
# The classes that assign attributes while packing
-/
namespace Pyof.Threads

theorem safe_leaves (fs : Fields) : ∀ f ∈ leaves fs, Safe f.2 := by
  intro f hf
  obtain ⟨g, _, rfl⟩ := List.mem_map.1 hf
  exact safe_leaf g.2

theorem safe_leavesBut {special : List (String × PAttr)} (hs : ∀ a ∈ special, Safe a.2) (fs : Fields) : ∀ f ∈ leavesBut special fs, Safe f.2 := by
  intro f hf
  obtain ⟨g, _, rfl⟩ := List.mem_map.1 hf
  show Safe (match special.lookup g.1 with | some a => a | none => leafP g.2)
  cases h : special.lookup g.1 with
  | none => exact safe_leaf g.2
  | some a =>
    have : (g.1, a) ∈ special := by
      clear hs hf
      induction special with
      | nil => simp at h
      | cons b r ih =>
        obtain ⟨n, c⟩ := b
        simp only [List.lookup] at h
        split at h
        · rename_i he; simp at he; cases h; subst he; simp
        · exact List.mem_cons_of_mem _ (ih h)
    exact hs _ this

theorem leaves_fields (fs : Fields) : (leaves fs).fields = fs := by
  simp only [leaves, PFields.fields, List.map_map]
  conv => rhs; rw [← List.map_id fs]
  rfl

theorem leaves_no {fs : Fields} {vs : List Val} {q : Path} {x : Val} : ¬ fieldWrites (leaves fs) vs q x := by
  cases q with
  | nil => exact fun h => h
  | cons j q =>
    rintro ⟨f, v, h1, _, h3⟩
    obtain ⟨g, _, rfl⟩ := List.mem_map.1 (List.mem_of_getElem? h1)
    exact h3

/-! ## OxmTLV -/

theorem oxm_writes {c a b v f m : Val} {q : Path} {x : Val} : oxmCls.writes [c, a, b, v, f, m] q x ↔
    (q = [1] ∧ ∃ i k, V04.oxmFieldInt c f = .ok i ∧ cmpNum m = some k ∧ x = .int (i * 2 + k % 2)) ∨
    (q = [2] ∧ ∃ payload, (binAttr).pack v = .ok payload ∧ x = .int payload.length) := Iff.rfl

theorem oxm_root (vs : List Val) (x : Val) : ¬ oxmCls.writes vs [] x := by
  intro h
  simp only [oxmCls] at h
  split at h
  · rcases h with ⟨h, _⟩ | ⟨h, _⟩ <;> cases h
  · exact h

theorem oxm_other {vs : List Val} {j : Nat} (h1 : j ≠ 1) (h2 : j ≠ 2) {q : Path} {x : Val} : ¬ oxmCls.writes vs (j :: q) x := by
  intro h
  simp only [oxmCls] at h
  split at h
  · rcases h with ⟨h, _⟩ | ⟨h, _⟩
    · simp only [List.cons.injEq] at h; exact h1 h.1
    · simp only [List.cons.injEq] at h; exact h2 h.1
  · exact h

/-- Reading an attribute of a TLV that is never assigned. -/
theorem At.get {C : Ctx} {p : Path} {c : String} {vs : List Val} {s : Path → Val → Prop} (h : At C p (.obj c vs) s) (h0 : ∀ x, ¬ s [] x)
    {j : Nat} {v : Val} (hv : vs[j]? = some v) (hs : ∀ q x, ¬ s (j :: q) x) {D : Done} (hD : Allowed C.R D) :
    at? (over C.V D) (p ++ [j]) = some v :=
  (h.child h0 (by rw [at?_obj]; exact hv) (s' := fun q x => s (j :: q) x) (fun _ _ => Iff.rfl)).read_leaf hs hD

theorem safe_oxmCls : SafeCls oxmCls where
  root := oxm_root
  once := by
    intro vs q x y hx hy
    left
    simp only [oxmCls] at hx hy
    split at hx
    · rcases hx with ⟨rfl, i, k, h1, h2, rfl⟩ | ⟨rfl, b, h1, rfl⟩
      · rcases hy with ⟨_, i', k', h1', h2', rfl⟩ | ⟨h, _⟩
        · rw [h1] at h1'; rw [h2] at h2'; cases h1'; cases h2'; rfl
        · cases h
      · rcases hy with ⟨h, _⟩ | ⟨_, b', h1', rfl⟩
        · cases h
        · rw [h1] at h1'; cases h1'; rfl
    · exact hx.elim
  size := by
    intro C p vs K h
    have := sizes_good h (oxm_root vs) (safe_leaves V04.oxmFields) (K := K) ?_
    · rw [leaves_fields] at this; exact this
    · intro j f hf
      by_cases h1 : j = 1
      · subst h1; cases hf; exact Or.inr ⟨1, _, rfl, fun _ => rfl⟩
      by_cases h2 : j = 2
      · subst h2; cases hf; exact Or.inr ⟨1, _, rfl, fun _ => rfl⟩
      exact Or.inl fun q x => ⟨fun h => (oxm_other h1 h2 h).elim, fun h => (leaves_no h).elim⟩
  pack := by
    intro C p vs K h
    by_cases hl : vs.length = 6
    · obtain ⟨c, a, b, v, f, m, rfl⟩ : ∃ c a b v f m, vs = [c, a, b, v, f, m] := by
        match vs, hl with
        | [c, a, b, v, f, m], _ => exact ⟨c, a, b, v, f, m, rfl⟩
      simp only [oxmCls, List.length_cons, List.length_nil, Nat.reduceAdd, if_true]
      intro D _ hD
      refine ⟨c, h.get (oxm_root _) rfl (fun q x => oxm_other (by decide) (by decide)) hD, Or.inl ?_⟩
      intro D _ hD
      refine ⟨f, h.get (oxm_root _) rfl (fun q x => oxm_other (by decide) (by decide)) hD, Or.inl ?_⟩
      cases hi : V04.oxmFieldInt c f with
      | error e => simp only [hi]; exact ⟨by simp [V04.oxmPack, V04.oxmPrep, hi], Frame.refl⟩
      | ok i =>
        simp only [hi]
        intro D _ hD
        refine ⟨m, h.get (oxm_root _) rfl (fun q x => oxm_other (by decide) (by decide)) hD, Or.inl ?_⟩
        cases hk : cmpNum m with
        | none => simp only [hk]; exact ⟨by simp [V04.oxmPack, V04.oxmPrep, hi, hk], Frame.refl⟩
        | some k =>
          simp only [hk]
          refine ⟨(h.here [1] _).2 (Or.inl ⟨rfl, i, k, hi, hk, rfl⟩), clear_child h.clear (h.root (oxm_root _)) 1, ⟨h.mine [1], p, 1, _, rfl, h.val⟩, ?_⟩
          intro K1 hK1 hk1
          intro D _ hD
          refine ⟨v, h.get (oxm_root _) rfl (fun q x => oxm_other (by decide) (by decide)) hD, Or.inl ?_⟩
          cases hb : (binAttr).pack v with
          | error e => simp only [hb]; exact ⟨by simp [V04.oxmPack, V04.oxmPrep, hi, hk, hb], hk1.frame⟩
          | ok payload =>
            simp only [hb]
            refine ⟨(h.here [2] _).2 (Or.inr ⟨rfl, payload, hb, rfl⟩), clear_child h.clear (h.root (oxm_root _)) 2, ⟨h.mine [2], p, 2, _, rfl, h.val⟩, ?_⟩
            intro K2 hK2 hk2
            have hp := packs_good h (oxm_root _) (safe_leaves V04.oxmFields)
              [(1, .int (i * 2 + k % 2)), (2, .int payload.length)] ?_ 
              [c, .int (i * 2 + k % 2), .int payload.length, v, f, m] rfl ?_
              K2 K ?_ (hk1.frame.trans hk2.frame)
            · refine hp.mono ?_
              rintro K' r ⟨rfl, _, hF⟩
              exact ⟨by simp [V04.oxmPack, V04.oxmPrep, hi, hk, hb, leaves_fields], hF⟩
            · intro j f hf
              by_cases h1 : j = 1
              · subst h1; cases hf; exact Or.inr ⟨rfl, _, rfl⟩
              by_cases h2 : j = 2
              · subst h2; cases hf; exact Or.inr ⟨rfl, _, rfl⟩
              refine Or.inl ⟨?_, fun q x => ⟨fun h => (oxm_other h1 h2 h).elim, fun h => (leaves_no h).elim⟩⟩
              have e1 : (j == 1) = false := by simpa using h1
              have e2 : (j == 2) = false := by simpa using h2
              simp only [List.lookup, e1, e2]
            · intro j w hw
              match j, hw with
              | 0, hw => exact hw
              | 1, hw => simp at hw; exact hw.symm
              | 2, hw => simp at hw; exact hw.symm
              | 3, hw => exact hw
              | 4, hw => exact hw
              | 5, hw => exact hw
              | n + 6, hw => simp at hw
            · intro j x hx
              by_cases h1 : j = 1
              · subst h1; cases hx
                rw [hk2 _ .child (by simp)]; exact hK1
              by_cases h2 : j = 2
              · subst h2; cases hx
                exact hK2
              have e1 : (j == 1) = false := by simpa using h1
              have e2 : (j == 2) = false := by simpa using h2
              simp only [List.lookup, e1, e2] at hx
              cases hx
    · simp only [oxmCls, hl, if_false]
      refine ⟨?_, Frame.refl⟩
      simp only [V04.oxmPack]
      have : V04.oxmPrep vs = .error .unmodelled := by
        match vs, hl with
        | [], _ | [_], _ | [_, _], _ | [_, _, _], _ | [_, _, _, _], _ | [_, _, _, _, _], _ | _ :: _ :: _ :: _ :: _ :: _ :: _ :: _, _ => rfl
        | [_, _, _, _, _, _], h => exact absurd rfl h
      rw [this]

theorem safe_oxm : Safe oxmP := by
  refine safe_oneOf (by intro k hk; simp at hk; subst hk; exact safe_oxmCls) ?_
  intro k hk vs _
  simp at hk; subst hk
  exact ⟨by simp [V04.oxm, oxmCls], by simp [V04.oxm, oxmCls]⟩

theorem safe_oxms : Safe oxmsP := safe_list (classOnly_obj _) safe_oxm (fun _ _ => rfl)

/-! ## Match -/

theorem matchFieldsP_fields : matchFieldsP.fields = V04.matchFields := rfl

theorem safe_matchFields : ∀ f ∈ matchFieldsP, Safe f.2 :=
  safe_leavesBut (by intro a ha; simp at ha; subst ha; exact safe_oxms) _

theorem slot_match : Slot matchFieldsP 1 := ⟨by intro f hf; cases hf; exact ⟨2, _, rfl, fun _ => rfl⟩⟩

theorem safe_matchCls : SafeCls matchCls where
  root := fun vs x => auto_root (name := "04.Match") (fs := matchFieldsP) (i := 1) vs x
  once := auto_once (name := "04.Match") safe_matchFields slot_match
  size := by
    intro C p vs K h
    refine (sizes_slot h safe_matchFields slot_match (auto_root (name := "04.Match") vs) (auto_other (name := "04.Match") vs) K).andThen ?_ ?_
    · rintro K' e he rfl
      rw [matchFieldsP_fields] at he
      exact ⟨by simp [matchCls, V04.matchSize, he], rfl⟩
    · rintro K' n hn rfl
      rw [matchFieldsP_fields] at hn
      exact ⟨by simp [matchCls, V04.matchSize, hn], rfl⟩
  pack := by
    intro C p vs K h
    have hsz := fun K => sizes_slot h safe_matchFields slot_match (auto_root (name := "04.Match") vs) (auto_other (name := "04.Match") vs) K
    rw [matchFieldsP_fields] at hsz
    refine (hsz K).andThen ?_ ?_
    · rintro K' e he rfl
      exact ⟨by simp [matchCls, V04.matchPack, withLength, he], Frame.refl⟩
    · rintro K' n hn rfl
      have hn' : sizeAttrs V04.matchFields (vs.set 1 (.int n)) = .ok n := by
        rw [← hn]
        match vs with
        | [] | [_] => rfl
        | a :: b :: vs => simp [List.set, V04.matchFields, sizeAttrs, ubint]
      refine ⟨(h.here [1] _).2 (Or.inl ⟨rfl, n, hn, rfl⟩), clear_child h.clear (h.root (auto_root (name := "04.Match") vs)) 1, ⟨h.mine [1], p, 1, _, rfl, h.val⟩, ?_⟩
      intro K2 hK2 hk2
      refine (packs_slot h safe_matchFields slot_match (auto_root (name := "04.Match") vs) (auto_other (name := "04.Match") vs) (.int n) _ K'
        hK2 hk2.frame).andThen ?_ ?_
      · rintro K'' e he ⟨_, hF⟩
        rw [matchFieldsP_fields] at he
        exact ⟨by simp [matchCls, V04.matchPack, withLength, hn, he], hF⟩
      · rintro K'' b hb ⟨_, hF⟩
        rw [matchFieldsP_fields] at hb
        refine (hsz K'').andThen ?_ ?_
        · rintro K3 e he _
          rw [hn] at he; cases he
        · rintro K3 s hs rfl
          rw [hn] at hs; cases hs
          exact ⟨by simp [matchCls, V04.matchPack, withLength, hn, hb, hn'], hF⟩

theorem safe_match : Safe matchP := by
  refine safe_oneOf (by intro k hk; simp at hk; subst hk; exact safe_matchCls) ?_
  intro k hk vs _
  simp at hk; subst hk
  exact ⟨by simp [V04.match, matchCls], by simp [V04.match, matchCls]⟩

/-! ## Actions -/

theorem safe_actionCls (s : Sub) : SafeCls (actionCls s) where
  root := fun _ _ h => h
  once := fun _ _ _ h => h.elim
  pack := by
    intro C p vs K h
    have h' : At C p (.obj s.name vs) (fieldWrites (leaves s.fields) vs) :=
      ⟨h.val, fun q x => (h.here q x).trans ⟨fun h => h.elim, fun h => (leaves_no h).elim⟩, h.clear, h.mine⟩
    have := packs_plain h' (safe_leaves s.fields) K
    rw [leaves_fields] at this
    exact this
  size := by
    intro C p vs K h
    have h' : At C p (.obj s.name vs) (fieldWrites (leaves s.fields) vs) :=
      ⟨h.val, fun q x => (h.here q x).trans ⟨fun h => h.elim, fun h => (leaves_no h).elim⟩, h.clear, h.mine⟩
    have := sizes_plain h' (safe_leaves s.fields) K
    rw [leaves_fields] at this
    refine this.andThen ?_ ?_
    · rintro K' e he rfl
      exact ⟨by simp [actionCls, V04.actionSize, he], rfl⟩
    · rintro K' n hn rfl
      exact ⟨by simp [actionCls, V04.actionSize, hn], rfl⟩

theorem setFieldP_fields : setFieldFieldsP.fields = V04.setFieldFields := rfl

theorem safe_setFieldFields : ∀ f ∈ setFieldFieldsP, Safe f.2 :=
  safe_leavesBut (by intro a ha; simp at ha; subst ha; exact safe_oxm) _

theorem slot_setField : Slot setFieldFieldsP 1 := ⟨by intro f hf; cases hf; exact ⟨2, _, rfl, fun _ => rfl⟩⟩

theorem setField_root (vs : List Val) (x : Val) : ¬ setFieldCls.writes vs [] x := by
  intro h
  simp only [setFieldCls] at h
  split at h
  · rcases h with ⟨h, _⟩ | h
    · cases h
    · exact h
  · exact h

theorem setField_other (t l f : Val) (j : Nat) (hj : j ≠ 1) (q : Path) (x : Val) :
    setFieldCls.writes [t, l, f] (j :: q) x ↔ fieldWrites setFieldFieldsP [t, l, f] (j :: q) x := by
  simp only [setFieldCls]
  constructor
  · rintro (⟨h, _⟩ | h)
    · simp only [List.cons.injEq] at h; exact absurd h.1 hj
    · exact h
  · exact Or.inr

theorem ceil8_of {n : Nat} (h : n % 8 = 0) : ceil8 n = n := by unfold ceil8; omega

theorem safe_setFieldCls : SafeCls setFieldCls where
  root := setField_root
  once := by
    intro vs q x y hx hy
    simp only [setFieldCls] at hx hy
    split at hx
    · rename_i t l f
      have one : ∀ x, (∃ b, V04.oxm.pack f = .ok b ∧ (x = Val.int (4 + b.length : Nat) ∨ x = Val.int (ceil8 (4 + b.length)))) →
          ∀ y, (∃ b, V04.oxm.pack f = .ok b ∧ (y = Val.int (4 + b.length : Nat) ∨ y = Val.int (ceil8 (4 + b.length)))) → x = y ∨ PadLen (.obj "04.ActionSetField" [t, l, f]) [1] := by
        rintro x ⟨b, hb, hx⟩ y ⟨b', hb', hy⟩
        rw [hb] at hb'; cases hb'
        by_cases h8 : b.length % 8 = 4
        case neg => exact Or.inr ⟨[], rfl, t, l, f, b, rfl, hb, h8⟩
        left
        have hc : ceil8 (4 + b.length) = 4 + b.length := ceil8_of (by omega)
        rw [hc] at hx hy
        rcases hx with rfl | rfl <;> rcases hy with rfl | rfl <;> rfl
      rcases hx with ⟨rfl, hx⟩ | hx
      · rcases hy with ⟨_, hy⟩ | hy
        · exact one x hx y hy
        · exact (slot_setField.no hy).elim
      · rcases hy with ⟨rfl, hy⟩ | hy
        · exact (slot_setField.no hx).elim
        · exact fieldWrites_once safe_setFieldFields q x y hx hy
    · exact hx.elim
  size := by
    intro C p vs K h
    by_cases hl : vs.length = 3
    · obtain ⟨t, l, f, rfl⟩ : ∃ t l f, vs = [t, l, f] := by
        match vs, hl with
        | [t, l, f], _ => exact ⟨t, l, f, rfl⟩
      refine (sizes_slot h safe_setFieldFields slot_setField (setField_root _) (setField_other t l f) K).andThen ?_ ?_
      · rintro K' e he rfl
        rw [setFieldP_fields] at he
        exact ⟨by simp [setFieldCls, V04.actionSize, he], rfl⟩
      · rintro K' n hn rfl
        rw [setFieldP_fields] at hn
        exact ⟨by simp [setFieldCls, V04.actionSize, hn], rfl⟩
    · have hno : ∀ q x, ¬ setFieldCls.writes vs q x := by
        intro q x hx
        simp only [setFieldCls] at hx
        split at hx
        · exact hl rfl
        · exact hx
      refine (sizeFields_good setFieldFieldsP vs 0 K ?_).andThen ?_ ?_
      · intro k f w hf hw
        rw [Nat.zero_add]
        have hr := fun {D} (hD : Allowed C.R D) => h.get (setField_root vs) hw (fun q x => hno _ _) hD
        match k, hf with
        | 0, hf => cases hf; intro D _ hD; exact ⟨w, hr hD, Or.inl ⟨rfl, rfl⟩⟩
        | 1, hf => cases hf; intro D _ hD; exact ⟨w, hr hD, Or.inl ⟨rfl, rfl⟩⟩
        | 2, hf =>
          cases hf
          intro D _ hD
          refine ⟨w, hr hD, Or.inl ?_⟩
          cases w <;> try exact ⟨rfl, rfl⟩
          rename_i c us
          show Good C (match List.find? (fun k => k.name == c) [oxmCls] with
            | some k => k.sizeP (p ++ [2]) us.length
            | none => .ret (V04.oxm.size (.obj c us))) K _
          by_cases hc : c = "04.OxmTLV"
          · subst hc
            have hA : At C (p ++ [2]) (.obj "04.OxmTLV" us) (fun _ _ => False) :=
              h.child (setField_root vs) (by rw [at?_obj]; exact hw) (fun q x => ⟨fun h => hno _ _ h, fun h => h.elim⟩)
            have := sizes_plain (fs := leaves V04.oxmFields)
              ⟨hA.val, fun q x => (hA.here q x).trans ⟨fun h => h.elim, fun h => (leaves_no h).elim⟩, hA.clear, hA.mine⟩ (safe_leaves _) K
            rw [leaves_fields] at this
            refine this.mono ?_
            rintro K' b ⟨rfl, rfl⟩
            exact ⟨by simp [oxmP, oneOf, V04.oxm], rfl⟩
          · have : List.find? (fun k => k.name == c) [oxmCls] = none := by
              have : ("04.OxmTLV" == c) = false := by simpa using fun h => hc h.symm
              simp [List.find?, oxmCls, this]
            rw [this]
            exact ⟨rfl, rfl⟩
        | n + 3, hf => simp [setFieldFieldsP, leavesBut, V04.setFieldFields, V04.actionHead] at hf
      · rintro K' e he rfl
        rw [setFieldP_fields] at he
        exact ⟨by simp [setFieldCls, V04.actionSize, he], rfl⟩
      · rintro K' n hn rfl
        rw [setFieldP_fields] at hn
        exact ⟨by simp [setFieldCls, V04.actionSize, hn], rfl⟩
  pack := by
    intro C p vs K h
    by_cases hl : vs.length = 3
    · obtain ⟨t, l, f, rfl⟩ : ∃ t l f, vs = [t, l, f] := by
        match vs, hl with
        | [t, l, f], _ => exact ⟨t, l, f, rfl⟩
      have hf : At C (p ++ [2]) f (oxmP.writes f) :=
        h.field (setField_root _) (fs := setFieldFieldsP) (j := 2) (f := ("field", oxmP)) rfl rfl (setField_other t l f 2 (by decide))
      simp only [setFieldCls, List.length_cons, List.length_nil, Nat.reduceAdd, if_true]
      intro D _ hD
      obtain ⟨h1, h2⟩ := hf.read hD
      refine ⟨_, h1, Or.inl ?_⟩
      have h0 := At.none (C := C) (v := f) (fun x => safe_oxm.root f x) h2
      by_cases ho : ∃ c us, f = .obj c us
      · obtain ⟨c, us, rfl⟩ := ho
        rw [over_obj h0]
        refine (safe_oxm.pack K hf).andThen ?_ ?_
        · intro K' e he hF
          have he' : V04.oxm.pack (.obj c us) = .error e := he
          exact ⟨by simp [V04.setFieldPack, V04.setFieldPrep, he'], hF.up⟩
        · intro K' b hb hF
          have hb' : V04.oxm.pack (.obj c us) = .ok b := hb
          have rest : ∀ K2, Frame C p K K2 → K2 (p ++ [1]) = some (.int (ceil8 (4 + b.length))) →
              Good C ((packFields p setFieldFieldsP 0 3).andThen fun r => .get (p ++ [1]) fun l =>
                match l with
                | .int k => .ret (.ok (fill k.toNat r))
                | _ => .ret (.error .unmodelled)) K2
                (fun K' r => r = V04.setFieldPack [t, l, .obj c us] ∧ Frame C p K K') := by
            intro K2 hF2 hK2
            refine (packs_slot h safe_setFieldFields slot_setField (setField_root _) (setField_other t l _) _ K2 K hK2 hF2).andThen ?_ ?_
            · rintro K3 e he ⟨_, hF3⟩
              rw [setFieldP_fields] at he
              simp only [List.set] at he
              exact ⟨by simp [V04.setFieldPack, V04.setFieldPrep, hb', he], hF3⟩
            · rintro K3 r hr ⟨hK3, hF3⟩
              rw [setFieldP_fields] at hr
              simp only [List.set] at hr
              intro D hM hD
              obtain ⟨i1, i2⟩ := (h.child (setField_root _) (j := 1) (u := l) (by rw [at?_obj]; rfl)
                (s' := fun q x => setFieldCls.writes [t, l, .obj c us] (1 :: q) x) (fun _ _ => Iff.rfl)).read hD
              have i3 : D (p ++ [1]) = some (.int (ceil8 (4 + b.length))) := C.le K3 D hM _ _ hK3
              rw [over_some (v := l) (D := fun q => D (p ++ [1] ++ q)) (x := .int (ceil8 (4 + b.length))) (by simpa using i3)] at i1
              refine ⟨_, i1, Or.inl ?_⟩
              exact ⟨by simp [V04.setFieldPack, V04.setFieldPrep, hb', hr], hF3⟩
          have clear := clear_child h.clear (h.root (setField_root _)) 1
          refine ⟨(h.here [1] _).2 (Or.inl ⟨rfl, b, hb', Or.inl rfl⟩), clear, ⟨h.mine [1], p, 1, _, rfl, h.val⟩, ?_⟩
          intro K4 hK4 hk4
          by_cases h8 : (4 + b.length) % 8 = 0
          · simp only [h8, if_true]
            refine rest _ (hF.up.trans hk4.frame) ?_
            rw [ceil8_of h8]; exact hK4
          · simp only [h8, if_false]
            refine ⟨(h.here [1] _).2 (Or.inl ⟨rfl, b, hb', Or.inr rfl⟩), clear, ⟨h.mine [1], p, 1, _, rfl, h.val⟩, ?_⟩
            intro K5 hK5 hk5
            exact rest _ ((hF.up.trans hk4.frame).trans hk5.frame) hK5
      · have hno : ∀ q x, ¬ oxmP.writes f q x := by
          intro q x hx
          cases f <;> first | exact hx | exact ho ⟨_, _, rfl⟩
        have he : over f (fun q => D (p ++ [2] ++ q)) = f := by
          refine over_id _ _ fun q => ?_
          cases hq : D (p ++ [2] ++ q) with
          | none => rfl
          | some x => exact absurd (h2 q x hq) (hno q x)
        rw [he]
        cases f <;> first | exact ⟨rfl, Frame.refl⟩ | exact absurd ⟨_, _, rfl⟩ ho
    · simp only [setFieldCls, hl, if_false]
      refine ⟨?_, Frame.refl⟩
      have : V04.setFieldPrep vs = .error .unmodelled := by
        match vs, hl with
        | [], _ | [_], _ | [_, _], _ => rfl
        | _ :: _ :: c :: _ :: _, _ => cases c <;> rfl
        | [_, _, _], h => exact absurd rfl h
      simp [V04.setFieldPack, this]

/-- Families of classes. -/
theorem safe_family {proto : Val} {ref : Ref} {trunc : Bool} {pick : Nat → Res Sub} {subs : List Sub} (g : Sub → PCls)
    (hn : ∀ s, (g s).name = s.name) (hs : ∀ s ∈ subs, SafeCls (g s))
    (hp : ∀ s ∈ subs, (g s).pack = s.pack ∧ (g s).size = s.size) :
    Safe (oneOf (variantAttr proto ref trunc pick subs) (subs.map g)) := by
  refine safe_oneOf (by intro k hk; obtain ⟨s, hs', rfl⟩ := List.mem_map.1 hk; exact hs s hs') ?_
  intro k _ vs hf
  rw [List.find?_map] at hf
  obtain ⟨s, h1, rfl⟩ := Option.map_eq_some_iff.1 hf
  have h2 : subOf subs (g s).name = some s := by
    rw [← h1]; unfold subOf; congr 1; funext s'; simp [hn]
  have h3 := hp s (List.mem_of_find?_eq_some h1)
  exact ⟨by simp [variantAttr, h2, h3.1], by simp [variantAttr, h2, h3.2]⟩

theorem safe_action : Safe actionP := by
  refine safe_family (fun s => if s.name = "04.ActionSetField" then setFieldCls else actionCls s) ?_ ?_ ?_
  · intro s
    by_cases h : s.name = "04.ActionSetField"
    · simp [h, setFieldCls]
    · simp [h, actionCls]
  · intro s _
    by_cases h : s.name = "04.ActionSetField"
    · simp [h, safe_setFieldCls]
    · simp only [h, if_false]; exact safe_actionCls s
  · intro s hs
    simp only [V04.actionSubs, V04.actionClasses, List.map_cons, List.map_nil, List.mem_cons, List.not_mem_nil, or_false] at hs
    rcases hs with rfl | rfl | rfl | rfl | rfl | rfl | rfl | rfl | rfl | rfl | rfl | rfl | rfl | rfl | rfl | rfl <;> exact ⟨rfl, rfl⟩

theorem safe_actions : Safe actionsP := safe_list (classOnly_sub _) safe_action (fun _ _ => rfl)

theorem safe_instructions : Safe instructionsP := by
  refine safe_list (classOnly_sub _) ?_ (fun _ _ => rfl)
  refine safe_family (fun s => autoCls s.name (leavesBut [("actions", actionsP)] s.fields) 1) (fun _ => rfl) ?_ ?_
  · intro s hs
    refine safe_auto (safe_leavesBut (by intro a ha; simp at ha; subst ha; exact safe_actions) _) ⟨?_⟩
    simp only [V04.instructionSubs, List.mem_cons, List.not_mem_nil, or_false] at hs
    rcases hs with rfl | rfl | rfl | rfl | rfl | rfl | rfl <;> (intro f hf; cases hf; exact ⟨2, _, rfl, fun _ => rfl⟩)
  · intro s hs
    simp only [V04.instructionSubs, List.mem_cons, List.not_mem_nil, or_false] at hs
    rcases hs with rfl | rfl | rfl | rfl | rfl | rfl | rfl <;> exact ⟨rfl, rfl⟩

/-! ## Buckets and hello elements -/

theorem safe_bucketFields : ∀ f ∈ bucketFieldsP, Safe f.2 :=
  safe_leavesBut (by intro a ha; simp at ha; subst ha; exact safe_bare safe_action) _

theorem bucketFieldsP_fields : bucketFieldsP.fields = V04.bucketFields := rfl

theorem safe_bucketCls : SafeCls bucketCls where
  root := fun _ _ h => h
  once := fieldWrites_once safe_bucketFields
  pack := fun K h => packs_plain h safe_bucketFields K
  size := by
    intro C p vs K h
    cases vs with
    | nil => exact ⟨rfl, rfl⟩
    | cons l vs =>
      intro D hM hD
      refine ⟨l, h.get (root_fields bucketFieldsP (l :: vs)) rfl ?_ hD, Or.inl ?_⟩
      · rintro q x ⟨f, v, h1, _, h3⟩
        cases h1; exact h3
      · have hsz := sizes_plain h safe_bucketFields K
        rw [bucketFieldsP_fields] at hsz
        by_cases hl : l = .none
        · subst hl; exact hsz
        · have hb : V04.bucketSize (l :: vs) = (match cmpNum l with
            | some i => (if 0 ≤ i then .ok i.toNat else .error .unmodelled)
            | none => .error .type) := by
            cases l <;> first | rfl | exact absurd rfl hl
          have : (bucketCls.size (l :: vs)) = V04.bucketSize (l :: vs) := rfl
          simp only [this, hb]
          cases l <;> first | exact absurd rfl hl | (cases cmpNum _ <;> exact ⟨rfl, rfl⟩)

theorem safe_buckets : Safe bucketsP := by
  refine safe_list (classOnly_obj _) ?_ (fun _ _ => rfl)
  refine safe_oneOf (by intro k hk; simp at hk; subst hk; exact safe_bucketCls) ?_
  intro k hk vs _
  simp at hk; subst hk
  exact ⟨by simp [V04.bucket, bucketCls, lengthCut, structAttr], by simp [V04.bucket, bucketCls, lengthCut]⟩

theorem safe_helloElems : Safe helloElemsP := by
  refine safe_list (classOnly_obj _) ?_ (fun _ _ => rfl)
  refine safe_oneOf (by
    intro k hk; simp at hk; subst hk
    exact safe_auto (safe_leaves _) ⟨by intro f hf; cases hf; exact ⟨2, _, rfl, fun _ => rfl⟩⟩) ?_
  intro k hk vs _
  simp at hk; subst hk
  exact ⟨by simp [V04.helloElem, helloElemCls, autoCls, lengthCut, autoStruct, leaves_fields],
    by simp [V04.helloElem, helloElemCls, autoCls, lengthCut, autoStruct, structAttr, leaves_fields]⟩

end Pyof.Threads
