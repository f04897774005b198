import Verif.Spec.Assign
import Verif.Lemmas.ThreadsSize
/-!
# Attributes that are assigned while a message is packed
-/
namespace Pyof.Threads

/-! ## The loops, when others assign -/

/-- `us` differs from `vs` only as `P` says. -/
def Near2 (P : Nat → Val → Val → Prop) (vs us : List Val) : Prop :=
  us.length = vs.length ∧ ∀ (k : Nat) (w w' : Val), vs[k]? = some w → us[k]? = some w' → P k w w'

theorem near2_refl {P : Nat → Val → Val → Prop} (hP : ∀ k w, P k w w) (vs : List Val) : Near2 P vs vs :=
  ⟨rfl, fun k w w' h h' => by rw [h] at h'; cases h'; exact hP k w⟩

theorem near2_cons {P : Nat → Val → Val → Prop} {v u : Val} {vs us : List Val} (h : P 0 v u) (h' : Near2 (fun k => P (k + 1)) vs us) :
    Near2 P (v :: vs) (u :: us) := by
  refine ⟨by simp [h'.1], ?_⟩
  intro k w w' hw hw'
  cases k with
  | zero => cases hw; cases hw'; exact h
  | succ k => exact h'.2 k w w' (by simpa using hw) (by simpa using hw')

theorem packFields_mix {C : Ctx} {p : Path} {Inv : Done → Prop} : ∀ (fs : PFields) (ws : List Val) (P : Nat → Val → Val → Prop) (j : Nat) (K : Done),
    (∀ k w, P k w w) → Inv K →
    (∀ (k : Nat) (f : String × PAttr) (w : Val), fs[k]? = some f → ws[k]? = some w → ∀ K, Inv K →
      Good C (f.2.packP (p ++ [j + k])) K (fun K' b => (∃ w', P k w w' ∧ b = f.2.attr.pack w') ∧ Inv K')) →
    Good C (packFields p fs j ws.length) K (fun K' b => (∃ us, Near2 P ws us ∧ b = packAttrs fs.fields us) ∧ Inv K')
  | [], ws, P, j, K, hP, hK, h => by
    simp only [packFields, Good]; exact ⟨⟨ws, near2_refl hP ws, by simp [PFields.fields, packAttrs]⟩, hK⟩
  | (s, c) :: fs, [], P, j, K, hP, hK, h => by
    simp only [packFields, List.length_nil, Good]; exact ⟨⟨[], near2_refl hP [], by simp [PFields.fields, packAttrs]⟩, hK⟩
  | (s, c) :: fs, w :: ws, P, j, K, hP, hK, h => by
    simp only [packFields, List.length_cons]
    refine (h 0 (s, c) w rfl rfl K hK).bind ?_
    rintro K' b ⟨⟨w', hw', rfl⟩, hI⟩
    cases hb : c.attr.pack w' with
    | error e =>
      simp only [hb, Good]
      exact ⟨⟨w' :: ws, near2_cons hw' (near2_refl (fun k => hP (k + 1)) ws), by simp [PFields.fields, packAttrs, hb]⟩, hI⟩
    | ok b =>
      simp only [hb]
      refine (packFields_mix fs ws (fun k => P (k + 1)) (j + 1) K' (fun k => hP (k + 1)) hI ?_).bind ?_
      · intro k f w hf hw K hK
        have := h (k + 1) f w (by simpa using hf) (by simpa using hw) K hK
        rwa [show j + (k + 1) = j + 1 + k by omega] at this
      · rintro K'' r ⟨⟨us, hus, rfl⟩, hI⟩
        simp only [PFields.fields]
        cases hr : packAttrs (fs.map fun p => (p.1, p.2.attr)) us with
        | error e => simp only [Good]; exact ⟨⟨w' :: us, near2_cons hw' hus, by simp [packAttrs, hb, hr]⟩, hI⟩
        | ok r => simp only [Good]; exact ⟨⟨w' :: us, near2_cons hw' hus, by simp [packAttrs, hb, hr]⟩, hI⟩

/-- Values of equal sizes. -/
theorem sizeAttrs_near {P : Nat → Val → Val → Prop} : ∀ (fs : Fields) (vs us : List Val) , Near2 P vs us →
    (∀ (k : Nat) (f : String × Attr) (w w' : Val), fs[k]? = some f → vs[k]? = some w → P k w w' → f.2.size w' = f.2.size w) →
    sizeAttrs fs us = sizeAttrs fs vs
  | [], vs, us, h, hs => by simp [sizeAttrs]
  | (s, c) :: fs, [], us, h, hs => by
    have : us = [] := List.length_eq_zero_iff.1 h.1
    subst this; rfl
  | (s, c) :: fs, v :: vs, [], h, hs => by simp [Near2] at h
  | (s, c) :: fs, v :: vs, u :: us, h, hs => by
    have h0 := hs 0 (s, c) v u rfl rfl (h.2 0 v u rfl rfl)
    have ih := sizeAttrs_near (P := fun k => P (k + 1)) fs vs us ⟨by simpa using h.1, fun k w w' hw hw' => h.2 (k + 1) w w' (by simpa using hw) (by simpa using hw')⟩
      (fun k f w w' hf hw hp => hs (k + 1) f w w' (by simpa using hf) (by simpa using hw) hp)
    simp only [sizeAttrs]
    dsimp only at h0
    rw [h0, ih]

/-! ## Reading an attribute that others assign -/

theorem read_whole {C : Ctx} {p : Path} {v : Val} (hv : at? C.V p = some v) (hc : Clear C.R p) (hs : ∀ q x, C.R (p ++ q) x → q = []) {D : Done}
    (hD : Allowed C.R D) : ∃ x, at? (over C.V D) p = some x ∧ ((x = v ∧ D p = none) ∨ (D p = some x ∧ C.R p x)) := by
  have h1 : at? (over C.V D) p = some (over v (fun q => D (p ++ q))) := by
    rw [at?_over p C.V D (hc.done hD), hv]; rfl
  refine ⟨_, h1, ?_⟩
  cases hd : D p with
  | some x =>
    refine Or.inr ?_
    rw [over_some (v := v) (x := x) (by simpa using hd)]
    exact ⟨rfl, hD p x hd⟩
  | none =>
    refine Or.inl ⟨over_id _ _ ?_, rfl⟩
    intro q
    cases hq : D (p ++ q) with
    | none => rfl
    | some x =>
      have := hs q x (hD _ _ hq)
      subst this
      simp [hd] at hq

/-- Such an attribute is packed with a value it had. -/
theorem leaf_mix {C : Ctx} {p : Path} {v : Val} {a : Attr} (hv : at? C.V p = some v) (hc : Clear C.R p) (hs : ∀ q x, C.R (p ++ q) x → q = []) (K : Done) :
    Good C ((leafP a).packP p) K (fun K' b => (∃ w', (w' = v ∨ C.R p w') ∧ b = a.pack w') ∧ K' = K) := by
  intro D hM hD
  obtain ⟨x, h1, h2⟩ := read_whole hv hc hs hD
  exact ⟨x, h1, Or.inl ⟨⟨x, h2.imp (·.1) (·.2), rfl⟩, rfl⟩⟩

theorem leaf_size {C : Ctx} {p : Path} {v : Val} {a : Attr} (hv : at? C.V p = some v) (hc : Clear C.R p) (hs : ∀ q x, C.R (p ++ q) x → q = [])
    (hz : ∀ x, C.R p x → a.size x = a.size v) (K : Done) : Good C ((leafP a).sizeP p) K (fun K' b => b = a.size v ∧ K' = K) := by
  intro D hM hD
  obtain ⟨x, h1, h2⟩ := read_whole hv hc hs hD
  refine ⟨x, h1, Or.inl ⟨?_, rfl⟩⟩
  rcases h2 with ⟨rfl, _⟩ | ⟨_, h2⟩
  · rfl
  · exact hz x h2

/-! ## Headers -/

/-- What a header is assigned: single attributes. -/
structure HeadAt (C : Ctx) (hc : String) (hs : List Val) : Prop where
  val : at? C.V [0] = some (.obj hc hs)
  clear : Clear C.R [0]
  root : ∀ x, ¬ C.R [0] x
  single : ∀ i q x, C.R (0 :: i :: q) x → q = []

theorem HeadAt.child {C : Ctx} {hc : String} {hs : List Val} (h : HeadAt C hc hs) {i : Nat} {v : Val} (hv : hs[i]? = some v) :
    at? C.V [0, i] = some v ∧ Clear C.R [0, i] ∧ ∀ q x, C.R ([0, i] ++ q) x → q = [] := by
  refine ⟨?_, clear_child (p := [0]) h.clear h.root i, fun q x hq => h.single i q x hq⟩
  have := at?_append [0] [i] C.V
  rw [h.val] at this
  exact this.trans (by simpa [at?_obj] using hv)

theorem HeadAt.read {C : Ctx} {hc : String} {hs : List Val} (h : HeadAt C hc hs) {D : Done} (hD : Allowed C.R D) :
    at? (over C.V D) [0] = some (.obj hc (overs hs (fun q => D (0 :: q)) 0)) := by
  rw [at?_over [0] C.V D (h.clear.done hD), h.val]
  show some (over (.obj hc hs) fun q => D (0 :: q)) = _
  rw [over_obj]
  cases hd : D [0] with
  | none => rfl
  | some x => exact absurd (hD _ _ hd) (h.root x)

theorem header_fixed (ver : Nat) (types : List Nat) : ∀ (k : Nat) (f : String × Attr), (headerFields ver types)[k]? = some f → ∃ n, ∀ v, f.2.size v = .ok n := by
  intro k f hf
  match k, hf with
  | 0, hf => cases hf; exact ⟨1, fun _ => rfl⟩
  | 1, hf => cases hf; exact ⟨1, fun _ => rfl⟩
  | 2, hf => cases hf; exact ⟨2, fun _ => rfl⟩
  | 3, hf => cases hf; exact ⟨4, fun _ => rfl⟩
  | k + 4, hf => simp [headerFields] at hf

theorem leaves_get {fs : Fields} {k : Nat} {f : String × PAttr} (h : (leaves fs)[k]? = some f) : ∃ a, fs[k]? = some (f.1, a) ∧ f.2 = leafP a := by
  simp only [leaves, List.getElem?_map] at h
  obtain ⟨g, hg, rfl⟩ := Option.map_eq_some_iff.1 h
  exact ⟨g.2, hg, rfl⟩

theorem header_size_mix {C : Ctx} {m : MsgCls} {hc : String} {hs : List Val} (h : HeadAt C hc hs) (K : Done) :
    Good C ((headerP m).sizeP [0]) K (fun K' b => b = (headerAttr m.ver m.types m.code).size (.obj hc hs) ∧ K' = K) := by
  intro D hM hD
  refine ⟨_, h.read hD, Or.inl ?_⟩
  simp only [List.find?, plainCls]
  by_cases hn : hdrName m.ver = hc
  · have e : (hdrName m.ver == hc) = true := by simpa using hn
    simp only [e, overs_length]
    refine (sizeFields_good (C := C) (p := [0]) (leaves (headerFields m.ver m.types)) hs 0 K ?_).mono ?_
    · intro k f w hf hw
      obtain ⟨a, ha, e⟩ := leaves_get hf
      obtain ⟨n, hn⟩ := header_fixed _ _ _ _ ha
      dsimp only at hn
      obtain ⟨h1, h2, h3⟩ := h.child hw
      rw [e, Nat.zero_add]
      exact leaf_size (C := C) (p := [0, k]) h1 h2 h3 (fun x _ => by rw [hn, hn]) K
    · rintro K' b ⟨rfl, rfl⟩
      exact ⟨by simp [headerAttr, structAttr, leaves_fields, hn], rfl⟩
  · have e : (hdrName m.ver == hc) = false := by simpa using hn
    simp only [e]
    refine ⟨?_, rfl⟩
    have hn' : ¬ hc = hdrName m.ver := fun h => hn h.symm
    simp [headerAttr, structAttr, hn']

theorem header_pack_mix {C : Ctx} {m : MsgCls} {hc : String} {a t l x y : Val} (h : HeadAt C hc [a, t, l, x]) (K : Done) (hK : K [0, 2] = some y) :
    Good C ((headerP m).packP [0]) K (fun K' b => (∃ a' t' x', (a' = a ∨ C.R [0, 0] a') ∧ (t' = t ∨ C.R [0, 1] t') ∧ (x' = x ∨ C.R [0, 3] x') ∧
      b = (headerAttr m.ver m.types m.code).pack (.obj hc [a', t', y, x'])) ∧ K' = K) := by
  intro D hM hD
  refine ⟨_, h.read hD, Or.inl ?_⟩
  simp only [List.find?, plainCls]
  by_cases hn : hdrName m.ver = hc
  · have e : (hdrName m.ver == hc) = true := by simpa using hn
    simp only [e, overs_length]
    refine (packFields_mix (C := C) (p := [0]) (Inv := fun K' => K' = K) (leaves (headerFields m.ver m.types)) [a, t, y, x]
      (fun k w w' => w' = w ∨ (k ≠ 2 ∧ C.R [0, k] w')) 0 K (fun _ _ => Or.inl rfl) rfl ?_).mono ?_
    · rintro k f w hf hw _ rfl
      obtain ⟨c, hc', e⟩ := leaves_get hf
      rw [e, Nat.zero_add]
      by_cases h2 : k = 2
      · subst h2
        cases hw
        intro D hM hD
        obtain ⟨h1, h2, h3⟩ := h.child (i := 2) (v := l) rfl
        obtain ⟨z, h4, h5⟩ := read_whole h1 h2 h3 hD
        have h6 : D [0, 2] = some y := C.le _ D hM _ _ hK
        rcases h5 with ⟨_, h5⟩ | ⟨h5, _⟩
        · rw [h5] at h6; cases h6
        · rw [h5] at h6; cases h6
          exact ⟨_, h4, Or.inl ⟨⟨_, Or.inl rfl, rfl⟩, rfl⟩⟩
      · have hw' : [a, t, l, x][k]? = some w := by
          match k, h2, hw with
          | 0, _, hw => exact hw
          | 1, _, hw => exact hw
          | 3, _, hw => exact hw
          | k + 4, _, hw => simp at hw
        obtain ⟨h1, h2', h3⟩ := h.child hw'
        refine (leaf_mix (C := C) (p := [0, k]) h1 h2' h3 _).mono ?_
        rintro K' b ⟨⟨w', hw', rfl⟩, rfl⟩
        exact ⟨⟨w', hw'.imp id (fun h => ⟨h2, h⟩), rfl⟩, rfl⟩
    · rintro K' b ⟨⟨us, ⟨hl, hP⟩, rfl⟩, rfl⟩
      match us, hl with
      | [a', t', y', x'], _ =>
        have e : y' = y := by
          rcases hP 2 y y' rfl rfl with h | h
          · exact h
          · exact absurd rfl h.1
        subst e
        refine ⟨⟨a', t', x', (hP 0 a a' rfl rfl).imp id (·.2), (hP 1 t t' rfl rfl).imp id (·.2), (hP 3 x x' rfl rfl).imp id (·.2), ?_⟩, rfl⟩
        simp [headerAttr, structAttr, leaves_fields, hn]
  · have e : (hdrName m.ver == hc) = false := by simpa using hn
    simp only [e]
    refine ⟨⟨a, t, x, Or.inl rfl, Or.inl rfl, Or.inl rfl, ?_⟩, rfl⟩
    have hn' : ¬ hc = hdrName m.ver := fun h => hn h.symm
    simp [headerAttr, structAttr, hn']

/-! ## GenericMessage.pack -/

theorem header_same (m : MsgCls) (hc : String) (a t l x a' t' l' x' : Val) :
    (headerAttr m.ver m.types m.code).size (.obj hc [a', t', l', x']) = (headerAttr m.ver m.types m.code).size (.obj hc [a, t, l, x]) := by
  simp only [headerAttr, structAttr]
  split <;> rfl

theorem sizes_mix {C : Ctx} {m : MsgCls} {body : PFields} (hb : body.fields = m.body) {hc : String} {hs bs : List Val} (hH : HeadAt C hc hs) (K : Done)
    (hsz : ∀ (k : Nat) (f : String × PAttr) (w : Val), body[k]? = some f → bs[k]? = some w → Good C (f.2.sizeP [k + 1]) K (fun K' b => b = f.2.attr.size w ∧ K' = K)) :
    Good C (sizeFields [] (("header", headerP m) :: body) 0 (bs.length + 1)) K (fun K' b => b = sizeAttrs m.fields (.obj hc hs :: bs) ∧ K' = K) := by
  have hfs : PFields.fields (("header", headerP m) :: body) = m.fields := by
    simp only [MsgCls.fields, ← hb]; rfl
  have := sizeFields_good (C := C) (p := []) (("header", headerP m) :: body) (.obj hc hs :: bs) 0 K ?_
  · rw [hfs] at this; exact this
  · intro k f w hf hw
    cases k with
    | zero => cases hf; cases hw; exact header_size_mix hH K
    | succ k =>
      have := hsz k f w (by simpa using hf) (by simpa using hw)
      simpa [Nat.add_comm] using this

theorem generic_mix {C : Ctx} {m : MsgCls} {body : PFields} (hb : body.fields = m.body) {hc : String} {a t l x : Val} {bs : List Val}
    (hH : HeadAt C hc [a, t, l, x]) (hH2 : C.H [0, 2]) {P : Nat → Val → Val → Prop} (hP : ∀ k w, P k w w)
    (hset : ∀ n : Nat, sizeAttrs m.fields (.obj hc [a, t, l, x] :: bs) = .ok n → C.R [0, 2] (.int n)) (hW : ¬ C.W [0, 2])
    {valid : Prog (Res Unit)} {Inv : Done → Prop} (hi : ∀ K K', Inv K → Kept C [0, 2] K K' → Inv K')
    (hsz : ∀ (k : Nat) (f : String × PAttr) (w : Val), body[k]? = some f → bs[k]? = some w → ∀ K, Inv K →
      Good C (f.2.sizeP [k + 1]) K (fun K' b => b = f.2.attr.size w ∧ K' = K))
    (hpk : ∀ (k : Nat) (f : String × PAttr) (w : Val), body[k]? = some f → bs[k]? = some w → ∀ K, Inv K →
      Good C (f.2.packP [k + 1]) K (fun K' b => (∃ w', P k w w' ∧ b = f.2.attr.pack w') ∧ Inv K' ∧ Frame C [k + 1] K K'))
    (hPs : ∀ (k : Nat) (f : String × PAttr) (w w' : Val), body[k]? = some f → bs[k]? = some w → P k w w' → f.2.attr.size w' = f.2.attr.size w)
    (hvs : ∀ us, Near2 P bs us → m.valid us = m.valid bs)
    (hv : ∀ K, Inv K → Good C valid K (fun K' b => b = m.valid bs ∧ K' = K)) (K : Done) (hK : Inv K) :
    Good C (genericP m body valid bs.length) K (fun _ b => ∃ a' t' x' us, (a' = a ∨ C.R [0, 0] a') ∧ (t' = t ∨ C.R [0, 1] t') ∧
      (x' = x ∨ C.R [0, 3] x') ∧ Near2 P bs us ∧ b = genericPack m (.obj hc [a', t', l, x']) us) := by
  have hfs : PFields.fields (("header", headerP m) :: body) = m.fields := by
    simp only [MsgCls.fields, ← hb]; rfl
  have same : ∀ {K' : Done} {b : Res Bytes}, b = genericPack m (.obj hc [a, t, l, x]) bs → ∃ a' t' x' us, (a' = a ∨ C.R [0, 0] a') ∧ (t' = t ∨ C.R [0, 1] t') ∧
      (x' = x ∨ C.R [0, 3] x') ∧ Near2 P bs us ∧ b = genericPack m (.obj hc [a', t', l, x']) us :=
    fun h => ⟨a, t, x, bs, Or.inl rfl, Or.inl rfl, Or.inl rfl, near2_refl hP bs, h⟩
  have sizes := sizes_mix (m := m) (body := body) hb hH K fun k f w hf hw => hsz k f w hf hw K hK
  refine sizes.andThen ?_ ?_
  · rintro K' e he _
    exact same (K' := K') (by simp [genericPack, he])
  · rintro K' n hn rfl
    intro D hM hD
    refine ⟨_, hH.read hD, Or.inl ?_⟩
    simp only [overs]
    refine ⟨hset n hn, clear_child (p := [0]) hH.clear hH.root 2, ⟨hW, [0], 2, _, rfl, hH.val⟩, ?_⟩
    intro K2 hK2 hk2
    refine (hv _ (hi _ _ hK hk2)).andThen ?_ ?_
    · rintro K3 e he _
      exact same (K' := K3) (by simp [genericPack, hn, setLength, he])
    · rintro K3 _ hu rfl
      have hp := packFields_mix (C := C) (p := []) (Inv := fun K => Inv K ∧ K [0, 2] = some (.int n)) (("header", headerP m) :: body)
        (.obj hc [a, t, .int n, x] :: bs)
        (fun k w w' => match k with
          | 0 => w' = w ∨ ∃ a' t' x', (a' = a ∨ C.R [0, 0] a') ∧ (t' = t ∨ C.R [0, 1] t') ∧ (x' = x ∨ C.R [0, 3] x') ∧ w' = .obj hc [a', t', .int n, x']
          | k + 1 => P k w w') 0 K3 ?_ ⟨hi _ _ hK hk2, hK2⟩ ?_
      · refine hp.mono ?_
        rintro K4 b ⟨⟨us, ⟨hl, hN⟩, rfl⟩, _⟩
        match us, hl with
        | hd :: us, hl =>
          have hl : us.length = bs.length := by simpa using hl
          have hN' : Near2 P bs us := ⟨hl, fun k w w' hw hw' => hN (k + 1) w w' (by simpa using hw) (by simpa using hw')⟩
          have hh : ∃ a' t' x', (a' = a ∨ C.R [0, 0] a') ∧ (t' = t ∨ C.R [0, 1] t') ∧ (x' = x ∨ C.R [0, 3] x') ∧ hd = .obj hc [a', t', .int n, x'] := by
            rcases hN 0 _ hd rfl rfl with h | h
            · exact ⟨a, t, x, Or.inl rfl, Or.inl rfl, Or.inl rfl, h⟩
            · exact h
          obtain ⟨a', t', x', h1, h2, h3, rfl⟩ := hh
          refine ⟨a', t', x', us, h1, h2, h3, hN', ?_⟩
          rw [hfs]
          have hs : sizeAttrs m.fields (.obj hc [a', t', l, x'] :: us) = .ok n := by
            rw [← hn]
            simp only [MsgCls.fields, sizeAttrs, header_same m hc a t l x]
            rw [sizeAttrs_near m.body bs us hN']
            intro k f w w' hf hw hp'
            rw [← hb] at hf
            simp only [PFields.fields, List.getElem?_map] at hf
            obtain ⟨g, hg, rfl⟩ := Option.map_eq_some_iff.1 hf
            exact hPs k g w w' hg hw hp'
          simp [genericPack, hs, setLength, hvs us hN', hu]
      · intro k w
        match k with
        | 0 => exact Or.inl rfl
        | k + 1 => exact hP k w
      · rintro k f w hf hw K3 ⟨i1, i2⟩
        cases k with
        | zero =>
          cases hf; cases hw
          refine (header_pack_mix hH K3 i2).mono ?_
          rintro K4 b ⟨⟨a', t', x', h1, h2, h3, rfl⟩, rfl⟩
          exact ⟨⟨_, Or.inr ⟨a', t', x', h1, h2, h3, rfl⟩, rfl⟩, i1, i2⟩
        | succ k =>
          have := hpk k f w (by simpa using hf) (by simpa using hw) K3 i1
          rw [show ([] : Path) ++ [0 + (k + 1)] = [k + 1] by simp]
          refine this.mono ?_
          rintro K4 b ⟨hb', j1, j2⟩
          refine ⟨hb', j1, ?_⟩
          rw [j2 [0, 2] (Or.inl hH2) (by rintro ⟨t, ht⟩; simp at ht), i2]

/-! ## Message classes -/

theorem swap_cases {m : PMsg} {vs : List Val} {p : Path} {z : Val} (h : Swap m vs p z) :
    (∃ i, p = [0, i] ∧ (i = 0 ∨ i = 1 ∨ i = 3)) ∨ ∃ j n a v, p = [j + 1] ∧ m.body[j]? = some (n, leafP a) ∧ n ≠ "actions_len" ∧ vs[j]? = some v ∧
      a.size z = a.size v ∧ m.cls.valid (vs.set j z) = m.cls.valid vs := by
  unfold Swap at h
  split at h
  · exact Or.inl ⟨_, rfl, h⟩
  · obtain ⟨n, a, v, h1, h2, h3, h4, h5⟩ := h; exact Or.inr ⟨_, n, a, v, rfl, h1, h2, h3, h4, h5⟩
  · exact h.elim

theorem swap_root {m : PMsg} {vs : List Val} {z : Val} : ¬ Swap m vs [] z := by
  intro h; rcases swap_cases h with ⟨_, h, _⟩ | ⟨_, _, _, _, h, _⟩ <;> cases h

theorem swap_head {m : PMsg} {vs : List Val} {z : Val} : ¬ Swap m vs [0] z := by
  intro h; rcases swap_cases h with ⟨_, h, _⟩ | ⟨_, _, _, _, h, _⟩ <;> simp at h

theorem swap_length {m : PMsg} {vs : List Val} {z : Val} : ¬ Swap m vs [0, 2] z := by
  intro h
  rcases swap_cases h with ⟨i, h, hi⟩ | ⟨_, _, _, _, h, _⟩
  · simp at h; omega
  · simp at h

theorem swap_single {m : PMsg} {vs : List Val} {i : Nat} {q : Path} {z : Val} (h : Swap m vs (0 :: i :: q) z) : q = [] := by
  rcases swap_cases h with ⟨i, h, hi⟩ | ⟨_, _, _, _, h, _⟩
  · simp at h; exact h.2
  · simp at h

theorem swap_attr {m : PMsg} {vs : List Val} {j : Nat} {q : Path} {z : Val} (h : Swap m vs ((j + 1) :: q) z) :
    q = [] ∧ ∃ n a v, m.body[j]? = some (n, leafP a) ∧ n ≠ "actions_len" ∧ vs[j]? = some v ∧ a.size z = a.size v ∧
      m.cls.valid (vs.set j z) = m.cls.valid vs := by
  rcases swap_cases h with ⟨i, h, hi⟩ | ⟨_, n, a, v, h, h'⟩
  · simp at h
  · simp only [List.cons.injEq, Nat.add_right_cancel_iff] at h
    obtain ⟨rfl, rfl⟩ := h
    exact ⟨rfl, n, a, v, h'⟩

/-- One attribute of a message. -/
theorem field_mix {m : PMsg} {vs : List Val} {A : Path → Val → Prop} (hA : ∀ p y, A p y → Swap m vs p y) {C : Ctx}
    (hW : ∀ p, C.W p → ∃ z, Swap m vs p z) {k : Nat} {f : String × PAttr} {w : Val} (hf : m.body[k]? = some f) (hw : vs[k]? = some w) (hs : Safe f.2)
    (hV : at? C.V [k + 1] = some w) (hr : ∀ y, ¬ C.R [] y) (hR : ∀ q y, C.R ((k + 1) :: q) y ↔ (f.2.writes w q y ∨ A ((k + 1) :: q) y)) (K : Done) :
    Good C (f.2.sizeP [k + 1]) K (fun K' b => b = f.2.attr.size w ∧ K' = K) ∧
    Good C (f.2.packP [k + 1]) K (fun K' b => (∃ w', (w' = w ∨ A [k + 1] w') ∧ b = f.2.attr.pack w') ∧ Frame C [k + 1] K K') := by
  have hc : Clear C.R [k + 1] := by
    have := clear_child (R := C.R) (p := []) (by intro q i r e; simp at e) hr (k + 1)
    simpa using this
  by_cases hl : ∃ a, f.2 = leafP a
  · obtain ⟨a, ha⟩ := hl
    have h1 : ∀ q y, C.R ([k + 1] ++ q) y → q = [] := by
      intro q y h
      rcases (hR q y).1 h with h | h
      · rw [ha] at h; exact h.elim
      · exact (swap_attr (hA _ _ h)).1
    have h2 : ∀ y, C.R [k + 1] y → A [k + 1] y := by
      intro y h
      rcases (hR [] y).1 h with h | h
      · rw [ha] at h; exact h.elim
      · exact h
    rw [ha]
    refine ⟨leaf_size hV hc h1 ?_ K, (leaf_mix hV hc h1 K).mono ?_⟩
    · intro y hy
      obtain ⟨_, n, b, v, i1, _, i2, i3, _⟩ := swap_attr (hA _ _ (h2 y hy))
      rw [hf] at i1; rw [hw] at i2
      cases i2
      have : leafP a = leafP b := ha.symm.trans (congrArg Prod.snd (Option.some.inj i1))
      have e : a = b := congrArg PAttr.attr this
      rw [e]; exact i3
    · rintro K' b ⟨⟨w', hw', rfl⟩, rfl⟩
      exact ⟨⟨w', hw'.imp id (h2 w'), rfl⟩, Frame.refl⟩
  · have no : ∀ q y, ¬ Swap m vs ((k + 1) :: q) y := by
      intro q y h
      obtain ⟨_, n, b, v, i1, _⟩ := swap_attr h
      rw [hf] at i1
      exact hl ⟨b, congrArg Prod.snd (Option.some.inj i1)⟩
    have hAt : At C [k + 1] w (f.2.writes w) :=
      ⟨hV, fun q y => (hR q y).trans ⟨fun h => h.elim id (fun h => (no q y (hA _ _ h)).elim), Or.inl⟩, hc,
        fun q h => by obtain ⟨z, hz⟩ := hW _ h; exact no q z hz⟩
    refine ⟨hs.size K hAt, (hs.pack K hAt).mono ?_⟩
    rintro K' b ⟨rfl, hF⟩
    exact ⟨⟨w, Or.inl rfl, rfl⟩, hF⟩

/-- What the steps of a message class do while others make the assignments `A`. -/
def MixMsg (m : PMsg) : Prop :=
  ∀ c hc a t l x vs, ∃ R : Path → Val → Prop, Once (.obj c (.obj hc [a, t, l, x] :: vs)) R ∧ (∀ y, ¬ R [] y ∧ ¬ R [0] y) ∧
    (∀ p y, R p y → ∀ z, ¬ Swap m vs p z) ∧
    ∀ A : Path → Val → Prop, (∀ p y, A p y → Swap m vs p y) → ∀ M le K,
      Good ⟨.obj c (.obj hc [a, t, l, x] :: vs), fun p y => R p y ∨ A p y, M, le, (· = [0, 2]), fun p => ∃ z, Swap m vs p z⟩ m.steps K
        (fun _ r => ∃ a' t' x' us, (a' = a ∨ A [0, 0] a') ∧ (t' = t ∨ A [0, 1] t') ∧ (x' = x ∨ A [0, 3] x') ∧
          Near2 (fun k w w' => w' = w ∨ A [k + 1] w') vs us ∧ r = m.cls.pack (.obj c (.obj hc [a', t', l, x'] :: us))) ∧
      (vs.length = m.body.length →
        Good ⟨.obj c (.obj hc [a, t, l, x] :: vs), fun p y => R p y ∨ A p y, M, le, (· = [0, 2]), fun p => ∃ z, Swap m vs p z⟩ m.sizeSteps K
          (fun K' r => r = sizeAttrs m.cls.fields (.obj hc [a, t, l, x] :: vs) ∧ K' = K))

theorem mix_headAt {m : PMsg} {vs : List Val} {A : Path → Val → Prop} (hA : ∀ p y, A p y → Swap m vs p y) {C : Ctx} {c hc : String} {hs bs : List Val}
    {ws : Res (List Val)} {own : Nat → Path → Val → Prop} (hV : C.V = .obj c (.obj hc hs :: bs))
    (hR : C.R = fun p y => msgWrites m.cls (.obj hc hs) ws own p y ∨ A p y) : HeadAt C hc hs where
  val := by rw [hV]; rfl
  clear := by
    have := clear_child (R := C.R) (p := []) (by intro q i r e; simp at e) ?_ 0
    · simpa using this
    · intro y h
      rw [hR] at h
      exact h.elim id fun h => swap_root (hA _ _ h)
  root := by
    intro y h
    rw [hR] at h
    rcases h with h | h
    · have : ([] : Path) = [2] := h.1
      cases this
    · exact swap_head (hA _ _ h)
  single := by
    intro i q y h
    rw [hR] at h
    rcases h with h | h
    · have : i :: q = [2] := h.1
      simp at this; exact this.2
    · exact swap_single (hA _ _ h)

theorem head_alt {m : PMsg} {A : Path → Val → Prop} {hdr : Val} {ws : Res (List Val)} {own : Nat → Path → Val → Prop} {i : Nat} (hi : i ≠ 2) {y : Val}
    (h : msgWrites m.cls hdr ws own [0, i] y ∨ A [0, i] y) : A [0, i] y := by
  rcases h with h | h
  · have : [i] = [2] := h.1
    simp at this; exact absurd this hi
  · exact h

theorem leavesBut_get {special : List (String × PAttr)} {fs : Fields} (hb : (leavesBut special fs).fields = fs) {k : Nat} {f : String × PAttr}
    (h : (leavesBut special fs)[k]? = some f) : fs[k]? = some (f.1, f.2.attr) := by
  have := fields_get h
  rwa [hb] at this

theorem mix_plainMsg {m : MsgCls} {special : List (String × PAttr)} (hs : ∀ a ∈ special, Safe a.2)
    (hb : (leavesBut special m.body).fields = m.body) (hp : m.prep = fun vs => .ok vs) (hv : m.valid = fun _ => .ok ()) :
    MixMsg (plainMsg special m) := by
  intro c hc a t l x vs
  have hf := safe_leavesBut hs m.body
  obtain ⟨own, hown⟩ : ∃ own : Nat → Path → Val → Prop, own = fun j q x => fieldWrites (leavesBut special m.body) vs (j :: q) x := ⟨_, rfl⟩
  obtain ⟨hdr, hhdr⟩ : ∃ hdr, hdr = Val.obj hc [a, t, l, x] := ⟨_, rfl⟩
  have iff : ∀ {k : Nat} {f : String × PAttr} {w : Val}, (leavesBut special m.body)[k]? = some f → vs[k]? = some w → ∀ q y, own k q y ↔ f.2.writes w q y := by
    intro k f w hk hw q y
    rw [hown]
    constructor
    · rintro ⟨f', v', h1, h2, h3⟩
      rw [hk] at h1; rw [hw] at h2; cases h1; cases h2; exact h3
    · intro h; exact ⟨f, w, hk, hw, h⟩
  refine ⟨msgWrites m hdr (.ok vs) own, ?_, fun y => ⟨fun h => h, fun h => ?_⟩, ?_, ?_⟩
  · rw [← hhdr]
    refine msg_once ?_
    intro j q x y h1 h2
    rw [hown] at h1 h2
    exact fieldWrites_once hf (j :: q) x y h1 h2
  · have : ([] : Path) = [2] := h.1
    cases this
  · intro p y h z hz
    match p, h with
    | 0 :: q, h =>
      have : q = [2] := h.1
      subst this
      exact swap_length hz
    | (j + 1) :: q, h =>
      obtain ⟨_, n, b, v, i1, _, i2, _⟩ := swap_attr hz
      have : own j q y := h
      rw [iff (f := (n, leafP b)) i1 i2] at this
      exact this
  · intro A hA M le K
    generalize hC : Ctx.mk _ _ _ _ _ _ = C
    have hV : C.V = .obj c (.obj hc [a, t, l, x] :: vs) := by subst hC; rfl
    have hR : C.R = fun p y => msgWrites m (.obj hc [a, t, l, x]) (.ok vs) own p y ∨ A p y := by subst hC; rw [hhdr]
    have hW : ∀ p, C.W p → ∃ z, Swap (plainMsg special m) vs p z := by subst hC; exact fun _ h => h
    have hH2 : C.H [0, 2] := by subst hC; rfl
    have hH := mix_headAt (m := plainMsg special m) hA hV hR
    have hr : ∀ y, ¬ C.R [] y := by
      intro y h
      rw [hR] at h
      exact h.elim id fun h => swap_root (hA _ _ h)
    have hfield : ∀ {k : Nat} {f : String × PAttr} {w : Val} (hk : (leavesBut special m.body)[k]? = some f) (hw : vs[k]? = some w) (K : Done),
        Good C (f.2.sizeP [k + 1]) K (fun K' b => b = f.2.attr.size w ∧ K' = K) ∧
        Good C (f.2.packP [k + 1]) K (fun K' b => (∃ w', (w' = w ∨ A [k + 1] w') ∧ b = f.2.attr.pack w') ∧ Frame C [k + 1] K K') := by
      intro k f w hk hw K
      refine field_mix (m := plainMsg special m) hA hW hk hw (hf f (List.mem_of_getElem? hk)) ?_ hr ?_ K
      · rw [hV, at?_obj]; simpa using hw
      · intro q y
        rw [hR]
        show own k q y ∨ _ ↔ _
        rw [iff hk hw]
    have h0 : ∀ D, Allowed C.R D → at? (over C.V D) [] = some (.obj c (overs (.obj hc [a, t, l, x] :: vs) D 0)) := by
      intro D hD
      rw [hV, over_obj]
      · rfl
      · cases hd : D [] with
        | none => rfl
        | some y => exact absurd (hD _ _ hd) (hr y)
    refine ⟨?_, fun _ D hM hD => ⟨_, h0 D hD, Or.inl ?_⟩⟩
    rotate_left
    · simp only [overs, overs_length]
      exact sizes_mix (m := m) hb hH K fun k f w hk hw => (hfield hk hw K).1
    intro D hM hD
    refine ⟨_, h0 D hD, Or.inl ?_⟩
    simp only [overs, overs_length]
    refine (generic_mix (valid := .ret (.ok ())) (P := fun k w w' => w' = w ∨ A [k + 1] w') hb hH hH2 (fun _ _ => Or.inl rfl) ?_ ?_
      (Inv := fun _ => True) (fun _ _ _ _ => trivial) (fun k f w hk hw K _ => (hfield hk hw K).1)
      (fun k f w hk hw K _ => (hfield hk hw K).2.mono fun _ _ h => ⟨h.1, trivial, h.2⟩) ?_ (fun us _ => by rw [hv]) (fun K _ => ⟨by rw [hv], rfl⟩) K trivial).mono ?_
    · intro n hn
      rw [hR]
      exact Or.inl ⟨rfl, ⟨hc, a, t, l, x, rfl⟩, vs, n, rfl, hn, rfl⟩
    · intro h
      obtain ⟨z, hz⟩ := hW _ h
      exact swap_length hz
    · rintro k f w w' hk hw (rfl | h)
      · rfl
      · obtain ⟨_, n, b, v, i1, _, i2, i3, _⟩ := swap_attr (hA _ _ h)
        have hk' : (plainMsg special m).body[k]? = some f := hk
        rw [hk'] at i1; rw [hw] at i2; cases i1; cases i2
        exact i3
    · rintro K' b ⟨a', t', x', us, h1, h2, h3, h4, rfl⟩
      rw [hR] at h1 h2 h3
      refine ⟨a', t', x', us, h1.imp id (head_alt (m := plainMsg special m) (by decide)), h2.imp id (head_alt (m := plainMsg special m) (by decide)),
        h3.imp id (head_alt (m := plainMsg special m) (by decide)), h4, ?_⟩
      show _ = m.pack _
      simp only [MsgCls.pack, hp]

theorem mix_packetOut {m : MsgCls} {acts : PAttr} {port : Attr} {i n : Nat} (ha : Safe acts) (hb : (leavesBut [("actions", acts)] m.body).fields = m.body)
    (hl : (leavesBut [("actions", acts)] m.body)[2]? = some ("actions_len", leafP (ubint 2)))
    (hport : (leavesBut [("actions", acts)] m.body)[1]? = some ("in_port", leafP port))
    (hi : (leavesBut [("actions", acts)] m.body)[i]? = some ("actions", acts)) (hin : i < n) (hi2 : 2 < i)
    (hp : ∀ vs, m.prep vs = if h : vs.length = n then
      (match acts.attr.size (vs[i]'(by omega)) with | .ok k => .ok (vs.set 2 (.int k)) | .error e => .error e) else .error .unmodelled)
    (hv : ∀ b p vs, m.valid (b :: p :: vs) = m.valid [.none, p]) (hlb : (leavesBut [("actions", acts)] m.body).length = n) :
    MixMsg (packetOutMsg m acts i n) := by
  intro c hc a t l x vs
  obtain ⟨fs, hfs⟩ : ∃ fs, fs = leavesBut [("actions", acts)] m.body := ⟨_, rfl⟩
  have hf : ∀ f ∈ fs, Safe f.2 := by rw [hfs]; exact safe_leavesBut (by intro a h; simp at h; subst h; exact ha) m.body
  have hbody : (packetOutMsg m acts i n).body = fs := hfs.symm
  rw [← hfs] at hb hl hport hi
  have hval : ∀ (us : List Val) (p : Val), us[1]? = some p → m.valid us = m.valid [.none, p] := by
    intro us p h
    match us, h with
    | b :: p :: vs, h => cases h; exact hv b p _
  by_cases hlen : vs.length = n
  · have hvi : vs[i]? = some (vs[i]'(by omega)) := List.getElem?_eq_getElem (by omega)
    obtain ⟨av, hav⟩ : ∃ av, av = vs[i]'(by omega) := ⟨_, rfl⟩
    rw [← hav] at hvi
    have hpv : ∀ us : List Val, us.length = n → ∀ u, us[i]? = some u →
        m.prep us = (match acts.attr.size u with | .ok k => .ok (us.set 2 (.int k)) | .error e => .error e) := by
      intro us hu u hui
      rw [hp, dif_pos hu]
      have : us[i]'(by omega) = u := by rw [List.getElem?_eq_getElem (by omega)] at hui; exact Option.some.inj hui
      rw [this]
    obtain ⟨own, hown⟩ : ∃ own : Nat → Path → Val → Prop, own = fun j q x =>
      (j = 2 ∧ q = [] ∧ ∃ k : Nat, acts.attr.size av = .ok k ∧ x = .int k) ∨ fieldWrites fs vs (j :: q) x := ⟨_, rfl⟩
    have no2 : ∀ q x, ¬ fieldWrites fs vs (2 :: q) x := by
      rintro q x ⟨f, v, h1, _, h3⟩
      rw [hl] at h1; cases h1; exact h3
    have iff : ∀ {k : Nat} {f : String × PAttr} {w : Val}, k ≠ 2 → fs[k]? = some f → vs[k]? = some w → ∀ q y, own k q y ↔ f.2.writes w q y := by
      intro k f w h2 hk hw q y
      rw [hown]
      constructor
      · rintro (⟨h, _⟩ | ⟨f', v', h1, h2, h3⟩)
        · exact absurd h h2
        · rw [hk] at h1; rw [hw] at h2; cases h1; cases h2; exact h3
      · intro h; exact Or.inr ⟨f, w, hk, hw, h⟩
    have not2 : ∀ {q : Path} {z : Val}, ¬ Swap (packetOutMsg m acts i n) vs (3 :: q) z := by
      intro q z hz
      obtain ⟨_, n', b, v, i1, i2, _⟩ := swap_attr hz
      rw [hbody, hl] at i1
      cases i1
      exact i2 rfl
    obtain ⟨hdr, hhdr⟩ : ∃ hdr, hdr = Val.obj hc [a, t, l, x] := ⟨_, rfl⟩
    refine ⟨msgWrites m hdr (m.prep vs) own, ?_, fun y => ⟨fun h => h, fun h => ?_⟩, ?_, ?_⟩
    · rw [← hhdr]
      refine msg_once ?_
      intro j q x y hx hy
      rw [hown] at hx hy
      rcases hx with ⟨rfl, rfl, k, h1, rfl⟩ | hx <;> rcases hy with ⟨h', h'', k', h2, rfl⟩ | hy
      · rw [h1] at h2; cases h2; exact Or.inl rfl
      · exact (no2 _ _ hy).elim
      · subst h'; exact (no2 _ _ hx).elim
      · exact fieldWrites_once hf (j :: q) x y hx hy
    · have : ([] : Path) = [2] := h.1
      cases this
    · intro p y h z hz
      match p, h with
      | 0 :: q, h =>
        have : q = [2] := h.1
        subst this
        exact swap_length hz
      | (j + 1) :: q, h =>
        obtain ⟨hq, n', b, v, i1, i2, i3, _⟩ := swap_attr hz
        by_cases h2 : j = 2
        · subst h2; exact not2 hz
        · have : own j q y := h
          rw [hbody] at i1
          rw [iff (f := (n', leafP b)) h2 i1 i3] at this
          exact this
    · intro A hA M le K
      generalize hC : Ctx.mk _ _ _ _ _ _ = C
      have hV : C.V = .obj c (.obj hc [a, t, l, x] :: vs) := by subst hC; rfl
      have hR : C.R = fun p y => msgWrites m (.obj hc [a, t, l, x]) (m.prep vs) own p y ∨ A p y := by subst hC; rw [hhdr]
      have hW : ∀ p, C.W p → ∃ z, Swap (packetOutMsg m acts i n) vs p z := by subst hC; exact fun _ h => h
      have hH2 : C.H [0, 2] := by subst hC; rfl
      have hH := mix_headAt (m := packetOutMsg m acts i n) hA hV hR
      have hr : ∀ y, ¬ C.R [] y := by
        intro y h
        rw [hR] at h
        exact h.elim id fun h => swap_root (hA _ _ h)
      have hfield : ∀ {k : Nat} {f : String × PAttr} {w : Val} (h2 : k ≠ 2) (hk : fs[k]? = some f) (hw : vs[k]? = some w) (K : Done),
          Good C (f.2.sizeP [k + 1]) K (fun K' b => b = f.2.attr.size w ∧ K' = K) ∧
          Good C (f.2.packP [k + 1]) K (fun K' b => (∃ w', (w' = w ∨ A [k + 1] w') ∧ b = f.2.attr.pack w') ∧ Frame C [k + 1] K K') := by
        intro k f w h2 hk hw K
        refine field_mix (m := packetOutMsg m acts i n) hA hW (by rw [hbody]; exact hk) hw (hf f (List.mem_of_getElem? hk)) ?_ hr ?_ K
        · rw [hV, at?_obj]; simpa using hw
        · intro q y
          rw [hR]
          show own k q y ∨ _ ↔ _
          rw [iff h2 hk hw]
      have only : ∀ {k : Nat} {f : String × PAttr} {w w' : Val}, fs[k]? = some f → vs[k]? = some w → A [k + 1] w' → f.2.attr.size w' = f.2.attr.size w := by
        intro k f w w' hk hw h
        obtain ⟨_, n', b, v, i1, _, i2, i3, _⟩ := swap_attr (hA _ _ h)
        rw [hbody, hk] at i1; rw [hw] at i2; cases i1; cases i2
        exact i3
      have hc3 : Clear C.R [3] := by
        have := clear_child (R := C.R) (p := []) (by intro q i r e; simp at e) hr 3
        simpa using this
      have hw3 : ¬ C.W [3] := fun h => by obtain ⟨z, hz⟩ := hW _ h; exact not2 hz
      have hv2 : vs[2]? = some (vs[2]'(by omega)) := List.getElem?_eq_getElem (by omega)
      have hs3 : ∀ q y, C.R ([3] ++ q) y → q = [] := by
        intro q y h
        rw [hR] at h
        rcases h with h | h
        · have h : own 2 q y := h
          rw [hown] at h
          rcases h with ⟨_, h, _⟩ | h
          · exact h
          · exact (no2 _ _ h).elim
        · exact (not2 (hA _ _ h)).elim
      have hV3 : at? C.V [3] = some (vs[2]'(by omega)) := by rw [hV, at?_obj]; simpa using hv2
      have h0 : ∀ D, Allowed C.R D → at? (over C.V D) [] = some (.obj c (overs (.obj hc [a, t, l, x] :: vs) D 0)) := by
        intro D hD
        rw [hV, over_obj]
        · rfl
        · cases hd : D [] with
          | none => rfl
          | some y => exact absurd (hD _ _ hd) (hr y)
      refine ⟨?_, fun _ D hM hD => ⟨_, h0 D hD, Or.inl ?_⟩⟩
      rotate_left
      · simp only [overs, overs_length]
        refine sizes_mix (m := m) (body := (packetOutMsg m acts i n).body) (by rw [hbody]; exact hb) hH K fun k f w hk hw => ?_
        rw [hbody] at hk
        by_cases h2 : k = 2
        · subst h2
          rw [hl] at hk; cases hk
          exact leaf_size (a := ubint 2) hV3 hc3 hs3 (fun _ _ => rfl) K
        · exact (hfield h2 hk hw K).1
      intro D hM hD
      refine ⟨_, h0 D hD, Or.inl ?_⟩
      simp only [overs, overs_length, packetOutMsg, hlen, if_true]
      have pre : Good C ((acts.sizeP [i + 1]).andThen fun s => .set [3] (.int s) (.ret (.ok ()))) K
          (fun K' b => b = (acts.attr.size av).map (fun _ => ()) ∧ ∀ k, acts.attr.size av = .ok k → K' [3] = some (.int k)) := by
        have hz : Good C (acts.sizeP [i + 1]) K (fun K' b => b = acts.attr.size av ∧ K' = K) := (hfield (by omega) hi hvi K).1
        refine hz.andThen ?_ ?_
        · rintro K' e he _
          exact ⟨by simp [he, Except.map], by simp [he]⟩
        · rintro K' k hk _
          refine ⟨?_, hc3, ⟨hw3, [], 3, C.V, rfl, by simp [at?]⟩, ?_⟩
          · rw [hR]
            refine Or.inl ?_
            show own 2 [] _
            rw [hown]
            exact Or.inl ⟨rfl, rfl, k, hk, rfl⟩
          intro K3 hK3 _
          refine ⟨by simp [hk, Except.map], ?_⟩
          intro k' hk'
          rw [hk] at hk'; cases hk'
          exact hK3
      refine pre.andThen ?_ ?_
      · rintro K' e he _
        refine ⟨a, t, x, vs, Or.inl rfl, Or.inl rfl, Or.inl rfl, near2_refl (fun _ _ => Or.inl rfl) vs, ?_⟩
        cases hk : acts.attr.size av with
        | ok k => rw [hk] at he; cases he
        | error e' =>
          rw [hk] at he; cases he
          simp only [MsgCls.pack, hpv vs hlen av hvi, hk]
      · rintro K' _ hu hK'
        cases hk : acts.attr.size av with
        | error e' => rw [hk] at hu; cases hu
        | ok k =>
          have hK3 := hK' k hk
          have hok : m.prep vs = .ok (vs.set 2 (.int k)) := by rw [hpv vs hlen av hvi, hk]
          have hn : n = (vs.set 2 (.int k)).length := by simp [hlen]
          have other : ∀ {k' : Nat} {w : Val}, k' ≠ 2 → (vs.set 2 (.int k))[k']? = some w → vs[k']? = some w := by
            intro k' w h2 hw
            rw [List.getElem?_set_ne (by omega)] at hw; exact hw
          have slot : (vs.set 2 (.int k))[2]? = some (.int k) := by
            rw [List.getElem?_set_self (by omega)]
          have h1 : vs[1]? = some (vs[1]'(by omega)) := List.getElem?_eq_getElem (by omega)
          have h1' : (vs.set 2 (.int k))[1]? = some (vs[1]'(by omega)) := by rw [List.getElem?_set_ne (by omega)]; exact h1
          have hports : ∀ {y : Val}, A [2] y → m.valid [.none, y] = m.valid [.none, vs[1]'(by omega)] := by
            intro y hy
            obtain ⟨_, _, _, _, _, _, _, _, i4⟩ := swap_attr (hA _ _ hy)
            have i4 : m.valid (vs.set 1 y) = m.valid vs := i4
            rw [hval (vs.set 1 y) y (by rw [List.getElem?_set_self (by omega)]), hval vs _ h1] at i4
            exact i4
          rw [hn, ← hfs]
          refine (generic_mix (body := fs) (valid := .get [2] fun port => .ret (m.valid [.none, port]))
            (P := fun k' w w' => w' = w ∨ (k' ≠ 2 ∧ A [k' + 1] w')) hb hH hH2 (fun _ _ => Or.inl rfl) ?_ ?_
            (Inv := fun K => K [3] = some (.int k)) ?_ ?_ ?_ ?_ ?_ ?_ K' hK3).mono ?_
          · intro n' hn'
            rw [hR]
            exact Or.inl ⟨rfl, ⟨hc, a, t, l, x, rfl⟩, _, n', hok, hn', rfl⟩
          · intro h
            obtain ⟨z, hz⟩ := hW _ h
            exact swap_length hz
          · intro K K2 h hk2
            rw [hk2 [3] (Or.inr ⟨[], 0, [2], 3, rfl, rfl⟩) (by simp)]; exact h
          · intro k' f w hk' hw K hK
            by_cases h2 : k' = 2
            · subst h2
              rw [hl] at hk'; cases hk'
              exact leaf_size (a := ubint 2) hV3 hc3 hs3 (fun _ _ => rfl) K
            · exact (hfield h2 hk' (other h2 hw) K).1
          · intro k' f w hk' hw K hK
            by_cases h2 : k' = 2
            · subst h2
              rw [hl] at hk'; cases hk'
              rw [slot] at hw
              cases hw
              intro D hM hD
              obtain ⟨z, h4, h5⟩ := read_whole hV3 hc3 hs3 hD
              have h6 : D [3] = some (.int k) := C.le K D hM _ _ hK
              rcases h5 with ⟨_, h5⟩ | ⟨h5, _⟩
              · rw [h5] at h6; cases h6
              · rw [h5] at h6; cases h6
                exact ⟨_, h4, Or.inl ⟨⟨_, Or.inl rfl, rfl⟩, hK, Frame.refl⟩⟩
            · refine ((hfield h2 hk' (other h2 hw) K).2).mono ?_
              rintro K2 b ⟨⟨w', hw', rfl⟩, hF⟩
              refine ⟨⟨w', hw'.imp id fun h => ⟨h2, h⟩, rfl⟩, ?_, hF⟩
              rw [hF [3] (.child (p := [])) (by rintro ⟨t, ht⟩; simp at ht; omega)]; exact hK
          · rintro k' f w w' hk' hw (rfl | ⟨h2, h⟩)
            · rfl
            · exact only hk' (other h2 hw) h
          · intro us hus
            obtain ⟨u1, hu1⟩ : ∃ u1, us[1]? = some u1 := ⟨us[1]'(by rw [hus.1]; simp; omega), List.getElem?_eq_getElem _⟩
            rw [hval us u1 hu1, hval _ _ h1']
            rcases hus.2 1 _ u1 h1' hu1 with rfl | ⟨_, h⟩
            · rfl
            · exact hports h
          · intro K hK D hM hD
            have hc2 : Clear C.R [2] := by
              have := clear_child (R := C.R) (p := []) (by intro q i r e; simp at e) hr 2
              simpa using this
            have hR2 : ∀ q y, C.R (2 :: q) y → A (2 :: q) y := by
              intro q y h
              rw [hR] at h
              rcases h with h | h
              · have h : own 1 q y := h
                rw [iff (by decide) hport h1] at h
                exact h.elim
              · exact h
            obtain ⟨z, h4, h5⟩ := read_whole (C := C) (p := [2]) (by rw [hV, at?_obj]; exact h1) hc2 (fun q y h => (swap_attr (hA _ _ (hR2 q y h))).1) hD
            refine ⟨z, h4, Or.inl ⟨?_, rfl⟩⟩
            rw [hval _ _ h1']
            rcases h5 with ⟨rfl, _⟩ | ⟨_, h5⟩
            · rfl
            · exact hports (hR2 [] z h5)
          · rintro K2 b ⟨a', t', x', us, g1, g2, g3, g4, rfl⟩
            rw [hR] at g1 g2 g3
            have gl : us.length = n := by rw [g4.1]; simp [hlen]
            have g2us : us[2]? = some (.int k) := by
              have : us[2]? = some (us[2]'(by omega)) := List.getElem?_eq_getElem _
              rcases g4.2 2 _ _ slot this with h | ⟨h, _⟩
              · rw [this, h]
              · exact absurd rfl h
            have hback : (us.set 2 (vs[2]'(by omega))).set 2 (.int k) = us := by
              rw [List.set_set]
              have : us[2]'(by omega) = .int k := by rw [List.getElem?_eq_getElem (by omega)] at g2us; exact Option.some.inj g2us
              rw [← this]; exact List.set_getElem_self _
            obtain ⟨u, hu⟩ : ∃ u, us[i]? = some u := ⟨us[i]'(by omega), List.getElem?_eq_getElem _⟩
            have hsu : acts.attr.size u = .ok k := by
              rw [← hk]
              rcases g4.2 i av u (by rw [List.getElem?_set_ne (by omega)]; exact hvi) hu with rfl | ⟨_, h⟩
              · rfl
              · exact only hi hvi h
            refine ⟨a', t', x', us.set 2 (vs[2]'(by omega)), g1.imp id (head_alt (m := packetOutMsg m acts i n) (by decide)),
              g2.imp id (head_alt (m := packetOutMsg m acts i n) (by decide)), g3.imp id (head_alt (m := packetOutMsg m acts i n) (by decide)), ⟨by simp [gl, hlen], ?_⟩, ?_⟩
            · intro k' w w' hw hw'
              by_cases h2 : k' = 2
              · subst h2
                rw [List.getElem?_set_self (by omega)] at hw'
                rw [hv2] at hw
                cases hw; cases hw'
                exact Or.inl rfl
              · rw [List.getElem?_set_ne (by omega)] at hw'
                exact (g4.2 k' w w' (by rw [List.getElem?_set_ne (by omega)]; exact hw) hw').imp id (·.2)
            · show _ = m.pack _
              simp only [MsgCls.pack]
              rw [hpv _ (by simp [gl]) u (by rw [List.getElem?_set_ne (by omega)]; exact hu), hsu]
              simp only [hback]
  · refine ⟨fun _ _ => False, fun _ _ _ _ h => h.elim, fun _ => ⟨fun h => h, fun h => h⟩, fun _ _ h => h.elim, ?_⟩
    intro A hA M le K
    generalize hC : Ctx.mk _ _ _ _ _ _ = C
    have hV : C.V = .obj c (.obj hc [a, t, l, x] :: vs) := by subst hC; rfl
    have hr : ∀ y, ¬ C.R [] y := by
      intro y h
      subst hC
      exact h.elim id fun h => swap_root (hA _ _ h)
    refine ⟨?_, fun e => absurd (e.trans hlb) hlen⟩
    intro D hM hD
    have h0 : at? (over C.V D) [] = some (.obj c (overs (.obj hc [a, t, l, x] :: vs) D 0)) := by
      rw [hV, over_obj]
      · rfl
      · cases hd : D [] with
        | none => rfl
        | some y => exact absurd (hD _ _ hd) (hr y)
    refine ⟨_, h0, Or.inl ?_⟩
    simp only [overs, overs_length, packetOutMsg, hlen, if_false]
    refine ⟨a, t, x, vs, Or.inl rfl, Or.inl rfl, Or.inl rfl, near2_refl (fun _ _ => Or.inl rfl) vs, ?_⟩
    show _ = m.pack _
    simp only [MsgCls.pack, hp, hlen, dif_neg, not_false_eq_true]

theorem mix_plain0 {m : MsgCls} (hp : m.prep = fun vs => .ok vs) (hv : m.valid = fun _ => .ok ()) : MixMsg (plainMsg [] m) :=
  mix_plainMsg (by intro a h; cases h) (leavesBut_fields _ (by intro f _ a h; cases h)) hp hv

theorem mix_out01 : MixMsg (packetOutMsg V01.packetOut (leafP V01.actions) 3 5) := by
  refine mix_packetOut (port := ubint 2) (safe_leaf _) rfl rfl rfl rfl (by decide) (by decide) ?_ (fun _ _ _ => rfl) rfl
  intro vs
  match vs with
  | [b, p, l, acts, d] =>
    show (match V01.actions.size acts with | .error e => _ | .ok n => _) = (match V01.actions.size acts with | .ok k => _ | .error e => _)
    cases V01.actions.size acts <;> rfl
  | [] | [_] | [_, _] | [_, _, _] | [_, _, _, _] => rfl
  | _ :: _ :: _ :: _ :: _ :: _ :: r => simp [V01.packetOut, V01.packetOutPrep]

theorem mix_out04 : MixMsg (packetOutMsg V04.packetOut actionsP 4 6) := by
  refine mix_packetOut (port := ubint 4) safe_actions rfl rfl rfl rfl (by decide) (by decide) ?_ (fun _ _ _ => rfl) rfl
  intro vs
  match vs with
  | [b, p, l, pad, acts, d] =>
    show (match V04.actions.size acts with | .error e => _ | .ok n => _) = (match V04.actions.size acts with | .ok k => _ | .error e => _)
    cases V04.actions.size acts <;> rfl
  | [] | [_] | [_, _] | [_, _, _] | [_, _, _, _] | [_, _, _, _, _] => rfl
  | _ :: _ :: _ :: _ :: _ :: _ :: _ :: r => simp [V04.packetOut, V04.packetOutPrep]

theorem mix_messages : ∀ m ∈ messages, MixMsg m := by
  intro m hm
  unfold messages at hm
  repeat (
    rcases List.mem_cons.1 hm with rfl | hm
    · first
      | exact mix_plain0 rfl rfl
      | exact mix_out01
      | exact mix_out04
      | exact mix_plainMsg (by intro a h; simp at h; subst h; exact safe_helloElems) rfl rfl rfl
      | exact mix_plainMsg (by intro a h; simp at h; subst h; exact safe_match) rfl rfl rfl
      | exact mix_plainMsg (by intro a h; simp at h; subst h; exact safe_buckets) rfl rfl rfl
      | exact mix_plainMsg (by intro a h; simp at h; rcases h with rfl | rfl; exact safe_match; exact safe_instructions) rfl rfl rfl)
  cases hm

/-! ## Runs -/

theorem Through.runs {α : Type} {a b : List (Prog α) × Val} {ws : List Val} (h : Through a ws b) : Runs a b := by
  induction h with
  | refl => exact .refl _
  | step _ hs ih => exact .step ih hs

/-- Which threads pack, which ask for the size, what the others assign. -/
structure Mix (α : Type) where
  v : Val
  R : Path → Val → Prop
  A : Path → Val → Prop
  S : Val → Prop
  Q : Nat → α → Prop
  packs : Nat → Prop
  reads : Nat → Prop

variable {α : Type}

/-- The allowed assignments that lead to one of the states. -/
def Mix.seen (X : Mix α) (p : Path) (y : Val) : Prop := X.A p y ∧ ∃ w, X.S w ∧ at? w p = some y

def Mix.all (X : Mix α) (p : Path) (y : Val) : Prop := X.R p y ∨ X.seen p y

/-- Where the others assign. -/
def Mix.ctx (X : Mix α) (W : Path → Prop) : Ctx := ⟨X.v, X.all, Le, fun _ _ h => h, (· = [0, 2]), W⟩

def Mix.Thread (X : Mix α) (W : Path → Prop) (i : Nat) (D : Done) (t : Prog α) : Prop :=
  (X.packs i ∧ ∃ K, Le K D ∧ (∀ p y, K p = some y → ¬ W p) ∧ Good (X.ctx W) t K (fun _ => X.Q i)) ∨
    (X.reads i ∧ Rd X.v X.all (X.Q i) t) ∨ (¬ X.packs i ∧ ¬ X.reads i ∧ Assigns X.A t)

structure Mix.Ok (X : Mix α) (W : Path → Prop) : Prop where
  apart : ∀ p y, X.R p y → ¬ W p
  others : ∀ p y, X.A p y → W p
  clear : ∀ p, W p → Clear X.all p
  there : ∀ p, W p → ∃ u, at? X.v p = some u
  few : (∀ i j, X.packs i → X.packs j → i = j) ∨ Single X.R

def Mix.Inv (X : Mix α) (W : Path → Prop) (ts : List (Prog α)) (w : Val) : Prop :=
  ∃ D, w = over X.v D ∧ Allowed X.all D ∧ ∀ i t, ts[i]? = some t → X.Thread W i D t

theorem Mix.step {X : Mix α} {W : Path → Prop} (hX : X.Ok W) {ts ts' : List (Prog α)} {w w' : Val} (h : X.Inv W ts w)
    (hs : StepAny (ts, w) (ts', w')) (hw : X.S w') : X.Inv W ts' w' := by
  obtain ⟨D, rfl, hD, hts⟩ := h
  have mine : ∀ {p y}, X.all p y → ¬ W p → X.R p y := fun h hn => h.elim id fun h => absurd (hX.others _ _ h.1) hn
  cases hs with
  | @mk _ i t t' _ _ hi hst =>
    have hlt : i < ts.length := (List.getElem?_eq_some_iff.1 hi).1
    cases hst with
    | @get p k _ u hu =>
      refine ⟨D, rfl, hD, ?_⟩
      intro j s hj
      by_cases e : j = i
      · subst e
        rw [List.getElem?_set_self hlt] at hj; cases hj
        rcases hts _ _ hi with ⟨hp, K, hK, hn, hg⟩ | ⟨hp, hd⟩ | ⟨hp, hq, ha⟩
        · obtain ⟨u', hu', hg'⟩ := hg D hK hD
          rw [show at? (over X.v D) p = some u' from hu'] at hu; cases hu
          rcases hg' with hg' | ⟨y, ⟨hy, hy'⟩, hg'⟩
          · exact Or.inl ⟨hp, K, hK, hn, hg'⟩
          · refine Or.inl ⟨hp, _, le_upd hK hy, ?_, hg'⟩
            intro q z hq
            simp only [upd] at hq
            split at hq
            · rename_i e; rw [e]; exact hy'
            · exact hn q z hq
        · obtain ⟨u', hu', hg'⟩ := hd D hD
          rw [show at? (over X.v D) p = some u' from hu'] at hu; cases hu
          exact Or.inr (Or.inl ⟨hp, hg'⟩)
        · exact Or.inr (Or.inr ⟨hp, hq, ha u⟩)
      · rw [List.getElem?_set_ne (Ne.symm e)] at hj; exact hts j s hj
    | @set p x k _ =>
      rcases hts _ _ hi with ⟨hp, K, hK, hn, hg⟩ | ⟨_, hd⟩ | ⟨hp, hq, ha⟩
      · obtain ⟨h1, h2, ⟨h3, _⟩, hg'⟩ := hg
        refine ⟨upd D p x, put_over p X.v D x (h2.done hD), allowed_upd hD h1, ?_⟩
        intro j s hj
        by_cases e : j = i
        · subst e
          rw [List.getElem?_set_self hlt] at hj; cases hj
          refine Or.inl ⟨hp, upd K p x, ?_, ?_, hg' _ (by simp [upd]) kept_upd⟩
          · intro q z hq
            simp only [upd] at hq ⊢
            split at hq
            · rename_i e; rw [if_pos e]; exact hq
            · rename_i e; rw [if_neg e]; exact hK q z hq
          · intro q z hq
            simp only [upd] at hq
            split at hq
            · rename_i e; rw [e]; exact h3
            · exact hn q z hq
        · rw [List.getElem?_set_ne (Ne.symm e)] at hj
          rcases hts j s hj with ⟨hp', K', hK', hn', hg''⟩ | h
          · refine Or.inl ⟨hp', K', ?_, hn', hg''⟩
            rcases hX.few with hf | hf
            · exact absurd (hf j i hp' hp) e
            · intro q z hq
              simp only [upd]
              split
              · rename_i e; subst e
                rw [hf q x z (mine h1 h3) (mine (hD _ _ (hK' _ _ hq)) h3)]
              · exact hK' q z hq
          · exact Or.inr h
      · exact hd.elim
      · obtain ⟨h1, h2⟩ := ha
        have hWp := hX.others p x h1
        have hc : ClearD D p := (hX.clear p hWp).done hD
        have hput := put_over p X.v D x hc
        have hall : X.all p x := by
          refine Or.inr ⟨h1, _, hw, ?_⟩
          obtain ⟨u, hu⟩ := hX.there p hWp
          have hc' : ClearD (upd D p x) p := by
            intro q i r e
            simp only [upd]
            split
            · rename_i e'; subst e'
              have := congrArg List.length e
              simp at this
            · exact hc q i r e
          show at? (put (over X.v D) p x) p = some x
          rw [hput, at?_over p X.v _ hc', hu]
          show some (over u fun q => upd D p x (p ++ q)) = _
          rw [over_some (x := x) (by simp [upd])]
        refine ⟨upd D p x, hput, allowed_upd hD hall, ?_⟩
        intro j s hj
        by_cases e : j = i
        · subst e
          rw [List.getElem?_set_self hlt] at hj; cases hj
          exact Or.inr (Or.inr ⟨hp, hq, h2⟩)
        · rw [List.getElem?_set_ne (Ne.symm e)] at hj
          rcases hts j s hj with ⟨hp', K', hK', hn', hg''⟩ | h
          · refine Or.inl ⟨hp', K', ?_, hn', hg''⟩
            intro q z hq
            simp only [upd]
            split
            · rename_i e; subst e; exact absurd hWp (hn' q z hq)
            · exact hK' q z hq
          · exact Or.inr h

theorem Mix.runs {X : Mix α} {W : Path → Prop} (hX : X.Ok W) {a b : List (Prog α) × Val} {ws : List Val} (hr : Through a ws b)
    (hS : ∀ w ∈ ws, X.S w) (h : X.Inv W a.1 a.2) : X.Inv W b.1 b.2 := by
  induction hr with
  | refl => exact h
  | @step b c ws _ hs ih =>
    exact Mix.step hX (ih (fun w hw => hS w (by simp [hw]))) hs (hS _ (by simp))

theorem Mix.can {X : Mix α} {W : Path → Prop} {ts : List (Prog α)} {w : Val} (h : X.Inv W ts w) {i : Nat} (hi : X.packs i ∨ X.reads i) {t : Prog α}
    (ht : ts[i]? = some t) : (∃ r, t = .ret r ∧ X.Q i r) ∨ CanStep t w := by
  obtain ⟨D, rfl, hD, hts⟩ := h
  rcases hts i t ht with ⟨_, K, hK, _, hg⟩ | ⟨_, hd⟩ | ⟨h, h', _⟩
  · cases t with
    | ret a => exact Or.inl ⟨a, rfl, hg⟩
    | get p k => obtain ⟨u, hu, _⟩ := hg D hK hD; exact Or.inr ⟨_, .get hu⟩
    | set p x k => exact Or.inr ⟨_, .set⟩
  · cases t with
    | ret a => exact Or.inl ⟨a, rfl, hd⟩
    | get p k => obtain ⟨u, hu, _⟩ := hd D hD; exact Or.inr ⟨_, .get hu⟩
    | set p x k => exact hd.elim
  · exact (hi.elim h h').elim

theorem Mix.finish {X : Mix α} {W : Path → Prop} (hX : X.Ok W) (hS : ∀ w, X.S w) {i : Nat} (hi : X.packs i ∨ X.reads i) : ∀ (t : Prog α) {ts : List (Prog α)} {w : Val},
    X.Inv W ts w → ts[i]? = some t → ∃ r w', Runs (ts, w) (ts.set i (.ret r), w') ∧ X.Q i r
  | .ret a, ts, w, h, ht => by
    rcases Mix.can h hi ht with ⟨r, hr, hq⟩ | ⟨c, hc⟩
    · cases hr
      refine ⟨a, w, ?_, hq⟩
      have : ts.set i (.ret a) = ts := by
        obtain ⟨h1, h2⟩ := List.getElem?_eq_some_iff.1 ht
        rw [← h2]; exact List.set_getElem_self h1
      rw [this]; exact .refl _
    · cases hc
  | .get p k, ts, w, h, ht => by
    rcases Mix.can h hi ht with ⟨r, hr, _⟩ | ⟨c, hc⟩
    · cases hr
    · cases hc with
      | @get _ _ _ u hu =>
        have st : StepAny (ts, w) (ts.set i (k u), w) := .mk ht (.get hu)
        have hl : i < ts.length := (List.getElem?_eq_some_iff.1 ht).1
        obtain ⟨a, w', hr, hq⟩ := Mix.finish hX hS hi (k u) (Mix.step hX h st (hS _)) (by simp [hl])
        rw [set_twice] at hr
        exact ⟨a, w', (Runs.step (.refl _) st).trans hr, hq⟩
  | .set p x k, ts, w, h, ht => by
    have st : StepAny (ts, w) (ts.set i k, put w p x) := .mk ht .set
    have hl : i < ts.length := (List.getElem?_eq_some_iff.1 ht).1
    obtain ⟨a, w', hr, hq⟩ := Mix.finish hX hS hi k (Mix.step hX h st (hS _)) (by simp [hl])
    rw [set_twice] at hr
    exact ⟨a, w', (Runs.step (.refl _) st).trans hr, hq⟩

/-! ## Messages -/

/-- What a packing thread returns: the packet of a message that differs as `A` says. -/
def Answers (m : PMsg) (c hc : String) (a t l x : Val) (vs : List Val) (A : Path → Val → Prop) (r : Res Bytes) : Prop :=
  ∃ a' t' x' us, (a' = a ∨ A [0, 0] a') ∧ (t' = t ∨ A [0, 1] t') ∧ (x' = x ∨ A [0, 3] x') ∧
    Near2 (fun k w w' => w' = w ∨ A [k + 1] w') vs us ∧ r = m.cls.pack (.obj c (.obj hc [a', t', l, x'] :: us))

/-- Which of these threads make the call. -/
def callers (m : PMsg) (ts : List (Prog Answer)) (c : Call) (i : Nat) : Prop := ts[i]? = some (m.call c)

theorem call_ne (m : PMsg) : m.call .pack ≠ m.call .size := by
  intro h
  have h : Prog.get [] _ = Prog.get [] _ := h
  injection h with _ h
  have := congrFun h .none
  cases this

theorem assign_inv {m : PMsg} (hm : MixMsg m) {c hc : String} {a t l x : Val} {vs : List Val} {A : Path → Val → Prop} (hA : ∀ p y, A p y → Swap m vs p y)
    {ts0 : List (Prog Answer)} (h0 : ∀ (i : Nat) t, ts0[i]? = some t → (∃ c, t = m.call c) ∨ Assigns A t) (hl : vs.length = m.body.length)
    (hf : (∀ i j, callers m ts0 .pack i → callers m ts0 .pack j → i = j) ∨ NoPad (.obj c (.obj hc [a, t, l, x] :: vs))) (S : Val → Prop) :
    ∃ (X : Mix Answer) (W : Path → Prop), X.Ok W ∧ X.S = S ∧ X.packs = callers m ts0 .pack ∧ X.reads = callers m ts0 .size ∧
      (∀ i r, X.Q i r → (callers m ts0 .pack i → ∃ b, r = .bytes b ∧ Answers m c hc a t l x vs (fun p y => A p y ∧ ∃ w, S w ∧ at? w p = some y) b) ∧
        (callers m ts0 .size i → r = .size (sizeAttrs m.cls.fields (.obj hc [a, t, l, x] :: vs)))) ∧
      X.Inv W ts0 (.obj c (.obj hc [a, t, l, x] :: vs)) := by
  obtain ⟨R, ho, hr, hn, hg⟩ := hm c hc a t l x vs
  have hS : ∀ p y, (A p y ∧ ∃ w, S w ∧ at? w p = some y) → Swap m vs p y := fun p y h => hA p y h.1
  refine ⟨⟨.obj c (.obj hc [a, t, l, x] :: vs), R, A, S,
      fun i r => (callers m ts0 .pack i → ∃ b, r = .bytes b ∧ Answers m c hc a t l x vs (fun p y => A p y ∧ ∃ w, S w ∧ at? w p = some y) b) ∧
        (callers m ts0 .size i → r = .size (sizeAttrs m.cls.fields (.obj hc [a, t, l, x] :: vs))),
      callers m ts0 .pack, callers m ts0 .size⟩,
    fun p => ∃ z, Swap m vs p z, ⟨?_, ?_, ?_, ?_, ?_⟩, rfl, rfl, rfl, fun _ _ h => h, fun _ => none, (over_none _).symm, allowed_none, ?_⟩
  · rintro p y h ⟨z, hz⟩; exact hn p y h z hz
  · intro p y h; exact ⟨y, hA p y h⟩
  · rintro p ⟨z, hz⟩ q i r e y hy
    have hq : q = [] ∨ q = [0] := by
      rcases swap_cases hz with ⟨j, rfl, _⟩ | ⟨j, _, _, _, rfl, _⟩
      · match q, e with
        | [], _ => exact Or.inl rfl
        | [b], e => simp at e; rw [e.1]; exact Or.inr rfl
        | b :: c :: q, e => simp at e
      · match q, e with
        | [], _ => exact Or.inl rfl
        | b :: q, e => simp at e
    rcases hy with hy | hy
    · rcases hq with rfl | rfl
      · exact (hr y).1 hy
      · exact (hr y).2 hy
    · rcases hq with rfl | rfl
      · exact swap_root (hA _ _ hy.1)
      · exact swap_head (hA _ _ hy.1)
  · rintro p ⟨z, hz⟩
    rcases swap_cases hz with ⟨j, rfl, hj⟩ | ⟨j, n, b, v, rfl, _, _, hv, _⟩
    · rcases hj with rfl | rfl | rfl
      · exact ⟨a, rfl⟩
      · exact ⟨t, rfl⟩
      · exact ⟨x, rfl⟩
    · exact ⟨v, by rw [at?_obj]; simpa using hv⟩
  · exact hf.imp id fun h => ho.single h
  · intro i s hs
    by_cases hp : callers m ts0 .pack i
    · refine Or.inl ⟨hp, fun _ => none, nofun, nofun, ?_⟩
      have : s = m.call .pack := by rw [callers, hs] at hp; exact Option.some.inj hp
      subst this
      refine Good.bind (hg _ hS _ _ _).1 ?_
      intro K' b hb
      refine ⟨fun _ => ⟨b, rfl, hb⟩, fun hz => ?_⟩
      rw [callers, hs] at hz
      exact absurd (Option.some.inj hz) (call_ne m)
    by_cases hz : callers m ts0 .size i
    · refine Or.inr (Or.inl ⟨hz, ?_⟩)
      have : s = m.call .size := by rw [callers, hs] at hz; exact Option.some.inj hz
      subst this
      refine rd_of_good (H := (· = [0, 2])) (W := fun p => ∃ z, Swap m vs p z) _ (Good.bind ((hg _ hS _ _ _).2 hl) ?_)
      rintro K' b ⟨rfl, rfl⟩
      exact ⟨⟨fun h => absurd h hp, fun _ => rfl⟩, rfl⟩
    · refine Or.inr (Or.inr ⟨hp, hz, ?_⟩)
      rcases h0 i s hs with ⟨c', rfl⟩ | h
      · cases c' with
        | pack => exact absurd hs hp
        | size => exact absurd hs hz
      · exact h

/-- The states of the message while the threads take turns. -/
def seen {α : Type} : List Nat → List (Prog α) × Val → List Val
  | [], c => [c.2]
  | i :: is, c => c.2 :: seen is (turn i c)

theorem turn_through {α : Type} {a : List (Prog α) × Val} {ws : List Val} {c : List (Prog α) × Val} (h : Through a ws c) (i : Nat) :
    ∃ us, Through a us (turn i c) ∧ ∀ w ∈ us, w ∈ ws ∨ w = (turn i c).2 := by
  obtain ⟨ts, v⟩ := c
  simp only [turn]
  cases hi : ts[i]? with
  | none => exact ⟨ws, h, fun w hw => Or.inl hw⟩
  | some t =>
    cases t with
    | ret a => exact ⟨ws, h, fun w hw => Or.inl hw⟩
    | set p x k => exact ⟨_, .step h (.mk hi .set), fun w hw => by simpa using hw⟩
    | get p k =>
      simp only
      cases hu : at? v p with
      | none => exact ⟨ws, h, fun w hw => Or.inl hw⟩
      | some u => exact ⟨_, .step h (.mk hi (.get hu)), fun w hw => by simpa using hw⟩

theorem turns_through {α : Type} : ∀ (is : List Nat) {a : List (Prog α) × Val} {ws : List Val} {c : List (Prog α) × Val}, Through a ws c →
    ∃ us, Through a us (turns is c) ∧ ∀ w ∈ us, w ∈ ws ∨ w ∈ seen is c
  | [], a, ws, c, h => ⟨ws, h, fun w hw => Or.inl hw⟩
  | i :: is, a, ws, c, h => by
    obtain ⟨us, h1, h2⟩ := turn_through h i
    obtain ⟨vs, h3, h4⟩ := turns_through is h1
    refine ⟨vs, h3, fun w hw => ?_⟩
    rcases h4 w hw with h | h
    · rcases h2 w h with h | h
      · exact Or.inl h
      · right
        simp only [seen, List.mem_cons]
        right
        rw [h]
        cases is <;> simp [seen]
    · right; simp only [seen, List.mem_cons]; exact Or.inr h

theorem through_find {α : Type} (is : List Nat) (c : List (Prog α) × Val) (P : List (Prog α) × Val → Prop) (h : P (turns is c)) :
    ∃ ws ts w, Through c ws (ts, w) ∧ P (ts, w) ∧ ∀ w ∈ ws, w ∈ seen is c := by
  obtain ⟨us, h1, h2⟩ := turns_through is (.refl c)
  refine ⟨us, (turns is c).1, (turns is c).2, h1, h, fun w hw => ?_⟩
  rcases h2 w hw with h | h
  · cases is <;> simp_all [seen]
  · exact h

end Pyof.Threads
