import Verif.Lemmas.ThreadsClasses
/-!
# Messages packed by several threads
-/
namespace Pyof.Threads

/-! ## Headers -/

/-- A header whose `length` is assigned. -/
theorem header_size {C : Ctx} {m : MsgCls} {hc : String} {a t l x : Val} {s : Path → Val → Prop} (h : At C [0] (.obj hc [a, t, l, x]) s)
    (hs : ∀ q x, s q x → q = [2]) (K : Done) :
    Good C ((headerP m).sizeP [0]) K (fun K' b => b = (headerAttr m.ver m.types m.code).size (.obj hc [a, t, l, x]) ∧ K' = K) := by
  have h0 : ∀ x, ¬ s [] x := fun x hx => by have := hs _ _ hx; cases this
  intro D hM hD
  obtain ⟨h1, h2⟩ := h.read hD
  rw [over_obj (At.none (C := C) (v := .obj hc [a, t, l, x]) h0 h2)] at h1
  refine ⟨_, h1, Or.inl ?_⟩
  simp only [List.find?, plainCls]
  by_cases hn : hdrName m.ver = hc
  · have e : (hdrName m.ver == hc) = true := by simpa using hn
    simp only [e, overs_length]
    have hz := sizes_slot h (safe_leaves (headerFields m.ver m.types)) (i := 2)
      ⟨by intro f hf; cases hf; exact ⟨2, _, rfl, fun _ => rfl⟩⟩ h0 ?_ K
    · refine hz.mono ?_
      rintro K' b ⟨rfl, rfl⟩
      exact ⟨by simp [headerAttr, structAttr, leaves_fields, hn], rfl⟩
    · intro j hj q x
      constructor
      · intro hx; have := hs _ _ hx; simp only [List.cons.injEq] at this; exact absurd this.1 hj
      · intro hx; exact (leaves_no hx).elim
  · have e : (hdrName m.ver == hc) = false := by simpa using hn
    simp only [e]
    refine ⟨?_, rfl⟩
    have hn' : ¬ hc = hdrName m.ver := fun h => hn h.symm
    simp [headerAttr, structAttr, hn']

theorem header_pack {C : Ctx} {m : MsgCls} {hc : String} {a t l x y : Val} {s : Path → Val → Prop} (h : At C [0] (.obj hc [a, t, l, x]) s)
    (hs : ∀ q x, s q x → q = [2]) (K : Done) (hK : K [0, 2] = some y) :
    Good C ((headerP m).packP [0]) K
      (fun K' b => b = (headerAttr m.ver m.types m.code).pack (.obj hc [a, t, y, x]) ∧ K' [0, 2] = some y ∧ Frame C [0] K K') := by
  have h0 : ∀ x, ¬ s [] x := fun x hx => by have := hs _ _ hx; cases this
  intro D hM hD
  obtain ⟨h1, h2⟩ := h.read hD
  rw [over_obj (At.none (C := C) (v := .obj hc [a, t, l, x]) h0 h2)] at h1
  refine ⟨_, h1, Or.inl ?_⟩
  simp only [List.find?, plainCls]
  by_cases hn : hdrName m.ver = hc
  · have e : (hdrName m.ver == hc) = true := by simpa using hn
    simp only [e, overs_length]
    have hz := packs_slot h (safe_leaves (headerFields m.ver m.types)) (i := 2)
      ⟨by intro f hf; cases hf; exact ⟨2, _, rfl, fun _ => rfl⟩⟩ h0 ?_ y K K hK Frame.refl
    · refine hz.mono ?_
      rintro K' b ⟨rfl, h3, h4⟩
      exact ⟨by simp [headerAttr, structAttr, leaves_fields, hn, List.set], h3, h4⟩
    · intro j hj q x
      constructor
      · intro hx; have := hs _ _ hx; simp only [List.cons.injEq] at this; exact absurd this.1 hj
      · intro hx; exact (leaves_no hx).elim
  · have e : (hdrName m.ver == hc) = false := by simpa using hn
    simp only [e]
    refine ⟨?_, hK, Frame.refl⟩
    have hn' : ¬ hc = hdrName m.ver := fun h => hn h.symm
    simp [headerAttr, structAttr, hn']

theorem safe_header (m : MsgCls) : Safe (headerP m) := by
  refine safe_oneOf (by intro k hk; simp at hk; subst hk; exact safe_plain _ (safe_leaves _)) ?_
  intro k hk vs _
  simp at hk; subst hk
  exact ⟨by simp [headerAttr, structAttr, plainCls, leaves_fields], by simp [headerAttr, structAttr, plainCls, leaves_fields]⟩

theorem header_no {m : MsgCls} {v : Val} {q : Path} {x : Val} : ¬ (headerP m).writes v q x := by
  intro h
  cases v <;> simp only [headerP, oneOf] at h
  case obj c vs =>
    cases hk : List.find? (fun k => k.name == c) [plainCls (hdrName m.ver) (leaves (headerFields m.ver m.types))] with
    | none => rw [hk] at h; exact h
    | some k =>
      rw [hk] at h
      have := List.mem_of_find?_eq_some hk
      simp at this; subst this
      exact leaves_no h

/-! ## GenericMessage.pack -/

/-- The header has its four attributes. -/
def Four (hdr : Val) : Prop := ∃ c a t l x, hdr = .obj c [a, t, l, x]

/-- What a message assigns: the length in its header, and otherwise `own`. -/
def msgWrites (m : MsgCls) (hdr : Val) (ws : Res (List Val)) (own : Nat → Path → Val → Prop) : Path → Val → Prop
  | [], _ => False
  | 0 :: q, x => q = [2] ∧ Four hdr ∧ ∃ us n, ws = .ok us ∧ sizeAttrs m.fields (hdr :: us) = .ok n ∧ x = .int (n : Nat)
  | (j + 1) :: q, x => own j q x

theorem generic_good {C : Ctx} {m : MsgCls} {body : PFields} (hb : body.fields = m.body) {c : String} {hdr : Val} {vs us : List Val}
    {own : Nat → Path → Val → Prop} (hA : At C [] (.obj c (hdr :: vs)) (msgWrites m hdr (.ok us) own)) {valid : Prog (Res Unit)} {Inv : Done → Prop}
    (hH2 : C.H [0, 2]) (hi : ∀ K K', Inv K → Kept C [0, 2] K K' → Inv K') (hi0 : ∀ K K', Inv K → Frame C [0] K K' → Inv K')
    (hsz : ∀ (k : Nat) (f : String × PAttr) (w : Val), body[k]? = some f → us[k]? = some w → ∀ K, Inv K →
      Good C (f.2.sizeP [k + 1]) K (fun K' b => b = f.2.attr.size w ∧ K' = K))
    (hpk : ∀ (k : Nat) (f : String × PAttr) (w : Val), body[k]? = some f → us[k]? = some w → ∀ K, Inv K →
      Good C (f.2.packP [k + 1]) K (fun K' b => b = f.2.attr.pack w ∧ Inv K' ∧ Frame C [k + 1] K K'))
    (hv : ∀ K, Inv K → Good C valid K (fun K' b => b = m.valid us ∧ K' = K)) (K : Done) (hK : Inv K) :
    Good C (genericP m body valid us.length) K (fun _ b => b = genericPack m hdr us) := by
  have root : ∀ x, ¬ msgWrites m hdr (.ok us) own [] x := fun _ h => h
  have hfs : PFields.fields (("header", headerP m) :: body) = m.fields := by
    simp only [MsgCls.fields, ← hb]; rfl
  have hH : At C [0] hdr (fun q x => msgWrites m hdr (.ok us) own (0 :: q) x) :=
    hA.child root (by rw [at?_obj]; rfl) (fun _ _ => Iff.rfl)
  by_cases h4 : Four hdr
  · obtain ⟨hc, a, t, l, x, rfl⟩ := h4
    have only : ∀ q x', msgWrites m (.obj hc [a, t, l, x]) (.ok us) own (0 :: q) x' → q = [2] := fun q x' h => h.1
    have sizes : Good C (sizeFields [] (("header", headerP m) :: body) 0 (us.length + 1)) K
        (fun K' b => b = sizeAttrs m.fields (.obj hc [a, t, l, x] :: us) ∧ K' = K) := by
      have := sizeFields_good (C := C) (p := []) (("header", headerP m) :: body) (.obj hc [a, t, l, x] :: us) 0 K ?_
      · rw [hfs] at this; exact this
      · intro k f w hf hw
        cases k with
        | zero => cases hf; cases hw; exact header_size hH only K
        | succ k =>
          have := hsz k f w (by simpa using hf) (by simpa using hw) K hK
          simpa [Nat.add_comm] using this
    refine sizes.andThen ?_ ?_
    · rintro K' e he _
      simp [genericPack, he]
    · rintro K' n hn rfl
      intro D hM hD
      obtain ⟨h1, h2⟩ := hH.read hD
      rw [over_obj (At.none (C := C) (v := .obj hc [a, t, l, x]) (fun x' h => by have := only _ _ h; cases this) h2)] at h1
      refine ⟨_, h1, Or.inl ?_⟩
      simp only [overs]
      refine ⟨(hH.here [2] _).2 ⟨rfl, ⟨hc, a, t, l, x, rfl⟩, us, n, rfl, hn, rfl⟩,
        clear_child hH.clear (hH.root (fun x' h => by have := only _ _ h; cases this)) 2, ⟨hH.mine [2], [0], 2, _, rfl, hH.val⟩, ?_⟩
      intro K2 hK2 hk2
      refine (hv _ (hi _ _ hK hk2)).andThen ?_ ?_
      · rintro K3 e he _
        simp [genericPack, hn, setLength, he]
      · rintro K3 _ hu rfl
        have hp := packFields_good (C := C) (p := []) (Inv := fun K => Inv K ∧ K [0, 2] = some (.int n)) (("header", headerP m) :: body)
          (.obj hc [a, t, .int n, x] :: us) 0 K3 ⟨hi _ _ hK hk2, hK2⟩ ?_
        · refine hp.mono ?_
          rintro K3 b ⟨rfl, _⟩
          rw [hfs]
          simp [genericPack, hn, setLength, hu]
        · rintro k f w hf hw K3 ⟨i1, i2⟩
          cases k with
          | zero =>
            cases hf; cases hw
            refine (header_pack hH only K3 i2).mono ?_
            rintro K4 b ⟨rfl, j1, j2⟩
            exact ⟨rfl, hi0 _ _ i1 j2, j1⟩
          | succ k =>
            have := hpk k f w (by simpa using hf) (by simpa using hw) K3 i1
            rw [show ([] : Path) ++ [0 + (k + 1)] = [k + 1] by simp]
            refine this.mono ?_
            rintro K4 b ⟨rfl, j1, j2⟩
            refine ⟨rfl, j1, ?_⟩
            rw [j2 [0, 2] (Or.inl hH2) (by rintro ⟨t, ht⟩; simp at ht), i2]
  · have no : ∀ q x', ¬ msgWrites m hdr (.ok us) own (0 :: q) x' := fun q x' h => h4 h.2.1
    have hH' : At C [0] hdr ((headerP m).writes hdr) :=
      ⟨hH.val, fun q x => (hH.here q x).trans ⟨fun h => (no q x h).elim, fun h => (header_no h).elim⟩, hH.clear, hH.mine⟩
    have sizes : Good C (sizeFields [] (("header", headerP m) :: body) 0 (us.length + 1)) K
        (fun K' b => b = sizeAttrs m.fields (hdr :: us) ∧ K' = K) := by
      have := sizeFields_good (C := C) (p := []) (("header", headerP m) :: body) (hdr :: us) 0 K ?_
      · rw [hfs] at this; exact this
      · intro k f w hf hw
        cases k with
        | zero => cases hf; cases hw; exact (safe_header m).size K hH'
        | succ k =>
          have := hsz k f w (by simpa using hf) (by simpa using hw) K hK
          simpa [Nat.add_comm] using this
    refine sizes.andThen ?_ ?_
    · rintro K' e he _
      simp [genericPack, he]
    · rintro K' n hn rfl
      intro D hM hD
      refine ⟨hdr, hH.read_leaf no hD, Or.inl ?_⟩
      have hset : setLength n hdr = .error .attribute := by
        unfold setLength
        split
        · exact absurd ⟨_, _, _, _, _, rfl⟩ h4
        · rfl
      dsimp only
      split
      · exact absurd ⟨_, _, _, _, _, rfl⟩ h4
      · simp [Good, genericPack, hn, hset]

theorem PadLen.tail {c : String} {hdr : Val} {vs : List Val} {j : Nat} {q : Path} (h : PadLen (.obj "" vs) (j :: q)) :
    PadLen (.obj c (hdr :: vs)) ((j + 1) :: q) := by
  obtain ⟨p, e, t, l, f, b, hp, hb⟩ := h
  cases p with
  | nil =>
    simp only [at?, Option.some.injEq, Val.obj.injEq] at hp
    exact absurd hp.1 (by decide)
  | cons i p =>
    simp only [List.cons_append, List.cons.injEq] at e
    obtain ⟨rfl, rfl⟩ := e
    exact ⟨(j + 1) :: p, rfl, t, l, f, b, by simpa [at?] using hp, hb⟩

theorem msg_once {m : MsgCls} {c : String} {hdr : Val} {vs : List Val} {ws : Res (List Val)} {own : Nat → Path → Val → Prop}
    (ho : ∀ j q x y, own j q x → own j q y → x = y ∨ PadLen (.obj "" vs) (j :: q)) : Once (.obj c (hdr :: vs)) (msgWrites m hdr ws own) := by
  intro q x y hx hy
  match q, hx, hy with
  | [], hx, _ => exact hx.elim
  | 0 :: q, ⟨_, _, us, n, h1, h2, e⟩, ⟨_, _, us', n', h1', h2', e'⟩ =>
    rw [h1] at h1'; cases h1'; rw [h2] at h2'; cases h2'; rw [e, e']; exact Or.inl rfl
  | (j + 1) :: q, hx, hy => exact (ho j q x y hx hy).imp id PadLen.tail

/-! ## Message classes -/

/-- In the attributes of a message that are not assigned themselves, `R` allows what packing their values may assign. -/
def Own (m : PMsg) (vs : List Val) (R : Path → Val → Prop) : Prop :=
  vs.length = m.body.length + 1 → ∀ (j : Nat) n a v, m.body[j]? = some (n, a) → n ≠ "actions_len" → vs[j + 1]? = some v →
    ∀ q x, R ((j + 1) :: q) x ↔ a.writes v q x

/-- In the header `R` allows only the length. -/
def InHeader (vs : List Val) (R : Path → Val → Prop) : Prop := ∀ q x, R (0 :: q) x → q = [2] ∧ ∃ h, vs[0]? = some h ∧ Four h

/-- What the steps of a message class do, from every state and whatever the other threads do. -/
def SafeMsg (m : PMsg) : Prop :=
  ∀ c vs, ∃ R : Path → Val → Prop, (∀ x, ¬ R [] x) ∧ (Once (.obj c vs) R ∧ Own m vs R ∧ InHeader vs R) ∧
    ∀ M le K, Good ⟨.obj c vs, R, M, le, (· = [0, 2]), fun _ => False⟩ m.steps K (fun _ b => b = m.cls.pack (.obj c vs))

theorem at_root {C : Ctx} {v : Val} {s : Path → Val → Prop} (hv : C.V = v) (hs : C.R = s) (hw : ∀ q, ¬ C.W q := by exact fun _ h => h) : At C [] v s := by
  subst hv; subst hs
  refine ⟨rfl, fun q x => Iff.rfl, ?_, hw⟩
  intro q i r e
  simp at e

theorem At.read_obj {C : Ctx} {p : Path} {c : String} {vs : List Val} {s : Path → Val → Prop} (h : At C p (.obj c vs) s) (h0 : ∀ x, ¬ s [] x)
    {D : Done} (hD : Allowed C.R D) : at? (over C.V D) p = some (.obj c (overs vs (fun q => D (p ++ q)) 0)) := by
  obtain ⟨h1, h2⟩ := h.read hD
  rw [h1, over_obj (At.none (C := C) (v := .obj c vs) h0 h2)]

theorem empty_msg (m : PMsg) (c : String) : ∃ R : Path → Val → Prop, (∀ x, ¬ R [] x) ∧ (Once (.obj c []) R ∧ Own m [] R ∧ InHeader [] R) ∧
    ∀ M le K, Good ⟨.obj c [], R, M, le, (· = [0, 2]), fun _ => False⟩ m.steps K (fun _ b => b = m.cls.pack (.obj c [])) := by
  refine ⟨fun _ _ => False, fun _ h => h, ⟨fun _ _ _ h => h.elim, fun h => by simp at h, fun _ _ h => h.elim⟩, ?_⟩
  intro M le K D hM hD
  exact ⟨.obj c [], (at_root (C := ⟨.obj c [], fun _ _ => False, M, le, (· = [0, 2]), fun _ => False⟩) rfl rfl).read_leaf (fun _ _ h => h) hD, Or.inl rfl⟩

theorem safe_plainMsg {m : MsgCls} {special : List (String × PAttr)} (hs : ∀ a ∈ special, Safe a.2)
    (hb : (leavesBut special m.body).fields = m.body) (hp : m.prep = fun vs => .ok vs) (hv : m.valid = fun _ => .ok ()) :
    SafeMsg (plainMsg special m) := by
  intro c vs
  cases vs with
  | nil => exact empty_msg _ c
  | cons hdr vs =>
    have hf := safe_leavesBut hs m.body
    let own : Nat → Path → Val → Prop := fun j q x => fieldWrites (leavesBut special m.body) vs (j :: q) x
    refine ⟨msgWrites m hdr (.ok vs) own, fun _ h => h, ⟨?_, ?_, fun q x h => ⟨h.1, hdr, rfl, h.2.1⟩⟩, ?_⟩
    rotate_left
    · intro _ j n a v hj _ hv q x
      show fieldWrites (leavesBut special m.body) vs (j :: q) x ↔ _
      simp only [List.getElem?_cons_succ] at hv
      constructor
      · rintro ⟨f', v', h1, h2, h3⟩
        rw [show (leavesBut special m.body)[j]? = some (n, a) from hj] at h1; rw [hv] at h2; cases h1; cases h2; exact h3
      · intro h; exact ⟨(n, a), v, hj, hv, h⟩
    rotate_left
    · refine msg_once ?_
      intro j q x y
      exact fieldWrites_once hf (j :: q) x y
    · intro M le K
      have hA : At ⟨.obj c (hdr :: vs), msgWrites m hdr (.ok vs) own, M, le, (· = [0, 2]), fun _ => False⟩ [] (.obj c (hdr :: vs)) (msgWrites m hdr (.ok vs) own) :=
        at_root rfl rfl
      have root : ∀ x, ¬ msgWrites m hdr (.ok vs) own [] x := fun _ h => h
      have child : ∀ (k : Nat) (f : String × PAttr) (w : Val), (leavesBut special m.body)[k]? = some f → vs[k]? = some w →
          At ⟨.obj c (hdr :: vs), msgWrites m hdr (.ok vs) own, M, le, (· = [0, 2]), fun _ => False⟩ [k + 1] w (f.2.writes w) := by
        intro k f w hk hw
        have := hA.child root (j := k + 1) (u := w) (by rw [at?_obj]; simpa using hw) (s' := f.2.writes w) ?_
        · simpa using this
        · intro q x
          show fieldWrites (leavesBut special m.body) vs (k :: q) x ↔ _
          constructor
          · rintro ⟨f', v', h1, h2, h3⟩
            rw [hk] at h1; rw [hw] at h2; cases h1; cases h2; exact h3
          · intro h; exact ⟨f, w, hk, hw, h⟩
      intro D hM hD
      refine ⟨_, hA.read_obj root hD, Or.inl ?_⟩
      simp only [overs, overs_length]
      have := generic_good hb hA (valid := .ret (.ok ())) (Inv := fun _ => True) rfl (fun _ _ _ _ => trivial) (fun _ _ _ _ => trivial)
        (fun k f w hk hw K _ => (hf f (List.mem_of_getElem? hk)).size K (child k f w hk hw))
        (fun k f w hk hw K _ => ((hf f (List.mem_of_getElem? hk)).pack K (child k f w hk hw)).mono
          (fun _ _ h => ⟨h.1, trivial, h.2⟩))
        (fun K _ => ⟨by rw [hv], rfl⟩) K trivial
      refine this.mono ?_
      intro K' b hb'
      rw [hb']
      show _ = m.pack _
      simp only [MsgCls.pack, hp]

theorem safe_packetOut {m : MsgCls} {acts : PAttr} {port : Attr} {i n : Nat} (ha : Safe acts) (hb : (leavesBut [("actions", acts)] m.body).fields = m.body)
    (hl : (leavesBut [("actions", acts)] m.body)[2]? = some ("actions_len", leafP (ubint 2)))
    (hport : (leavesBut [("actions", acts)] m.body)[1]? = some ("in_port", leafP port))
    (hi : (leavesBut [("actions", acts)] m.body)[i]? = some ("actions", acts)) (hn : (leavesBut [("actions", acts)] m.body).length = n) (hin : i < n) (hi2 : 2 < i)
    (hp : ∀ vs, m.prep vs = if h : vs.length = n then
      (match acts.attr.size (vs[i]'(by omega)) with | .ok k => .ok (vs.set 2 (.int k)) | .error e => .error e) else .error .unmodelled)
    (hv : ∀ b p vs, m.valid (b :: p :: vs) = m.valid [.none, p]) : SafeMsg (packetOutMsg m acts i n) := by
  intro c vs
  cases vs with
  | nil => exact empty_msg _ c
  | cons hdr vs =>
    obtain ⟨fs, hfs⟩ : ∃ fs, fs = leavesBut [("actions", acts)] m.body := ⟨_, rfl⟩
    have hf : ∀ f ∈ fs, Safe f.2 := by rw [hfs]; exact safe_leavesBut (by intro a h; simp at h; subst h; exact ha) m.body
    rw [← hfs] at hb hl hport hi hn
    have hval : ∀ (vs : List Val) (x p : Val), vs[1]? = some p → m.valid (vs.set 2 x) = m.valid [.none, p] := by
      intro vs x p h
      match vs, h with
      | b :: p :: vs, h => cases h; exact hv b p _
    by_cases hlen : vs.length = n
    · have hvi : vs[i]? = some (vs[i]'(by omega)) := List.getElem?_eq_getElem (by omega)
      obtain ⟨av, hav⟩ : ∃ av, av = vs[i]'(by omega) := ⟨_, rfl⟩
      rw [← hav] at hvi
      have hpv : m.prep vs = (match acts.attr.size av with | .ok k => .ok (vs.set 2 (.int k)) | .error e => .error e) := by
        rw [hp, dif_pos hlen, hav]
      let own : Nat → Path → Val → Prop := fun j q x =>
        (j = 2 ∧ q = [] ∧ ∃ k : Nat, acts.attr.size av = .ok k ∧ x = .int k) ∨ fieldWrites fs vs (j :: q) x
      have no2 : ∀ q x, ¬ fieldWrites fs vs (2 :: q) x := by
        rintro q x ⟨f, v, h1, _, h3⟩
        rw [hl] at h1; cases h1; exact h3
      refine ⟨msgWrites m hdr (m.prep vs) own, fun _ h => h, ⟨?_, ?_, fun q x h => ⟨h.1, hdr, rfl, h.2.1⟩⟩, ?_⟩
      rotate_left
      · intro _ j n' a v hj hne hv q x
        show own j q x ↔ _
        have hj : fs[j]? = some (n', a) := by rw [hfs]; exact hj
        simp only [List.getElem?_cons_succ] at hv
        constructor
        · rintro (⟨rfl, _⟩ | ⟨f', v', h1, h2, h3⟩)
          · rw [hl] at hj; cases hj; exact absurd rfl hne
          · rw [hj] at h1; rw [hv] at h2; cases h1; cases h2; exact h3
        · intro h; exact Or.inr ⟨(n', a), v, hj, hv, h⟩
      rotate_left
      · refine msg_once ?_
        rintro j q x y (⟨rfl, rfl, k, h1, rfl⟩ | hx) (⟨h', h'', k', h2, rfl⟩ | hy)
        · rw [h1] at h2; cases h2; exact Or.inl rfl
        · exact (no2 _ _ hy).elim
        · subst h'; exact (no2 _ _ hx).elim
        · exact fieldWrites_once hf (j :: q) x y hx hy
      · intro M le K
        obtain ⟨C, hC⟩ : ∃ C : Ctx, C = ⟨.obj c (hdr :: vs), msgWrites m hdr (m.prep vs) own, M, le, (· = [0, 2]), fun _ => False⟩ := ⟨_, rfl⟩
        have hA : At C [] (.obj c (hdr :: vs)) (msgWrites m hdr (m.prep vs) own) := by subst hC; exact at_root rfl rfl
        rw [← hC]
        have root : ∀ x, ¬ msgWrites m hdr (m.prep vs) own [] x := fun _ h => h
        have child : ∀ (k : Nat) (f : String × PAttr) (w : Val), k ≠ 2 → fs[k]? = some f → vs[k]? = some w →
            At C [k + 1] w (f.2.writes w) := by
          intro k f w h2 hk hw
          have := hA.child root (j := k + 1) (u := w) (by rw [at?_obj]; simpa using hw) (s' := f.2.writes w) ?_
          · simpa using this
          · intro q x
            show own k q x ↔ _
            constructor
            · rintro (⟨h, _⟩ | ⟨f', v', h1, h2, h3⟩)
              · exact absurd h h2
              · rw [hk] at h1; rw [hw] at h2; cases h1; cases h2; exact h3
            · intro h; exact Or.inr ⟨f, w, hk, hw, h⟩
        have hC3 : Clear C.R [3] := by
          have := clear_child hA.clear (hA.root root) 3
          simpa using this
        intro D hM hD
        refine ⟨_, hA.read_obj root hD, Or.inl ?_⟩
        simp only [overs, overs_length, packetOutMsg, hlen, if_true]
        have hsz := ha.size K (child i _ av (by omega) hi hvi)
        have pre : Good C ((acts.sizeP [i + 1]).andThen fun s => .set [3] (.int s) (.ret (.ok ()))) K
            (fun K' b => b = (acts.attr.size av).map (fun _ => ()) ∧ ∀ k, acts.attr.size av = .ok k → K' [3] = some (.int k)) := by
          refine hsz.andThen ?_ ?_
          · rintro K' e he _
            exact ⟨by simp [he, Except.map], by simp [he]⟩
          · rintro K' k hk _
            refine ⟨(hA.here [3] _).2 (Or.inl ⟨rfl, rfl, k, hk, rfl⟩), hC3, ⟨hA.mine [3], [], 3, _, rfl, hA.val⟩, ?_⟩
            intro K3 hK3 _
            refine ⟨by simp [hk, Except.map], ?_⟩
            intro k' hk'
            rw [hk] at hk'; cases hk'
            exact hK3
        refine pre.andThen ?_ ?_
        · rintro K' e he _
          cases hk : acts.attr.size av with
          | ok k => rw [hk] at he; cases he
          | error e' =>
            rw [hk] at he; cases he
            simp only [MsgCls.pack, hpv, hk]
        · rintro K' _ hu hK'
          cases hk : acts.attr.size av with
          | error e' => rw [hk] at hu; cases hu
          | ok k =>
            have hK3 := hK' k hk
            have hok : m.prep vs = .ok (vs.set 2 (.int k)) := by rw [hpv, hk]
            have hA' : At C [] (.obj c (hdr :: vs)) (msgWrites m hdr (.ok (vs.set 2 (.int k))) own) := by rw [← hok]; exact hA
            have hn : n = (vs.set 2 (.int k)).length := by simp [hlen]
            have other : ∀ {k' : Nat} {w : Val}, k' ≠ 2 → (vs.set 2 (.int k))[k']? = some w → vs[k']? = some w := by
              intro k' w h2 hw
              rw [List.getElem?_set_ne (by omega)] at hw; exact hw
            have slot : ∀ {w : Val}, (vs.set 2 (.int k))[2]? = some w → w = .int k := by
              intro w hw
              rw [List.getElem?_set_self (by omega)] at hw
              cases hw; rfl
            have c3 : At C [3] (vs[2]'(by omega)) (fun q x => own 2 q x) := by
              have := hA.child root (j := 3) (u := vs[2]'(by omega)) (by rw [at?_obj]; simp)
                (s' := fun q x => own 2 q x) (fun _ _ => Iff.rfl)
              simpa using this
            rw [hn, ← hfs]
            have := generic_good (body := fs) hb hA' (valid := .get [2] fun port => .ret (m.valid [.none, port]))
              (Inv := fun K => K [3] = some (.int k)) (by subst hC; rfl) ?_ ?_ ?_ ?_ ?_ K' hK3
            · refine this.mono ?_
              intro K2 b hb'
              rw [hb']
              simp only [MsgCls.pack, hok]
            · intro K K2 h hk2
              rw [hk2 [3] (Or.inr ⟨[], 0, [2], 3, rfl, rfl⟩) (by simp)]; exact h
            · intro K K' h hF
              rw [hF [3] (.child (p := [])) (by rintro ⟨t, ht⟩; simp at ht)]; exact h
            · intro k' f w hk' hw K hK
              by_cases h2 : k' = 2
              · subst h2
                rw [hl] at hk'; cases hk'
                intro D hM hD
                obtain ⟨i1, i2⟩ := c3.read hD
                exact ⟨_, i1, Or.inl ⟨rfl, rfl⟩⟩
              · exact (hf f (List.mem_of_getElem? hk')).size K (child k' f w h2 hk' (other h2 hw))
            · intro k' f w hk' hw K hK
              by_cases h2 : k' = 2
              · subst h2
                rw [hl] at hk'; cases hk'
                rw [slot hw]
                intro D hM hD
                obtain ⟨i1, i2⟩ := c3.read hD
                have i3 : D [3] = some (.int k) := C.le K D hM _ _ hK
                rw [over_some (D := fun q => D ([3] ++ q)) (x := .int k) (by simpa using i3)] at i1
                exact ⟨_, i1, Or.inl ⟨rfl, hK, Frame.refl⟩⟩
              · refine ((hf f (List.mem_of_getElem? hk')).pack K (child k' f w h2 hk' (other h2 hw))).mono ?_
                rintro K2 b ⟨rfl, hF⟩
                refine ⟨rfl, ?_, hF⟩
                rw [hF [3] (.child (p := [])) (by rintro ⟨t, ht⟩; simp at ht; omega)]; exact hK
            · intro K hK D hM hD
              have hc1 := child 1 _ (vs[1]'(by omega)) (by decide) hport (List.getElem?_eq_getElem (by omega))
              exact ⟨_, hc1.read_leaf (fun _ _ h => h) hD, Or.inl ⟨(hval _ _ _ (List.getElem?_eq_getElem (by omega))).symm, rfl⟩⟩
    · refine ⟨fun _ _ => False, fun _ h => h, ⟨fun _ _ _ _ h => h.elim, ?_, fun _ _ h => h.elim⟩, ?_⟩
      · intro h
        refine absurd ?_ hlen
        simp only [packetOutMsg, ← hfs, List.length_cons] at h
        omega
      intro M le K D hM hD
      refine ⟨_, (at_root (C := ⟨.obj c (hdr :: vs), fun _ _ => False, M, le, (· = [0, 2]), fun _ => False⟩) rfl rfl).read_leaf (fun _ _ h => h) hD, Or.inl ?_⟩
      simp only [packetOutMsg, hlen, if_false]
      show _ = m.pack _
      simp only [MsgCls.pack, hp, hlen, dif_neg, not_false_eq_true]

/-! ## All of them -/

theorem leavesBut_fields {special : List (String × PAttr)} : ∀ (fs : Fields), (∀ f ∈ fs, ∀ a, special.lookup f.1 = some a → a.attr = f.2) →
    (leavesBut special fs).fields = fs
  | [], _ => rfl
  | f :: fs, h => by
    have ih := leavesBut_fields fs (fun g hg => h g (List.mem_cons_of_mem _ hg))
    simp only [leavesBut, PFields.fields, List.map_cons, List.cons.injEq] at ih ⊢
    refine ⟨?_, ih⟩
    cases hl : special.lookup f.1 with
    | none => rfl
    | some a => simp only [h f (List.mem_cons_self ..) a hl]

theorem safe_plain0 {m : MsgCls} (hp : m.prep = fun vs => .ok vs) (hv : m.valid = fun _ => .ok ()) : SafeMsg (plainMsg [] m) :=
  safe_plainMsg (by intro a h; cases h) (leavesBut_fields _ (by intro f _ a h; cases h)) hp hv

theorem safe_out01 : SafeMsg (packetOutMsg V01.packetOut (leafP V01.actions) 3 5) := by
  refine safe_packetOut (port := ubint 2) (safe_leaf _) rfl rfl rfl rfl rfl (by decide) (by decide) ?_ (fun _ _ _ => rfl)
  intro vs
  match vs with
  | [b, p, l, acts, d] =>
    show (match V01.actions.size acts with | .error e => _ | .ok n => _) = (match V01.actions.size acts with | .ok k => _ | .error e => _)
    cases V01.actions.size acts <;> rfl
  | [] | [_] | [_, _] | [_, _, _] | [_, _, _, _] => rfl
  | _ :: _ :: _ :: _ :: _ :: _ :: r => simp [V01.packetOut, V01.packetOutPrep]

theorem safe_out04 : SafeMsg (packetOutMsg V04.packetOut actionsP 4 6) := by
  refine safe_packetOut (port := ubint 4) safe_actions rfl rfl rfl rfl rfl (by decide) (by decide) ?_ (fun _ _ _ => rfl)
  intro vs
  match vs with
  | [b, p, l, pad, acts, d] =>
    show (match V04.actions.size acts with | .error e => _ | .ok n => _) = (match V04.actions.size acts with | .ok k => _ | .error e => _)
    cases V04.actions.size acts <;> rfl
  | [] | [_] | [_, _] | [_, _, _] | [_, _, _, _] | [_, _, _, _, _] => rfl
  | _ :: _ :: _ :: _ :: _ :: _ :: _ :: r => simp [V04.packetOut, V04.packetOutPrep]

theorem safe_messages : ∀ m ∈ messages, SafeMsg m := by
  intro m hm
  unfold messages at hm
  repeat (
    rcases List.mem_cons.1 hm with rfl | hm
    · first
      | exact safe_plain0 rfl rfl
      | exact safe_out01
      | exact safe_out04
      | exact safe_plainMsg (by intro a h; simp at h; subst h; exact safe_helloElems) rfl rfl rfl
      | exact safe_plainMsg (by intro a h; simp at h; subst h; exact safe_match) rfl rfl rfl
      | exact safe_plainMsg (by intro a h; simp at h; subst h; exact safe_buckets) rfl rfl rfl
      | exact safe_plainMsg (by intro a h; simp at h; rcases h with rfl | rfl; exact safe_match; exact safe_instructions) rfl rfl rfl)
  cases hm

/-! ## Threads that share a message -/

/-- `D` has all assignments of `K`. -/
def Le (K D : Done) : Prop := ∀ p x, K p = some x → D p = some x

def shared (v : Val) (R : Path → Val → Prop) (H : Path → Prop := (· = [0, 2])) : Ctx := ⟨v, R, Le, fun _ _ h => h, H, fun _ => False⟩
def alone (v : Val) (R : Path → Val → Prop) : Ctx := ⟨v, R, fun K D => K = D, fun _ _ h => by subst h; exact fun _ _ h => h, (· = [0, 2]), fun _ => False⟩

theorem upd_same {D : Done} {p : Path} {x : Val} (h : D p = some x) : upd D p x = D := by
  funext q
  simp only [upd]
  split
  · rename_i e; rw [e, h]
  · rfl

theorem le_upd {K D : Done} (h : Le K D) {p : Path} {x : Val} (hx : D p = some x) : Le (upd K p x) D := by
  intro q y hq
  simp only [upd] at hq
  split at hq
  · rename_i e; cases hq; rw [e, hx]
  · exact h q y hq

/-- The whole run of a thread that is never interrupted. -/
def exec {α : Type} : Prog α → Val → Option (α × Val)
  | .ret a, w => some (a, w)
  | .get p k, w => match at? w p with | some v => exec (k v) w | none => none
  | .set p x k, w => exec k (put w p x)

theorem exec_good {α : Type} {v : Val} {R : Path → Val → Prop} : ∀ (t : Prog α) {K : Done} {Q : Done → α → Prop}, Allowed R K →
    Good (alone v R) t K Q → ∃ a K', exec t (over v K) = some (a, over v K') ∧ Allowed R K' ∧ Q K' a
  | .ret a, K, Q, hK, h => ⟨a, K, rfl, hK, h⟩
  | .get p k, K, Q, hK, h => by
    obtain ⟨u, hu, hg⟩ := h K rfl hK
    have hg : Good (alone v R) (k u) K Q := by
      rcases hg with hg | ⟨x, ⟨hx, _⟩, hg⟩
      · exact hg
      · rwa [upd_same hx] at hg
    obtain ⟨a, K', h1, h2⟩ := exec_good (k u) hK hg
    refine ⟨a, K', ?_, h2⟩
    simp only [exec]
    rw [show at? (over v K) p = some u from hu]
    exact h1
  | .set p x k, K, Q, hK, h => by
    obtain ⟨h1, h2, _, hg⟩ := h
    have hK' : Allowed R (upd K p x) := by
      intro q y hq
      simp only [upd] at hq
      split at hq
      · rename_i e; cases hq; rw [e]; exact h1
      · exact hK q y hq
    obtain ⟨a, K', h3, h4⟩ := exec_good k hK' (hg _ (by simp [upd]) kept_upd)
    refine ⟨a, K', ?_, h4⟩
    simp only [exec]
    rw [put_over p v K x (h2.done hK)]
    exact h3

theorem allowed_none {R : Path → Val → Prop} : Allowed R (fun _ => none) := nofun

theorem over_none (v : Val) : over v (fun _ => none) = v := over_id _ _ (fun _ => rfl)

theorem allowed_upd {R : Path → Val → Prop} {D : Done} (hD : Allowed R D) {p : Path} {x : Val} (h : R p x) : Allowed R (upd D p x) := by
  intro q y hq
  simp only [upd] at hq
  split at hq
  · rename_i e; cases hq; rw [e]; exact h
  · exact hD q y hq

/-- What is true of every state that threads reach. -/
def SharedInv {α : Type} (v : Val) (R : Path → Val → Prop) (Q : α → Prop) (ts : List (Prog α)) (w : Val) : Prop :=
  ∃ D, w = over v D ∧ Allowed R D ∧ ∀ t ∈ ts, ∃ K, Le K D ∧ Good (shared v R) t K (fun _ => Q)

theorem shared_step {α : Type} {v : Val} {R : Path → Val → Prop} (hR : Single R) {Q : α → Prop} {ts ts' : List (Prog α)} {w w' : Val}
    (h : SharedInv v R Q ts w) (hs : StepAny (ts, w) (ts', w')) : SharedInv v R Q ts' w' := by
  obtain ⟨D, rfl, hD, hts⟩ := h
  cases hs with
  | @mk _ i t t' _ _ hi hst =>
    obtain ⟨K, hK, hg⟩ := hts t (List.mem_of_getElem? hi)
    cases hst with
    | @get p k _ u hu =>
      refine ⟨D, rfl, hD, ?_⟩
      intro s hs
      rcases List.mem_or_eq_of_mem_set hs with hs | rfl
      · exact hts s hs
      · obtain ⟨u', hu', hg'⟩ := hg D hK hD
        rw [show at? (over v D) p = some u' from hu'] at hu
        cases hu
        rcases hg' with hg' | ⟨x, hx, hg'⟩
        · exact ⟨K, hK, hg'⟩
        · exact ⟨upd K p x, le_upd hK hx.1, hg'⟩
    | @set p x k _ =>
      obtain ⟨h1, h2, _, hg'⟩ := hg
      refine ⟨upd D p x, put_over p v D x (h2.done hD), allowed_upd hD h1, ?_⟩
      have grow : Le D (upd D p x) := by
        intro q y hq
        simp only [upd]
        split
        · rename_i e; subst e; rw [hR q y x (hD q y hq) h1]
        · exact hq
      intro s hs
      rcases List.mem_or_eq_of_mem_set hs with hs | rfl
      · obtain ⟨K', h3, h4⟩ := hts s hs
        exact ⟨K', fun q y h => grow q y (h3 q y h), h4⟩
      · refine ⟨upd K p x, ?_, hg' _ (by simp [upd]) kept_upd⟩
        intro q y hq
        simp only [upd] at hq ⊢
        split at hq
        · rename_i e; rw [if_pos e]; exact hq
        · rename_i e; rw [if_neg e]; exact hK q y hq

theorem shared_runs {α : Type} {v : Val} {R : Path → Val → Prop} (hR : Single R) {Q : α → Prop} {c c' : List (Prog α) × Val}
    (hr : Runs c c') (h : SharedInv v R Q c.1 c.2) : SharedInv v R Q c'.1 c'.2 := by
  induction hr with
  | refl => exact h
  | @step b c hb hs ih => exact shared_step hR ih hs

/-- No thread of such a state is stuck. -/
theorem shared_can {α : Type} {v : Val} {R : Path → Val → Prop} {Q : α → Prop} {ts : List (Prog α)} {w : Val}
    (h : SharedInv v R Q ts w) {t : Prog α} (ht : t ∈ ts) : (∃ r, t = .ret r ∧ Q r) ∨ CanStep t w := by
  obtain ⟨D, rfl, hD, hts⟩ := h
  obtain ⟨K, hK, hg⟩ := hts t ht
  cases t with
  | ret a => exact Or.inl ⟨a, rfl, hg⟩
  | get p k =>
    obtain ⟨u, hu, _⟩ := hg D hK hD
    exact Or.inr ⟨_, .get hu⟩
  | set p x k => exact Or.inr ⟨_, .set⟩

theorem Runs.trans {α : Type} {a b c : List (Prog α) × Val} (h : Runs a b) (h' : Runs b c) : Runs a c := by
  induction h' with
  | refl => exact h
  | step _ s ih => exact .step ih s

theorem set_twice {α : Type} (ts : List α) (i : Nat) (a b : α) : (ts.set i a).set i b = ts.set i b := by simp

/-- Each thread can be brought to its end. -/
theorem shared_one {α : Type} {v : Val} {R : Path → Val → Prop} (hR : Single R) {Q : α → Prop} : ∀ (t : Prog α) {ts : List (Prog α)} {w : Val}
    {i : Nat}, SharedInv v R Q ts w → ts[i]? = some t → ∃ a w', Runs (ts, w) (ts.set i (.ret a), w')
  | .ret a, ts, w, i, h, hi => by
    refine ⟨a, w, ?_⟩
    have : ts.set i (.ret a) = ts := by
      obtain ⟨h1, h2⟩ := List.getElem?_eq_some_iff.1 hi
      rw [← h2]; exact List.set_getElem_self h1
    rw [this]; exact .refl _
  | .get p k, ts, w, i, h, hi => by
    obtain ⟨r, hr, _⟩ | ⟨c, hc⟩ := shared_can h (List.mem_of_getElem? hi)
    · cases hr
    · cases hc with
      | @get _ _ _ u hu =>
        have st : StepAny (ts, w) (ts.set i (k u), w) := .mk hi (.get hu)
        have hl : i < ts.length := (List.getElem?_eq_some_iff.1 hi).1
        obtain ⟨a, w', hr⟩ := shared_one hR (k u) (i := i) (shared_step hR h st) (by simp [hl])
        rw [set_twice] at hr
        exact ⟨a, w', (Runs.step (.refl _) st).trans hr⟩
  | .set p x k, ts, w, i, h, hi => by
    have st : StepAny (ts, w) (ts.set i k, put w p x) := .mk hi .set
    have hl : i < ts.length := (List.getElem?_eq_some_iff.1 hi).1
    obtain ⟨a, w', hr⟩ := shared_one hR k (i := i) (shared_step hR h st) (by simp [hl])
    rw [set_twice] at hr
    exact ⟨a, w', (Runs.step (.refl _) st).trans hr⟩

/-- All threads can be brought to their ends. -/
theorem shared_all {α : Type} {v : Val} {R : Path → Val → Prop} (hR : Single R) {Q : α → Prop} {ts : List (Prog α)} {w : Val}
    (h : SharedInv v R Q ts w) : ∃ ts' w', Runs (ts, w) (ts', w') ∧ ∀ t ∈ ts', Finished t := by
  have main : ∀ n, n ≤ ts.length → ∃ ts' w', Runs (ts, w) (ts', w') ∧ ts'.length = ts.length ∧ ∀ (i : Nat) t, i < n → ts'[i]? = some t → Finished t := by
    intro n
    induction n with
    | zero => intro _; exact ⟨ts, w, .refl _, rfl, fun i t hi => by omega⟩
    | succ n ih =>
      intro hn
      obtain ⟨ts', w', h1, h2, h3⟩ := ih (by omega)
      have hi : SharedInv v R Q ts' w' := shared_runs hR h1 h
      have hlt : n < ts'.length := by omega
      have hl : ts'[n]? = some (ts'[n]'hlt) := List.getElem?_eq_getElem hlt
      obtain ⟨a, w2, h4⟩ := shared_one hR _ hi hl
      refine ⟨_, w2, h1.trans h4, by simp [h2], ?_⟩
      intro i t hin ht
      by_cases e : i = n
      · subst e
        rw [List.getElem?_set_self hlt] at ht
        cases ht; exact ⟨a, rfl⟩
      · rw [List.getElem?_set_ne (by omega)] at ht
        exact h3 i t (by omega) ht
  obtain ⟨ts', w', h1, h2, h3⟩ := main ts.length (Nat.le_refl _)
  refine ⟨ts', w', h1, ?_⟩
  intro t ht
  obtain ⟨i, hi⟩ := List.mem_iff_getElem?.1 ht
  have hl : i < ts'.length := (List.getElem?_eq_some_iff.1 hi).1
  exact h3 i t (by omega) hi

/-- What is true of every state that one thread reaches. -/
def AloneInv {α : Type} (v : Val) (R : Path → Val → Prop) (Q : α → Prop) (ts : List (Prog α)) (w : Val) : Prop :=
  ∃ D t, w = over v D ∧ Allowed R D ∧ ts = [t] ∧ Good (alone v R) t D (fun _ => Q)

theorem alone_runs {α : Type} {v : Val} {R : Path → Val → Prop} {Q : α → Prop} {c c' : List (Prog α) × Val}
    (hr : Runs c c') (h : AloneInv v R Q c.1 c.2) : AloneInv v R Q c'.1 c'.2 := by
  induction hr with
  | refl => exact h
  | @step b c hb hs ih =>
    obtain ⟨D, t, hw, hD, hts, hg⟩ := ih
    obtain ⟨bs, bw⟩ := b
    simp only at hw hts
    subst hw; subst hts
    cases hs with
    | @mk _ i s t' _ w' hi hst =>
      cases i with
      | succ i => simp at hi
      | zero =>
        simp only [List.getElem?_cons_zero, Option.some.injEq] at hi
        subst hi
        cases hst with
        | @get p k _ u hu =>
          obtain ⟨u', hu', hg'⟩ := hg D rfl hD
          rw [show at? (over v D) p = some u' from hu'] at hu
          cases hu
          have hg' : Good (alone v R) (k u) D (fun _ => Q) := by
            rcases hg' with hg' | ⟨x, hx, hg'⟩
            · exact hg'
            · rwa [upd_same hx.1] at hg'
          exact ⟨D, _, rfl, hD, rfl, hg'⟩
        | @set p x k _ =>
          obtain ⟨h1, h2, _, hg'⟩ := hg
          exact ⟨upd D p x, _, put_over p v D x (h2.done hD), allowed_upd hD h1, rfl, hg' _ (by simp [upd]) kept_upd⟩

/-- Assignments that `pack()` may make do not change what it returns. -/
theorem same_pack {m : PMsg} (hm : SafeMsg m) {c : String} {vs : List Val} {R : Path → Val → Prop} (h0 : ∀ x, ¬ R [] x)
    (hg : ∀ M le K, Good ⟨.obj c vs, R, M, le, (· = [0, 2]), fun _ => False⟩ m.steps K (fun _ b => b = m.cls.pack (.obj c vs))) {D : Done} (hD : Allowed R D) :
    (∃ us, over (.obj c vs) D = .obj c us) ∧ m.cls.pack (over (.obj c vs) D) = m.cls.pack (.obj c vs) := by
  have hD0 : D [] = none := by
    cases h : D [] with
    | none => rfl
    | some x => exact absurd (hD _ _ h) (h0 x)
  have hw := over_obj (c := c) (vs := vs) hD0
  refine ⟨⟨_, hw⟩, ?_⟩
  obtain ⟨a, K', h1, _, ha⟩ := exec_good (v := .obj c vs) (R := R) m.steps hD (hg _ _ D)
  obtain ⟨R', h0', _, hg'⟩ := hm c (overs vs D 0)
  obtain ⟨a', K'', h1', _, ha'⟩ := exec_good (v := .obj c (overs vs D 0)) (R := R') m.steps allowed_none (hg' _ _ _)
  rw [over_none, ← hw, h1] at h1'
  simp only [Option.some.injEq, Prod.mk.injEq] at h1'
  rw [hw, ← ha', ← h1'.1, ha]

/-! ## Messages that replace their body, packed by one thread -/

theorem exec_get {α : Type} {p : Path} {k : Val → Prog α} {w u : Val} (h : at? w p = some u) : exec (.get p k) w = exec (k u) w := by
  rw [exec, h]

theorem exec_bind {α β : Type} (f : α → Prog β) : ∀ (t : Prog α) (w : Val),
    exec (t.bind f) w = match exec t w with | some (a, w') => exec (f a) w' | none => none
  | .ret a, w => rfl
  | .get p k, w => by
    simp only [Prog.bind, exec]
    cases at? w p with
    | none => rfl
    | some v => exact exec_bind f (k v) w
  | .set p x k, w => by
    simp only [Prog.bind, exec]
    exact exec_bind f k _

theorem overs_from (vs : List Val) (D : Done) (k : Nat) (h : ∀ i q, D ((k + i) :: q) = none) : overs vs D k = vs := by
  refine List.ext_getElem? ?_
  intro i
  rw [overs_getElem?]
  cases vs[i]? with
  | none => rfl
  | some u =>
    exact congrArg some (over_id u _ (fun q => h i q))

theorem exec_super {m : MsgCls} (hv : m.valid = fun _ => .ok ()) (c : String) (hdr : Val) (us : List Val) :
    ∃ hdr', exec (superP m us.length) (.obj c (hdr :: us)) = some (genericPack m hdr us, .obj c (hdr' :: us)) := by
  let own : Nat → Path → Val → Prop := fun _ _ _ => False
  let R := msgWrites m hdr (.ok us) own
  have hA : At (alone (.obj c (hdr :: us)) R) [] (.obj c (hdr :: us)) R := at_root rfl rfl
  have root : ∀ x, ¬ R [] x := fun _ h => h
  have hf := safe_leaves m.body
  have child : ∀ (k : Nat) (f : String × PAttr) (w : Val), (leaves m.body)[k]? = some f → us[k]? = some w →
      At (alone (.obj c (hdr :: us)) R) [k + 1] w (f.2.writes w) := by
    intro k f w hk hw
    have := hA.child root (j := k + 1) (u := w) (by rw [at?_obj]; simpa using hw) (s' := f.2.writes w) ?_
    · simpa using this
    · intro q x
      refine ⟨fun h => h.elim, fun h => ?_⟩
      exact (leaves_no (fs := m.body) (vs := us) (q := k :: q) (x := x) ⟨f, w, hk, hw, h⟩).elim
  have hg := generic_good (leaves_fields m.body) hA (valid := .ret (.ok ())) (Inv := fun _ => True) rfl (fun _ _ _ _ => trivial) (fun _ _ _ _ => trivial)
    (fun k f w hk hw K _ => (hf f (List.mem_of_getElem? hk)).size K (child k f w hk hw))
    (fun k f w hk hw K _ => ((hf f (List.mem_of_getElem? hk)).pack K (child k f w hk hw)).mono (fun _ _ h => ⟨h.1, trivial, h.2⟩))
    (fun K _ => ⟨by rw [hv], rfl⟩) (fun _ => none) trivial
  obtain ⟨a, K', h1, hK, rfl⟩ := exec_good (v := .obj c (hdr :: us)) (R := R) _ allowed_none hg
  rw [over_none] at h1
  have h0 : K' [] = none := by
    cases h : K' [] with
    | none => rfl
    | some x => exact absurd (hK _ _ h) (root x)
  rw [over_obj h0] at h1
  refine ⟨over hdr (fun q => K' (0 :: q)), h1.trans ?_⟩
  have : overs (hdr :: us) K' 0 = over hdr (fun q => K' (0 :: q)) :: us := by
    simp only [overs]
    rw [overs_from us K' 1]
    intro i q
    cases h : K' ((1 + i) :: q) with
    | none => rfl
    | some x =>
      have hr := hK _ _ h
      rw [Nat.add_comm] at hr
      exact hr.elim
  rw [this]

theorem pack_nth {m : RMsg} (hm : m ∈ replacing) {vs ws : List Val} (h : m.cls.prep vs = .ok ws) :
    vs.length = m.place ∧ ws = vs.set (m.place - 1) (ws[m.place - 1]?.getD .none) ∧
      (m.replaced (vs[m.place - 1]?.getD .none) = false → ws = vs) := by
  simp only [replacing, List.mem_cons, List.not_mem_nil, or_false] at hm
  rcases hm with rfl | rfl | rfl | rfl
  · simp only [V01.statsRequest, V01.statsRequestPrep] at h
    split at h
    · split at h <;> cases h <;> rename_i hs <;> refine ⟨rfl, rfl, ?_⟩ <;> simp [hs]
    · cases h
  · simp only [V01.statsReply, V01.statsReplyPrep] at h
    split at h
    · split at h
      · split at h <;> cases h <;> rename_i ht _ _ <;> refine ⟨rfl, rfl, ?_⟩ <;> simp_all
      · cases h; rename_i ht; refine ⟨rfl, rfl, ?_⟩; simp
    · cases h
  all_goals
    simp only [V04.multipartRequest, V04.multipartReply, V04.multipartPrep] at h
    split at h
    · split at h
      · rename_i t f p body ht
        have : ∃ b, ws = [t, f, p, .bytes b] := by
          repeat' split at h
          all_goals first | (cases h; done) | (cases h; exact ⟨_, rfl⟩)
        obtain ⟨b, rfl⟩ := this
        refine ⟨rfl, rfl, ?_⟩
        simp [ht]
      · cases h; refine ⟨rfl, rfl, ?_⟩; simp
    · cases h

/-- One thread that is not interrupted: the packet of the sequential model, and afterwards the body is the one that was there. -/
theorem replacing_alone {m : RMsg} (hm : m ∈ replacing) (c : String) (hdr : Val) (vs : List Val) (hl : vs.length = m.place) :
    ∃ hdr' ws, exec m.steps (.obj c (hdr :: vs)) = some (m.cls.pack (.obj c (hdr :: vs)), .obj c (hdr' :: ws)) ∧
      ((∃ b, m.cls.pack (.obj c (hdr :: vs)) = .ok b) → ws = vs) := by
  have hpos : 0 < m.place := by
    simp only [replacing, List.mem_cons, List.not_mem_nil, or_false] at hm
    rcases hm with rfl | rfl | rfl | rfl <;> decide
  have hvalid : m.cls.valid = fun _ => .ok () := by
    simp only [replacing, List.mem_cons, List.not_mem_nil, or_false] at hm
    rcases hm with rfl | rfl | rfl | rfl <;> rfl
  obtain ⟨n, hn⟩ : ∃ n, m.place = n + 1 := ⟨m.place - 1, by omega⟩
  have hvn : vs[n]? = some (vs[n]'(by omega)) := List.getElem?_eq_getElem (by omega)
  obtain ⟨body, hb⟩ : ∃ body, body = vs[n]'(by omega) := ⟨_, rfl⟩
  rw [← hb] at hvn
  have hread : at? (.obj c (hdr :: vs)) [m.place] = some body := by rw [hn, at?_obj]; simpa using hvn
  have hput : ∀ h' us x, put (.obj c (h' :: us)) [m.place] x = .obj c (h' :: us.set n x) := by
    intro h' us x
    rw [hn]
    simp only [put, List.modify_succ_cons]
    congr 2
    refine List.ext_getElem? ?_
    intro i
    simp only [List.getElem?_modify, List.getElem?_set]
    by_cases e : n = i
    · subst e
      by_cases hu : n < us.length
      · simp [hu, put]
      · simp [hu]
    · simp [e]
  cases hp : m.cls.prep vs with
  | error e =>
    refine ⟨hdr, vs, ?_, fun _ => rfl⟩
    rw [RMsg.steps, exec_get hread, exec_get rfl]
    simp only [hp, MsgCls.pack, exec]
  | ok ws =>
    obtain ⟨_, h2, h3⟩ := pack_nth hm hp
    have hrest : ∀ us, us.length = vs.length → ∃ hdr' us', exec ((superP m.cls vs.length).andThen fun b => .set [m.place] body (.ret (.ok b)))
        (.obj c (hdr :: us)) = some (genericPack m.cls hdr us, .obj c (hdr' :: us')) ∧ ((∃ b, genericPack m.cls hdr us = .ok b) → us' = us.set n body) := by
      intro us hus
      obtain ⟨hdr', h1⟩ := exec_super hvalid c hdr us
      rw [hus] at h1
      rw [Prog.andThen, exec_bind, h1]
      cases hg : genericPack m.cls hdr us with
      | error e => exact ⟨hdr', us, rfl, fun h => by obtain ⟨b, hb⟩ := h; cases hb⟩
      | ok b => refine ⟨hdr', us.set n body, ?_, fun _ => rfl⟩; simp only [exec, hput]
    have hpk : m.cls.pack (.obj c (hdr :: vs)) = genericPack m.cls hdr ws := by simp only [MsgCls.pack, hp]
    have hself : vs.set n body = vs := by rw [hb]; exact List.set_getElem_self (by omega)
    rw [hpk]
    cases hr : m.replaced (vs[m.place - 1]?.getD .none) with
    | false =>
      obtain rfl := h3 hr
      obtain ⟨hdr', us', h4, h5⟩ := hrest ws rfl
      refine ⟨hdr', us', ?_, fun h => (h5 h).trans hself⟩
      rw [RMsg.steps, exec_get hread, exec_get rfl]
      simp only [hp, hr]
      exact h4
    | true =>
      have hl' : ws.length = vs.length := by rw [h2]; simp
      obtain ⟨hdr', us', h4, h5⟩ := hrest ws hl'
      have hws : vs.set n (ws[m.place - 1]?.getD .none) = ws := by
        have : m.place - 1 = n := by omega
        rw [this] at h2 ⊢; exact h2.symm
      refine ⟨hdr', us', ?_, ?_⟩
      · rw [RMsg.steps, exec_get hread, exec_get rfl]
        simp only [hp, hr, if_true]
        rw [exec, hput, hws]; exact h4
      · intro h
        rw [h5 h, ← hws]; simp [hself]

/-- ErrorMsg of v0x01. -/
theorem error_alone (c : String) (hdr t k d : Val) :
    ∃ hdr' d', exec errorSteps (.obj c [hdr, t, k, d]) = some (V01.errorMsg.pack (.obj c [hdr, t, k, d]), .obj c [hdr', t, k, d']) ∧
      ((∃ b, V01.errorMsg.pack (.obj c [hdr, t, k, d]) = .ok b) → d' = d) := by
  have hread : at? (.obj c [hdr, t, k, d]) [3] = some d := rfl
  have sup := fun us => exec_super (m := V01.errorMsg) rfl c hdr us
  by_cases h1 : d = .none
  · subst h1
    obtain ⟨hdr', h⟩ := sup [t, k, .none]
    refine ⟨hdr', .none, ?_, fun _ => rfl⟩
    rw [errorSteps, exec_get hread, if_pos rfl]
    exact h
  · by_cases h2 : errorSteps.isBytes d = true
    · obtain ⟨hdr', h⟩ := sup [t, k, d]
      refine ⟨hdr', d, ?_, fun _ => rfl⟩
      rw [errorSteps, exec_get hread, if_neg h1, exec_get hread, if_pos h2]
      cases d <;> first | (cases h2; done) | exact h
    · have hprep : V01.errorMsg.prep [t, k, d] = match selfPack [] d with
          | none => .error .attribute
          | some (.error e) => .error e
          | some (.ok b) => .ok [t, k, .bytes b] := by
        cases d <;> first | exact absurd rfl h1 | exact absurd rfl h2 | rfl
      cases hs : selfPack [] d with
      | none =>
        refine ⟨hdr, d, ?_, fun _ => rfl⟩
        rw [errorSteps, exec_get hread, if_neg h1, exec_get hread, if_neg h2, exec_get hread, exec_get hread]
        simp only [hs, MsgCls.pack, hprep, exec]
      | some r =>
        cases r with
        | error e =>
          refine ⟨hdr, d, ?_, fun _ => rfl⟩
          rw [errorSteps, exec_get hread, if_neg h1, exec_get hread, if_neg h2, exec_get hread, exec_get hread]
          simp only [hs, MsgCls.pack, hprep, exec]
        | ok b =>
          have hpk : V01.errorMsg.pack (.obj c [hdr, t, k, d]) = genericPack V01.errorMsg hdr [t, k, .bytes b] := by
            simp only [MsgCls.pack, hprep, hs]
          obtain ⟨hdr', h⟩ := sup [t, k, .bytes b]
          rw [errorSteps, exec_get hread, if_neg h1, exec_get hread, if_neg h2, exec_get hread, exec_get hread, hpk]
          simp only [hs]
          rw [exec, show put (.obj c [hdr, t, k, d]) [3] (.bytes b) = .obj c [hdr, t, k, .bytes b] from rfl, Prog.andThen, exec_bind,
            show superP V01.errorMsg 3 = superP V01.errorMsg [t, k, .bytes b].length from rfl, h]
          cases hg : genericPack V01.errorMsg hdr [t, k, .bytes b] with
          | error e => exact ⟨hdr', .bytes b, rfl, fun h => by obtain ⟨b, hb⟩ := h; cases hb⟩
          | ok p =>
            refine ⟨hdr', d, ?_, fun _ => rfl⟩
            simp only [if_neg h1]
            rfl

/-! ## Uninterrupted runs and schedules are runs -/

theorem exec_runs {α : Type} : ∀ (t : Prog α) {w w' : Val} {a : α}, exec t w = some (a, w') → Runs ([t], w) ([.ret a], w')
  | .ret a, w, w', b, h => by
    simp only [exec, Option.some.injEq, Prod.mk.injEq] at h
    obtain ⟨rfl, rfl⟩ := h
    exact .refl _
  | .get p k, w, w', b, h => by
    simp only [exec] at h
    cases hu : at? w p with
    | none => rw [hu] at h; cases h
    | some u =>
      rw [hu] at h
      exact (Runs.step (.refl _) (.mk (i := 0) rfl (.get hu))).trans (exec_runs (k u) h)
  | .set p x k, w, w', b, h => by
    simp only [exec] at h
    exact (Runs.step (.refl _) (.mk (i := 0) rfl .set)).trans (exec_runs k h)

/-- Thread `i` makes its next step, if it can. -/
def turn {α : Type} (i : Nat) (c : List (Prog α) × Val) : List (Prog α) × Val :=
  match c.1[i]? with
  | some (.get p k) => (match at? c.2 p with | some u => (c.1.set i (k u), c.2) | none => c)
  | some (.set p x k) => (c.1.set i k, put c.2 p x)
  | _ => c

/-- The threads take turns. -/
def turns {α : Type} : List Nat → List (Prog α) × Val → List (Prog α) × Val
  | [], c => c
  | i :: is, c => turns is (turn i c)

theorem turn_runs {α : Type} (i : Nat) (c : List (Prog α) × Val) : Runs c (turn i c) := by
  obtain ⟨ts, w⟩ := c
  simp only [turn]
  cases hi : ts[i]? with
  | none => exact .refl _
  | some t =>
    cases t with
    | ret a => exact .refl _
    | set p x k => exact .step (.refl _) (.mk hi .set)
    | get p k =>
      simp only
      cases hu : at? w p with
      | none => exact .refl _
      | some u => exact .step (.refl _) (.mk hi (.get hu))

theorem turns_runs {α : Type} : ∀ (is : List Nat) (c : List (Prog α) × Val), Runs c (turns is c)
  | [], _ => .refl _
  | i :: is, c => (turn_runs i c).trans (turns_runs is _)

theorem run_find {α : Type} (is : List Nat) (c : List (Prog α) × Val) (P : List (Prog α) × Val → Prop) (h : P (turns is c)) :
    ∃ ts w, Runs c (ts, w) ∧ P (ts, w) := by
  have := turns_runs is c
  generalize turns is c = c' at h this
  exact ⟨c'.1, c'.2, this, h⟩

/-- The result of thread `i`, if it has one. -/
def resultOf {α : Type} (i : Nat) (c : List (Prog α) × Val) : Option α :=
  match c.1[i]? with
  | some (.ret a) => some a
  | _ => none

theorem resultOf_some {α : Type} {i : Nat} {c : List (Prog α) × Val} {a : α} (h : resultOf i c = some a) : c.1[i]? = some (.ret a) := by
  simp only [resultOf] at h
  split at h
  · cases h; assumption
  · cases h

/-! ## A test for `NoPad` -/

def padsHere : Val → Bool
  | .obj "04.ActionSetField" [_, _, f] => (match V04.oxm.pack f with | .ok b => b.length % 8 != 4 | .error _ => false)
  | _ => false

mutual
def padsIn : Val → Bool
  | .obj c vs => padsHere (.obj c vs) || padsInAll vs
  | .list _ xs => padsInAll xs
  | _ => false
def padsInAll : List Val → Bool
  | [] => false
  | v :: vs => padsIn v || padsInAll vs
end

theorem padsInAll_mem : ∀ {vs : List Val} {v : Val}, padsInAll vs = false → v ∈ vs → padsIn v = false := by
  intro vs v h hv
  induction vs with
  | nil => cases hv
  | cons u us ih =>
    simp only [padsInAll, Bool.or_eq_false_iff] at h
    rcases List.mem_cons.1 hv with rfl | hv
    · exact h.1
    · exact ih h.2 hv

theorem noPad_of : ∀ (v : Val), padsIn v = false → NoPad v := by
  intro v hv p
  induction p generalizing v with
  | nil =>
    intro t l f hp b hb
    simp only [at?, Option.some.injEq] at hp
    subst hp
    simp only [padsIn, padsHere, hb, Bool.or_eq_false_iff] at hv
    simpa using hv.1
  | cons i p ih =>
    intro t l f hp
    cases v with
    | obj c vs =>
      simp only [at?] at hp
      cases hi : vs[i]? with
      | none => rw [hi] at hp; cases hp
      | some u =>
        rw [hi] at hp
        simp only [padsIn, Bool.or_eq_false_iff] at hv
        exact ih u (padsInAll_mem hv.2 (List.mem_of_getElem? hi)) t l f hp
    | list g vs =>
      simp only [at?] at hp
      cases hi : vs[i]? with
      | none => rw [hi] at hp; cases hp
      | some u =>
        rw [hi] at hp
        simp only [padsIn] at hv
        exact ih u (padsInAll_mem hv (List.mem_of_getElem? hi)) t l f hp
    | _ => simp [at?] at hp

end Pyof.Threads
