import Verif.Spec.NetHistory
import Verif.Lemmas.Slack
/-!
# Network packets packed step by step
-/
namespace Pyof.Net
open Threads

/-- Threads that all have the result `r`. -/
theorem threads_good {α : Type} {v : Val} {R : Path → Val → Prop} (hR : Single R) {t : Prog α} {r : α}
    (hg : ∀ M le K, Good ⟨v, R, M, le, (· = [0, 2]), fun _ => False⟩ t K (fun _ b => b = r)) {n : Nat} {ts : List (Prog α)} {w : Val}
    (h : Runs (List.replicate n t, v) (ts, w)) :
    (∀ t ∈ ts, t = .ret r ∨ CanStep t w) ∧ (∃ ts' w', Runs (ts, w) (ts', w') ∧ ∀ t ∈ ts', t = .ret r) ∧ ∃ D, w = over v D ∧ Allowed R D := by
  have hi : SharedInv v R (fun b => b = r) (List.replicate n t) v :=
    ⟨fun _ => none, (over_none _).symm, allowed_none, fun t ht => ⟨fun _ => none, nofun, by rw [List.eq_of_mem_replicate ht]; exact hg _ _ _⟩⟩
  have hr : SharedInv v R (fun b => b = r) ts w := shared_runs hR h hi
  refine ⟨?_, ?_, ?_⟩
  · intro t ht
    rcases shared_can hr ht with ⟨r, rfl, rfl⟩ | h
    · exact Or.inl rfl
    · exact Or.inr h
  · obtain ⟨ts', w', h1, h2⟩ := shared_all hR hr
    refine ⟨ts', w', h1, ?_⟩
    intro t ht
    have hr' : SharedInv v R (fun b => b = r) ts' w' := shared_runs hR h1 hr
    obtain ⟨r2, rfl⟩ := h2 t ht
    rcases shared_can hr' ht with ⟨r3, e, rfl⟩ | ⟨c, hc⟩
    · exact e
    · cases hc
  · obtain ⟨D, hw, hD, _⟩ := hr
    exact ⟨D, hw, hD⟩

/-! ## Reading and assigning attributes of the packet -/

section steps
variable {C : Ctx} {p : Path} {c : String} {vs : List Val} {s : Path → Val → Prop}

theorem good_get (h : At C p (.obj c vs) s) (h0 : ∀ x, ¬ s [] x) {i : Nat} {v : Val} (hv : vs[i]? = some v) (hs : ∀ q x, ¬ s (i :: q) x) {α : Type}
    {k : Val → Prog α} {K : Done} {Q : Done → α → Prop} (hk : Good C (k v) K Q) : Good C (.get (p ++ [i]) k) K Q :=
  fun _ _ hD => ⟨v, h.get h0 hv hs hD, Or.inl hk⟩

theorem good_known (h : At C p (.obj c vs) s) (h0 : ∀ x, ¬ s [] x) {i : Nat} {v : Val} (hi : i < vs.length) {α : Type}
    {k : Val → Prog α} {K : Done} (hv : K (p ++ [i]) = some v) {Q : Done → α → Prop} (hk : Good C (k v) K Q) : Good C (.get (p ++ [i]) k) K Q := by
  intro D hM hD
  obtain ⟨h3, _⟩ := (h.child h0 (j := i) (u := vs[i]) (by rw [at?_obj]; exact List.getElem?_eq_getElem hi)
    (s' := fun q x => s (i :: q) x) (fun _ _ => Iff.rfl)).read hD
  have h5 : D (p ++ [i]) = some v := C.le K D hM _ _ hv
  rw [over_some (v := vs[i]) (D := fun q => D (p ++ [i] ++ q)) (x := v) (by simpa using h5)] at h3
  exact ⟨v, h3, Or.inl hk⟩

theorem good_set (h : At C p (.obj c vs) s) (h0 : ∀ x, ¬ s [] x) {i : Nat} {x : Val} (hs : s [i] x) {α : Type} {k : Prog α} {K K0 : Done}
    {Q : Done → α → Prop} (hF : Frame C p K0 K) (hk : ∀ K', K' (p ++ [i]) = some x → (∀ j, j ≠ i → K' (p ++ [j]) = K (p ++ [j])) → Frame C p K0 K' → Good C k K' Q) :
    Good C (.set (p ++ [i]) x k) K Q :=
  ⟨(h.here [i] x).2 hs, clear_child h.clear (h.root h0) i, ⟨h.mine [i], p, i, _, rfl, h.val⟩,
    fun K' h1 h2 => hk K' h1 (fun j hj => h2 _ .child (by simpa using hj)) (hF.trans h2.frame)⟩

/-- Reading an attribute that may have been assigned. -/
theorem good_maybe (h : At C p (.obj c vs) s) (h0 : ∀ x, ¬ s [] x) {i : Nat} {v x : Val} (hv : vs[i]? = some v)
    (hs : ∀ q y, s (i :: q) y → q = [] ∧ y = x) {α : Type} {k : Val → Prog α} {K : Done} {Q : Done → α → Prop}
    (h1 : Good C (k v) K Q) (h2 : Good C (k x) (upd K (p ++ [i]) x) Q) : Good C (.get (p ++ [i]) k) K Q := by
  intro D hM hD
  obtain ⟨h3, h4⟩ := (h.child h0 (j := i) (u := v) (by rw [at?_obj]; exact hv) (s' := fun q x => s (i :: q) x) (fun _ _ => Iff.rfl)).read hD
  cases hd : D (p ++ [i]) with
  | none =>
    rw [over_leaf (v := v)] at h3
    · exact ⟨v, h3, Or.inl h1⟩
    · intro q y hq
      obtain ⟨rfl, _⟩ := hs q y (h4 q y hq)
      simp [hd] at hq
  | some y =>
    have hy : y = x := (hs [] y (h4 [] y (by simpa using hd))).2
    subst hy
    rw [over_some (v := v) (D := fun q => D (p ++ [i] ++ q)) (x := y) (by simpa using hd)] at h3
    exact ⟨y, h3, Or.inr ⟨y, ⟨rfl, h.mine [i]⟩, h2⟩⟩
end steps

/-! ## VLAN -/

theorem vlan_root (vs : List Val) (x : Val) : ¬ vlanCls.writes vs [] x := by
  intro h
  simp only [vlanCls] at h
  split at h
  · rcases h.2 with ⟨h, _⟩ | ⟨h, _⟩ | ⟨h, _⟩ | ⟨h, _⟩ <;> cases h
  · exact h

theorem orZero_ne (a : Val) : orZero a ≠ .none := by cases a <;> simp [orZero]

theorem orZero_some {a : Val} (h : a ≠ .none) : orZero a = a := by cases a <;> first | rfl | exact absurd rfl h

theorem vlan_pack_tag {tpid a b c : Val} (h : ¬ (a = .none ∧ b = .none ∧ c = .none)) :
    vlanPack tpid a b c = (match tci (orZero a) (orZero b) (orZero c) with | .error e => .error e | .ok t => packAttrs vlanFields [tpid, .int t]) := by
  unfold vlanPack
  split
  · exact absurd ⟨rfl, rfl, rfl⟩ h
  · rfl

section vlan
variable {C : Ctx} {p : Path} {tpid t a b c : Val}

theorem vlan_two (q : Path) (y : Val) (h : vlanCls.writes [tpid, t, a, b, c] (2 :: q) y) : q = [] ∧ y = orZero a := by
  simpa [vlanCls] using h.2
theorem vlan_three (q : Path) (y : Val) (h : vlanCls.writes [tpid, t, a, b, c] (3 :: q) y) : q = [] ∧ y = orZero b := by
  simpa [vlanCls] using h.2
theorem vlan_four (q : Path) (y : Val) (h : vlanCls.writes [tpid, t, a, b, c] (4 :: q) y) : q = [] ∧ y = orZero c := by
  simpa [vlanCls] using h.2
theorem vlan_one (q : Path) (y : Val) (h : vlanCls.writes [tpid, t, a, b, c] (1 :: q) y) :
    q = [] ∧ ∃ t, tci (orZero a) (orZero b) (orZero c) = .ok t ∧ y = .int t := by
  simpa [vlanCls] using h.2
theorem vlan_other {vs : List Val} {j : Nat} (h : j = 0 ∨ 5 ≤ j) (q : Path) (y : Val) : ¬ vlanCls.writes vs (j :: q) y := by
  intro h'
  simp only [vlanCls] at h'
  split at h'
  · rcases h'.2 with ⟨h1, _⟩ | ⟨h1, _⟩ | ⟨h1, _⟩ | ⟨h1, _⟩ <;> · simp only [List.cons.injEq] at h1; omega
  · exact h'
theorem vlan_empty (q : Path) (y : Val) : ¬ vlanCls.writes [tpid, t, .none, .none, .none] q y := fun h => h.1 ⟨rfl, rfl, rfl⟩

/-- One of the three assignments. -/
theorem good_zero {vs : List Val} (h : At C p (.obj "net.VLAN" vs) (vlanCls.writes vs)) {i : Nat} {v : Val} (hv : vs[i]? = some v)
    (hs : ∀ q y, vlanCls.writes vs (i :: q) y → q = [] ∧ y = orZero v) (hw : vlanCls.writes vs [i] (orZero v)) {k : Prog (Res Bytes)} {K K0 : Done}
    {Q : Done → Res Bytes → Prop} (hF : Frame C p K0 K)
    (hk : ∀ K', K' (p ++ [i]) = some (orZero v) → (∀ j, j ≠ i → K' (p ++ [j]) = K (p ++ [j])) → Frame C p K0 K' → Good C k K' Q) :
    Good C (zeroP (p ++ [i]) k) K Q := by
  unfold zeroP
  have hlt : i < vs.length := (List.getElem?_eq_some_iff.1 hv).1
  have hF' : Frame C p K0 (upd K (p ++ [i]) (orZero v)) := hF.trans (kept_upd (C := C)).frame
  -- it is not `None` when it is read again
  have second : ∀ K1, (K1 = K ∧ v ≠ .none) ∨ K1 = upd K (p ++ [i]) (orZero v) → Good C (.get (p ++ [i]) fun b => .set (p ++ [i]) b k) K1 Q := by
    rintro K1 (⟨rfl, hn⟩ | rfl)
    · refine good_maybe h (vlan_root vs) hv hs ?_ ?_
      · have hz := orZero_some hn
        have : Good C (.set (p ++ [i]) (orZero v) k) K1 Q := good_set h (vlan_root vs) hw hF hk
        rwa [hz] at this
      · refine good_set h (vlan_root vs) hw hF' fun K' h1 h2 h3 => hk K' h1 (fun j hj => ?_) h3
        rw [h2 j hj, upd, if_neg (by simpa using hj)]
    · refine good_known h (vlan_root vs) hlt (v := orZero v) (by simp [upd]) ?_
      refine good_set h (vlan_root vs) hw hF' fun K' h1 h2 h3 => hk K' h1 (fun j hj => ?_) h3
      rw [h2 j hj, upd, if_neg (by simpa using hj)]
  refine good_maybe h (vlan_root vs) hv hs ?_ ?_
  · by_cases hn : v = .none
    · subst hn
      exact good_set h (vlan_root vs) hw hF hk
    · have := second K (Or.inl ⟨rfl, hn⟩)
      cases v <;> first | exact absurd rfl hn | exact this
  · have := second _ (Or.inr rfl)
    have hz := orZero_ne v
    generalize orZero v = z at *
    cases z <;> first | exact absurd rfl hz | exact this

theorem vlan_rest (hn : ¬ (a = .none ∧ b = .none ∧ c = .none)) (h : At C p (.obj "net.VLAN" [tpid, t, a, b, c]) (vlanCls.writes [tpid, t, a, b, c]))
    {K K0 : Done} (hF : Frame C p K0 K) :
    Good C (vlanRest p) K (fun K' r => r = vlanPack tpid a b c ∧ Frame C p K0 K') := by
  have root := vlan_root [tpid, t, a, b, c]
  unfold vlanRest
  refine good_zero h rfl vlan_two ⟨hn, Or.inl ⟨rfl, rfl⟩⟩ hF fun K1 h1 _ hF1 => ?_
  refine good_zero h rfl vlan_three ⟨hn, Or.inr (Or.inl ⟨rfl, rfl⟩)⟩ hF1 fun K2 h2 o2 hF2 => ?_
  refine good_zero h rfl vlan_four ⟨hn, Or.inr (Or.inr (Or.inl ⟨rfl, rfl⟩))⟩ hF2 fun K3 h3 o3 hF3 => ?_
  refine good_known h root (by simp) (v := orZero a) (by rw [o3 2 (by decide), o2 2 (by decide)]; exact h1) ?_
  refine good_known h root (by simp) (v := orZero b) (by rw [o3 3 (by decide)]; exact h2) ?_
  refine good_known h root (by simp) (v := orZero c) h3 ?_
  rw [vlan_pack_tag hn]
  cases ht : tci (orZero a) (orZero b) (orZero c) with
  | error e => exact ⟨rfl, hF3⟩
  | ok n =>
    refine good_set h root ⟨hn, Or.inr (Or.inr (Or.inr ⟨rfl, n, ht, rfl⟩))⟩ hF3 fun K4 h4 _ hF4 => ?_
    have hp := packs_good h root (safe_leaves vlanFields) [(1, .int n)] ?_ [tpid, .int n, a, b, c] rfl ?_ K4 K0 ?_ hF4
    · refine hp.mono ?_
      rintro K' r ⟨rfl, _, hF⟩
      exact ⟨by rw [leaves_fields]; rfl, hF⟩
    · intro j f hf
      match j, hf with
      | 0, hf => exact Or.inl ⟨rfl, fun q x => ⟨fun h => (vlan_other (Or.inl rfl) q x h).elim, fun h => (leaves_no h).elim⟩⟩
      | 1, hf => cases hf; exact Or.inr ⟨rfl, _, rfl⟩
      | j + 2, hf => simp [leaves, vlanFields] at hf
    · intro j w hw
      match j, hw with
      | 0, hw => exact hw
      | 1, hw => simp at hw; exact hw.symm
      | 2, hw => exact hw
      | 3, hw => exact hw
      | 4, hw => exact hw
      | n + 5, hw => simp at hw
    · intro j x hx
      rw [lookup_one] at hx
      split at hx
      · rename_i e; subst e; cases hx; exact h4
      · cases hx
end vlan

theorem five {vs : List Val} (h : vs.length = 5) : ∃ tpid t a b c, vs = [tpid, t, a, b, c] := by
  match vs, h with
  | [tpid, t, a, b, c], _ => exact ⟨tpid, t, a, b, c, rfl⟩

theorem safe_vlanCls : SafeCls vlanCls where
  root := vlan_root
  once := by
    intro vs q x y hx hy
    left
    simp only [vlanCls] at hx hy
    split at hx
    · rcases hx.2 with ⟨rfl, rfl⟩ | ⟨rfl, rfl⟩ | ⟨rfl, rfl⟩ | ⟨rfl, n, h1, rfl⟩
      · simp at hy; exact hy.2.symm
      · simp at hy; exact hy.2.symm
      · simp at hy; exact hy.2.symm
      · simp [h1] at hy; exact hy.2.symm
    · exact hx.elim
  size := fun _ _ => ⟨rfl, rfl⟩
  pack := by
    intro C p vs K h
    by_cases hl : vs.length = 5
    · obtain ⟨tpid, t, a, b, c, rfl⟩ := five hl
      have root := vlan_root [tpid, t, a, b, c]
      simp only [vlanCls, List.length_cons, List.length_nil, Nat.reduceAdd, if_true]
      show Good C _ K (fun K' r => r = vlanPack tpid a b c ∧ Frame C p K K')
      by_cases hn : a = .none ∧ b = .none ∧ c = .none
      · obtain ⟨rfl, rfl, rfl⟩ := hn
        refine good_get h root (v := .none) rfl (fun q x => vlan_empty _ x) ?_
        refine good_get h root (v := .none) rfl (fun q x => vlan_empty _ x) ?_
        refine good_get h root (v := .none) rfl (fun q x => vlan_empty _ x) ?_
        exact ⟨rfl, Frame.refl⟩
      · have rest : ∀ K', Frame C p K K' → Good C (vlanRest p) K' (fun K' r => r = vlanPack tpid a b c ∧ Frame C p K K') :=
          fun K' hF => vlan_rest hn h hF
        have f1 : Frame C p K (upd K (p ++ [2]) (orZero a)) := (kept_upd (C := C)).frame
        refine good_maybe h root rfl vlan_two ?_ ?_
        · by_cases ha : a = .none
          · subst ha
            have f2 : Frame C p K (upd K (p ++ [3]) (orZero b)) := (kept_upd (C := C)).frame
            refine good_maybe h root rfl vlan_three ?_ ?_
            · by_cases hb : b = .none
              · subst hb
                have f3 : Frame C p K (upd K (p ++ [4]) (orZero c)) := (kept_upd (C := C)).frame
                refine good_maybe h root rfl vlan_four ?_ ?_
                · have := rest K Frame.refl
                  cases c <;> first | exact absurd ⟨rfl, rfl, rfl⟩ hn | exact this
                · have := rest _ f3
                  have hz := orZero_ne c
                  generalize orZero c = z at *
                  cases z <;> first | exact absurd rfl hz | exact this
              · have := rest K Frame.refl
                cases b <;> first | exact absurd rfl hb | exact this
            · have := rest _ f2
              have hz := orZero_ne b
              generalize orZero b = z at *
              cases z <;> first | exact absurd rfl hz | exact this
          · have := rest K Frame.refl
            cases a <;> first | exact absurd rfl ha | exact this
        · have := rest _ f1
          have hz := orZero_ne a
          generalize orZero a = z at *
          cases z <;> first | exact absurd rfl hz | exact this
    · simp only [vlanCls, hl, if_false]
      refine ⟨?_, Frame.refl⟩
      match vs, hl with
      | [], _ | [_], _ | [_, _], _ | [_, _, _], _ | [_, _, _, _], _ | _ :: _ :: _ :: _ :: _ :: _ :: _, _ => rfl
      | [_, _, _, _, _], h => exact absurd rfl h

theorem safe_vlan : Safe (oneOf vlan [vlanCls]) := by
  refine safe_oneOf (by intro k hk; simp at hk; subst hk; exact safe_vlanCls) ?_
  intro k hk vs _
  simp at hk; subst hk
  exact ⟨rfl, rfl⟩

theorem classOnly_vlan : ClassOnly isVlan := by
  refine ⟨fun c vs ws => ?_, fun v hv => ?_⟩
  · by_cases h : c = "net.VLAN"
    · subst h; rfl
    · simp [isVlan, h]
  · cases v <;> simp [isVlan] at hv ⊢

theorem safe_vlans : Safe vlansP := safe_list classOnly_vlan safe_vlan (fun _ _ => rfl)

theorem ethernetP_fields : ethernetFieldsP.fields = ethernetFields := rfl

theorem safe_ethernet : SafeCls ethernetCls := safe_plain _ (safe_leavesBut (by intro a ha; simp at ha; subst ha; exact safe_vlans) _)
theorem safe_lldp : SafeCls lldpCls := safe_plain _ (safe_leaves _)

/-- What is shown of each class.  `S`: attributes that pack alike, whatever is changed later. -/
def Law (k : NetCls) : Prop := ∃ S : List Val → List Val → Prop,
  (∀ vs, S vs vs) ∧ (∀ us vs ws, S us vs → S vs ws → S us ws) ∧
  (∀ vs ws i p c, S vs ws → S (vs.modify i fun v => alter v p c) (ws.modify i fun v => alter v p c)) ∧
  (∀ vs ws, S vs ws → vs.length = ws.length ∧ k.pack vs = k.pack ws) ∧
  ∀ vs, vs.length = k.arity → Fit (.obj k.name vs) → ∃ R : Path → Val → Prop, (∀ x, ¬ R [] x) ∧ Single R ∧
    (∀ M le K, Good ⟨.obj k.name vs, R, M, le, (· = [0, 2]), fun _ => False⟩ k.steps K (fun _ b => b = k.pack vs)) ∧
    (∀ D, Allowed R D → k.pack (overs vs D 0) = k.pack vs) ∧
    (Whole (.obj k.name vs) → ∀ D, Allowed R D → S vs (overs vs D 0))

/-! ## Classes that assign nothing -/

theorem law_const {k : NetCls} (h : ∀ vs M le K, vs.length = k.arity → Fit (.obj k.name vs) →
    Good ⟨.obj k.name vs, fun _ _ => False, M, le, (· = [0, 2]), fun _ => False⟩ k.steps K (fun _ b => b = k.pack vs)) : Law k := by
  have same : ∀ vs (D : Done), Allowed (fun _ _ => False) D → overs vs D 0 = vs := fun vs D hD =>
    overs_id vs D 0 fun q => by cases hq : D q with | none => rfl | some x => exact (hD q x hq).elim
  refine ⟨Eq, fun _ => rfl, fun _ _ _ => Eq.trans, fun _ _ _ _ _ h => by rw [h], fun _ _ h => by rw [h]; exact ⟨rfl, rfl⟩, ?_⟩
  intro vs hl hf
  exact ⟨fun _ _ => False, fun _ h => h, fun _ _ _ h => h.elim, fun M le K => h vs M le K hl hf, fun D hD => by rw [same vs D hD],
    fun _ D hD => (same vs D hD).symm⟩

theorem law_tlv (n : String) (a : Nat) : Law ⟨n, a, tlvSteps, fun vs => tlvPack (.obj n vs)⟩ :=
  law_const fun vs M le K _ _ _ _ hD =>
    ⟨.obj n vs, (at_root (C := ⟨.obj n vs, fun _ _ => False, M, le, (· = [0, 2]), fun _ => False⟩) rfl rfl).read_leaf (fun _ _ h => h) hD, Or.inl rfl⟩

theorem nowhere_leaves {fs : Fields} {vs : List Val} : fieldWrites (leaves fs) vs = fun _ _ => False := by
  funext q x; exact eq_false leaves_no

theorem law_lldp : Law ⟨"net.LLDP", 4, lldpCls.packP [] 4, packAttrs lldpFields⟩ := by
  refine law_const fun vs M le K hl _ => ?_
  have := safe_lldp.pack (C := ⟨.obj "net.LLDP" vs, fun _ _ => False, M, le, (· = [0, 2]), fun _ => False⟩) (vs := vs) K
    (at_root rfl (by show _ = fieldWrites _ vs; rw [nowhere_leaves]))
  rw [hl] at this
  refine this.mono ?_
  rintro K' b ⟨rfl, _⟩
  show packAttrs (leaves lldpFields).fields vs = _
  rw [leaves_fields]

theorem law_arp : Law ⟨"net.ARP", 9, arpSteps, arpPack⟩ := by
  refine law_const fun vs M le K hl _ => ?_
  have hA : At ⟨.obj "net.ARP" vs, fun _ _ => False, M, le, (· = [0, 2]), fun _ => False⟩ [] (.obj "net.ARP" vs) (fun _ _ => False) := at_root rfl rfl
  have h0 : vs[0]? = some (vs[0]'(by simp only at hl; omega)) := List.getElem?_eq_getElem _
  have h1 : vs[1]? = some (vs[1]'(by simp only at hl; omega)) := List.getElem?_eq_getElem _
  generalize vs[0]'(by simp only at hl; omega) = a at h0
  generalize vs[1]'(by simp only at hl; omega) = b at h1
  obtain ⟨r, rfl⟩ : ∃ r, vs = a :: b :: r := by
    match vs, h0, h1 with
    | x :: y :: r, h0, h1 => simp at h0 h1; exact ⟨r, by rw [h0, h1]⟩
  show Good _ arpSteps K (fun _ r' => r' = arpPack (a :: b :: r))
  unfold arpSteps
  refine good_get (p := []) hA (fun _ h => h) h0 (fun _ _ h => h) ?_
  cases e : pyEq a (.int 1) with
  | error e' => simp only [arpPack, arpIsValid, e]; rfl
  | ok t =>
    cases t with
    | false => simp only [arpPack, arpIsValid, e]; rfl
    | true =>
      simp only [arpPack, arpIsValid, e]
      refine good_get (p := []) hA (fun _ h => h) h1 (fun _ _ h => h) ?_
      cases e2 : pyEq b (.enum 0x0800) with
      | error e' => rfl
      | ok t =>
        cases t with
        | false => rfl
        | true =>
          have := packs_plain (C := ⟨.obj "net.ARP" (a :: b :: r), fun _ _ => False, M, le, (· = [0, 2]), fun _ => False⟩) (fs := leaves arpFields)
            (at_root rfl (by rw [nowhere_leaves])) (safe_leaves _) K
          simp only at hl
          rw [hl] at this
          refine this.mono ?_
          rintro K' b ⟨rfl, _⟩
          rw [leaves_fields]

/-! ## Classes that assign fixed values to some attributes -/

def Sets (set : List (Nat × Val)) : Path → Val → Prop := fun q x => ∃ i, q = [i] ∧ set.lookup i = some x

theorem sets_root {set : List (Nat × Val)} (x : Val) : ¬ Sets set [] x := by rintro ⟨i, h, _⟩; cases h

theorem sets_single (set : List (Nat × Val)) : Single (Sets set) := by
  rintro q x y ⟨i, rfl, h⟩ ⟨j, e, h'⟩
  cases e; rw [h] at h'; cases h'; rfl

theorem sets_none {set : List (Nat × Val)} {i : Nat} (h : set.lookup i = none) (q : Path) (x : Val) : ¬ Sets set (i :: q) x := by
  rintro ⟨j, e, h'⟩
  cases e; rw [h] at h'; cases h'

theorem law_sets {k : NetCls} (slots : List Nat) (hp : ∀ vs ws, Agree [] (· ∈ slots) vs ws → k.pack vs = k.pack ws)
    (h : ∀ vs, vs.length = k.arity → Fit (.obj k.name vs) → ∃ set : List (Nat × Val), (∀ i x, set.lookup i = some x → i ∈ slots) ∧
      ∀ M le K, Good ⟨.obj k.name vs, Sets set, M, le, (· = [0, 2]), fun _ => False⟩ k.steps K (fun _ b => b = k.pack vs)) : Law k := by
  refine ⟨Agree [] (· ∈ slots), Agree.refl, fun _ _ _ h h' => h.trans h', fun _ _ i p c h => h.modify i p c, fun vs ws h => ⟨h.1, hp vs ws h⟩, ?_⟩
  intro vs hl hf
  obtain ⟨set, h1, h2⟩ := h vs hl hf
  have own : ∀ D, Allowed (Sets set) D → Agree [] (· ∈ slots) vs (overs vs D 0) := by
    intro D hD
    refine agree_own (by intro f hf; cases hf) fun j q x hq => Or.inl ?_
    obtain ⟨i, e, h⟩ := hD _ _ hq
    cases e
    exact h1 _ _ h
  exact ⟨Sets set, sets_root, sets_single set, h2, fun D hD => (hp _ _ (own D hD)).symm, fun _ D hD => own D hD⟩

section sets
variable {C : Ctx} {c : String} {vs : List Val} {set : List (Nat × Val)} {K : Done} {Q : Done → Res Bytes → Prop}

/-- A number that nothing assigns. -/
theorem good_nat (h : At C [] (.obj c vs) (Sets set)) {i n : Nat} (hv : vs[i]? = some (.int n)) (hn : set.lookup i = none) {k : Nat → Prog (Res Bytes)}
    (hk : Good C (k n) K Q) : Good C (natAt i k) K Q :=
  good_get h sets_root hv (sets_none hn) hk

theorem good_str (h : At C [] (.obj c vs) (Sets set)) {i : Nat} {t : Str} (hv : vs[i]? = some (.str t)) (hn : set.lookup i = none)
    {k : Str → Prog (Res Bytes)} (hk : Good C (k t) K Q) : Good C (strAt i k) K Q :=
  good_get h sets_root hv (sets_none hn) hk

theorem good_bytes (h : At C [] (.obj c vs) (Sets set)) {i : Nat} {t : Bytes} (hv : vs[i]? = some (.bytes t)) (hn : set.lookup i = none)
    {k : Bytes → Prog (Res Bytes)} (hk : Good C (k t) K Q) : Good C (bytesAt i k) K Q :=
  good_get h sets_root hv (sets_none hn) hk

theorem good_stored (h : At C [] (.obj c vs) (Sets set)) {i n : Nat} (hl : i < vs.length) (hK : K [i] = some (.int n)) {k : Nat → Prog (Res Bytes)}
    (hk : Good C (k n) K Q) : Good C (natAt i k) K Q :=
  good_known (p := []) h sets_root hl hK hk

theorem good_store (h : At C [] (.obj c vs) (Sets set)) {i : Nat} {x : Val} (hx : set.lookup i = some x) {k : Prog (Res Bytes)}
    (hk : ∀ K', K' [i] = some x → (∀ j, j ≠ i → K' [j] = K [j]) → Good C k K' Q) : Good C (.set [i] x k) K Q :=
  good_set (p := []) h sets_root ⟨i, rfl, hx⟩ Frame.refl fun K' h1 h2 _ => hk K' h1 h2

theorem good_fields (h : At C [] (.obj c vs) (Sets set)) {fs : Fields} {n : Nat} (hn : vs.length = n) {ws : List Val} (hl : ws.length = n)
    (hw : ∀ j w, ws[j]? = some w → (match set.lookup j with | some x => w = x | none => vs[j]? = some w))
    (hK : ∀ j x, set.lookup j = some x → K [j] = some x) {r : Res Bytes} (hr : packAttrs fs ws = r) :
    Good C (packFields [] (leaves fs) 0 n) K (fun _ b => b = r) := by
  subst hn
  refine (packs_good h sets_root (safe_leaves fs) set ?_ ws hl hw K K hK Frame.refl).mono ?_
  · intro j f hf
    cases e : set.lookup j with
    | none => exact Or.inl ⟨rfl, fun q x => ⟨fun h => (sets_none e q x h).elim, fun h => (leaves_no h).elim⟩⟩
    | some x =>
      refine Or.inr ⟨rfl, ?_⟩
      have hf' := hf
      simp only [leaves, List.getElem?_map] at hf'
      cases e2 : fs[j]? with
      | none => rw [e2] at hf'; cases hf'
      | some g => rw [e2] at hf'; cases hf'; exact ⟨_, rfl⟩
  · rintro K' b ⟨rfl, _⟩
    rw [leaves_fields, hr]
end sets

theorem nat?_some {v : Val} {n : Nat} (h : nat? v = some n) : v = .int n := by
  unfold nat? at h; split at h <;> cases h; rfl
theorem str?_some {v : Val} {n : Str} (h : str? v = some n) : v = .str n := by
  unfold str? at h; split at h <;> cases h; rfl
theorem bytes?_some {v : Val} {n : Bytes} (h : bytes? v = some n) : v = .bytes n := by
  unfold bytes? at h; split at h <;> cases h; rfl

/-! ## IPv6 -/

theorem ipv6_shape {vs : List Val} {p : IPv6} (h : ipv6Of vs = some p) : ∃ a b, vs = [a, b, .int p.nextHeader, .int p.hopLimit, p.source, p.destination,
    .bytes p.data, .int p.version, .int p.tclass, .int p.flabel] := by
  unfold ipv6Of at h
  split at h
  · simp only [Option.bind_eq_bind, Option.bind_eq_some_iff] at h
    obtain ⟨_, h1, _, h2, _, h3, _, h4, _, h5, _, h6, h7⟩ := h
    cases h7
    rw [nat?_some h1, nat?_some h2, bytes?_some h3, nat?_some h4, nat?_some h5, nat?_some h6]
    exact ⟨_, _, rfl⟩
  · cases h

theorem ten {vs : List Val} (h : vs.length = 10) : ∃ a b c d e f g h i j, vs = [a, b, c, d, e, f, g, h, i, j] := by
  match vs, h with
  | [a, b, c, d, e, f, g, h, i, j], _ => exact ⟨_, _, _, _, _, _, _, _, _, _, rfl⟩

theorem Agree.here {slots : List Nat} {vs ws : List Val} (h : Agree [] (· ∈ slots) vs ws) {j : Nat} {v w : Val} (hv : vs[j]? = some v) (hw : ws[j]? = some w)
    (hj : j ∉ slots) : v = w := by
  rcases h.2 j v w hv hw hj with h | ⟨f, hf, _⟩
  · exact h
  · cases hf

theorem ipv6Of_len {vs : List Val} (h : vs.length ≠ 10) : ipv6Of vs = none := by
  unfold ipv6Of; split
  · exact absurd rfl h
  · rfl

theorem ipv6Of_agree {vs ws : List Val} (h : Agree [] (· ∈ [0, 1]) vs ws) : ipv6Of vs = ipv6Of ws := by
  by_cases hl : vs.length = 10
  · obtain ⟨a, b, c, d, e, f, g, i, j, k, rfl⟩ := ten hl
    obtain ⟨a', b', c', d', e', f', g', i', j', k', rfl⟩ := ten (h.1 ▸ hl)
    cases Agree.here h (j := 2) rfl rfl (by decide)
    cases Agree.here h (j := 3) rfl rfl (by decide)
    cases Agree.here h (j := 4) rfl rfl (by decide)
    cases Agree.here h (j := 5) rfl rfl (by decide)
    cases Agree.here h (j := 6) rfl rfl (by decide)
    cases Agree.here h (j := 7) rfl rfl (by decide)
    cases Agree.here h (j := 8) rfl rfl (by decide)
    cases Agree.here h (j := 9) rfl rfl (by decide)
    rfl
  · rw [ipv6Of_len hl, ipv6Of_len (h.1 ▸ hl)]

theorem map_fst {α β : Type} (r : Res α) (g : α → β) : (r.map fun b => (b, g b)).map (·.1) = r := by cases r <;> rfl

theorem packAttrs_extra : ∀ (fs : Fields) (vs ws : List Val), vs.length = fs.length → packAttrs fs (vs ++ ws) = packAttrs fs vs
  | [], [], ws, _ => by cases ws <;> rfl
  | f :: fs, v :: vs, ws, h => by
    have ih := packAttrs_extra fs vs ws (by simpa using h)
    show packAttrs (f :: fs) (v :: (vs ++ ws)) = _
    simp only [packAttrs, ih]

def v6Cls : NetCls := ⟨"net.IPv6", 10, ipv6Steps, fun vs => match ipv6Of vs with | some p => p.pack.map (·.1) | none => .error .unmodelled⟩

theorem law_ipv6 : Law v6Cls := by
  refine law_sets [0, 1] (fun vs ws h => by simp only [v6Cls, ipv6Of_agree h]) ?_
  intro vs hl hf
  obtain ⟨p, hp⟩ := hf.2 vs rfl
  have hr : v6Cls.pack vs = p.pack.map (·.1) := by simp only [v6Cls, hp]
  obtain ⟨a, b, rfl⟩ := ipv6_shape hp
  refine ⟨[(1, .int p.data.length), (0, .int (ipv6Word p.version p.tclass p.flabel))], ?_, ?_⟩
  · intro i x h
    by_cases h1 : i = 1
    · subst h1; decide
    · by_cases h0 : i = 0
      · subst h0; decide
      · have e1 : (i == 1) = false := by simpa using h1
        have e0 : (i == 0) = false := by simpa using h0
        simp [List.lookup, e1, e0] at h
  · intro M le K
    rw [hr]
    have hA := at_root (v := .obj "net.IPv6" [a, b, .int p.nextHeader, .int p.hopLimit, p.source, p.destination,
      .bytes p.data, .int p.version, .int p.tclass, .int p.flabel]) (s := Sets [(1, .int p.data.length), (0, .int (ipv6Word p.version p.tclass p.flabel))])
      (C := ⟨.obj "net.IPv6" [a, b, .int p.nextHeader, .int p.hopLimit, p.source, p.destination,
      .bytes p.data, .int p.version, .int p.tclass, .int p.flabel], Sets [(1, .int p.data.length), (0, .int (ipv6Word p.version p.tclass p.flabel))], M, le, (· = [0, 2]), fun _ => False⟩) rfl rfl
    refine good_bytes hA (i := 6) rfl rfl ?_
    refine good_store hA rfl fun K1 h1 _ => ?_
    refine good_nat hA (i := 7) rfl rfl ?_
    refine good_nat hA (i := 8) rfl rfl ?_
    refine good_nat hA (i := 9) rfl rfl ?_
    refine good_store hA rfl fun K2 h2 h3 => ?_
    refine good_fields hA rfl (ws := [.int (ipv6Word p.version p.tclass p.flabel), .int p.data.length, .int p.nextHeader, .int p.hopLimit, p.source, p.destination,
      .bytes p.data, .int p.version, .int p.tclass, .int p.flabel]) rfl ?_ ?_ ?_
    · intro j w hw
      match j with
      | 0 | 1 => cases hw; rfl
      | j + 2 => exact hw
    · intro j x hx
      match j with
      | 0 => cases hx; exact h2
      | 1 => cases hx; rw [h3 1 (by decide)]; exact h1
      | j + 2 => cases hx
    · unfold IPv6.pack
      rw [map_fst]
      exact packAttrs_extra _ [.int (ipv6Word p.version p.tclass p.flabel), .int p.data.length, .int p.nextHeader, .int p.hopLimit, p.source, p.destination,
        .bytes p.data] [.int p.version, .int p.tclass, .int p.flabel] rfl

/-! ## IPv4 -/

theorem ipv4_shape {vs : List Val} {p : IPv4} (h : ipv4Of vs = some p) : ∃ a b c d e, vs = [a, b, c, .int p.identification, d, .int p.ttl, .int p.protocol, e,
    .str p.source, .str p.destination, .bytes p.options, .bytes p.data, .int p.version, .int p.ihl, .int p.dscp, .int p.ecn, .int p.flags, .int p.offset] := by
  unfold ipv4Of at h
  split at h
  · simp only [Option.bind_eq_bind, Option.bind_eq_some_iff] at h
    obtain ⟨_, h1, _, h2, _, h3, _, h4, _, h5, _, h6, _, h7, _, h8, _, h9, _, h10, _, h11, _, h12, _, h13, h14⟩ := h
    cases h14
    rw [nat?_some h1, nat?_some h2, nat?_some h3, str?_some h4, str?_some h5, bytes?_some h6, bytes?_some h7, nat?_some h8, nat?_some h9, nat?_some h10,
      nat?_some h11, nat?_some h12, nat?_some h13]
    exact ⟨_, _, _, _, _, rfl⟩
  · cases h

theorem eighteen {vs : List Val} (h : vs.length = 18) : ∃ a b c d e f g h i j k l m n o p q r, vs = [a, b, c, d, e, f, g, h, i, j, k, l, m, n, o, p, q, r] := by
  match vs, h with
  | [a, b, c, d, e, f, g, h, i, j, k, l, m, n, o, p, q, r], _ => exact ⟨_, _, _, _, _, _, _, _, _, _, _, _, _, _, _, _, _, _, rfl⟩

theorem ipv4Of_len {vs : List Val} (h : vs.length ≠ 18) : ipv4Of vs = none := by
  unfold ipv4Of; split
  · exact absurd rfl h
  · rfl

theorem ipv4Of_agree {vs ws : List Val} (h : Agree [] (· ∈ [0, 1, 2, 4, 7]) vs ws) : ipv4Of vs = ipv4Of ws := by
  by_cases hl : vs.length = 18
  · obtain ⟨_, _, _, _, _, _, _, _, _, _, _, _, _, _, _, _, _, _, rfl⟩ := eighteen hl
    obtain ⟨_, _, _, _, _, _, _, _, _, _, _, _, _, _, _, _, _, _, rfl⟩ := eighteen (h.1 ▸ hl)
    cases Agree.here h (j := 3) rfl rfl (by decide)
    cases Agree.here h (j := 5) rfl rfl (by decide)
    cases Agree.here h (j := 6) rfl rfl (by decide)
    cases Agree.here h (j := 8) rfl rfl (by decide)
    cases Agree.here h (j := 9) rfl rfl (by decide)
    cases Agree.here h (j := 10) rfl rfl (by decide)
    cases Agree.here h (j := 11) rfl rfl (by decide)
    cases Agree.here h (j := 12) rfl rfl (by decide)
    cases Agree.here h (j := 13) rfl rfl (by decide)
    cases Agree.here h (j := 14) rfl rfl (by decide)
    cases Agree.here h (j := 15) rfl rfl (by decide)
    cases Agree.here h (j := 16) rfl rfl (by decide)
    cases Agree.here h (j := 17) rfl rfl (by decide)
    rfl
  · rw [ipv4Of_len hl, ipv4Of_len (h.1 ▸ hl)]

def v4Cls : NetCls := ⟨"net.IPv4", 18, ipv4Steps, fun vs => match ipv4Of vs with | some p => p.pack.map (·.1) | none => .error .unmodelled⟩

/-- What `pack()` stores. -/
def v4Sets (len vihl de fo : Val) : List (Nat × Val) := [(2, len), (0, vihl), (1, de), (4, fo)]

theorem lookup_mem {set : List (Nat × Val)} {i : Nat} {x : Val} (h : set.lookup i = some x) : i ∈ set.map (·.1) := by
  induction set with
  | nil => cases h
  | cons a set ih =>
    simp only [List.lookup] at h
    split at h
    · rename_i e; simp only [List.map_cons, List.mem_cons]; exact Or.inl (by simpa using e)
    · simp only [List.map_cons, List.mem_cons]; exact Or.inr (ih h)

section ipv4
variable {C : Ctx} {a b c d e x0 x1 x2 x4 : Val} {p : IPv4} {more : List (Nat × Val)}

/-- Up to the checksum. -/
theorem ipv4_start {set : List (Nat × Val)} (hA : At C [] (.obj "net.IPv4" [a, b, c, .int p.identification, d, .int p.ttl, .int p.protocol, e,
      .str p.source, .str p.destination, .bytes [], .bytes p.data, .int p.version, .int p.ihl, .int p.dscp, .int p.ecn, .int p.flags, .int p.offset]) (Sets set))
    (h10 : ∀ j, 8 ≤ j → set.lookup j = none) (h2 : set.lookup 2 = some (.int (p.ihl * 4 + p.data.length : Nat)))
    (h0 : set.lookup 0 = some (.int (p.version <<< 4 ||| p.ihl : Nat))) (h1 : set.lookup 1 = some (.int (p.dscp <<< 2 ||| p.ecn : Nat)))
    (h4 : set.lookup 4 = some (.int (p.flags <<< 13 ||| p.offset : Nat))) {K : Done} {Q : Done → Res Bytes → Prop}
    (hk : ∀ K', K' [2] = some (.int (p.ihl * 4 + p.data.length : Nat)) → K' [0] = some (.int (p.version <<< 4 ||| p.ihl : Nat)) →
      K' [1] = some (.int (p.dscp <<< 2 ||| p.ecn : Nat)) → K' [4] = some (.int (p.flags <<< 13 ||| p.offset : Nat)) →
      Good C (checksumP (packFields [] (leaves ipv4Fields) 0 18)) K' Q) : Good C ipv4Steps K Q := by
  unfold ipv4Steps
  refine good_bytes hA (i := 10) rfl (h10 _ (by decide)) ?_
  unfold ipv4Rest
  refine good_nat hA (i := 13) rfl (h10 _ (by decide)) ?_
  refine good_bytes hA (i := 11) rfl (h10 _ (by decide)) ?_
  refine good_store hA h2 fun K1 e1 _ => ?_
  refine good_nat hA (i := 12) rfl (h10 _ (by decide)) ?_
  refine good_nat hA (i := 13) rfl (h10 _ (by decide)) ?_
  refine good_store hA h0 fun K2 e2 f2 => ?_
  refine good_nat hA (i := 14) rfl (h10 _ (by decide)) ?_
  refine good_nat hA (i := 15) rfl (h10 _ (by decide)) ?_
  refine good_store hA h1 fun K3 e3 f3 => ?_
  refine good_nat hA (i := 16) rfl (h10 _ (by decide)) ?_
  refine good_nat hA (i := 17) rfl (h10 _ (by decide)) ?_
  refine good_store hA h4 fun K4 e4 f4 => ?_
  refine hk K4 ?_ ?_ ?_ e4
  · rw [f4 2 (by decide), f3 2 (by decide), f2 2 (by decide)]; exact e1
  · rw [f4 0 (by decide), f3 0 (by decide)]; exact e2
  · rw [f4 1 (by decide)]; exact e3
end ipv4

theorem checksum_halves {a b c d e f g : Nat} {s t : Str} : ipv4Checksum a b c d e f g s t = (match halves s, halves t with
    | .error x, _ => .error x
    | .ok _, .error x => .error x
    | .ok _, .ok _ => ipv4Checksum a b c d e f g s t) := by
  cases h1 : halves s with
  | error x => simp only [ipv4Checksum, h1]
  | ok u =>
    cases h2 : halves t with
    | error x => simp only [ipv4Checksum, h1, h2]
    | ok w => rfl

theorem law_ipv4 : Law v4Cls := by
  refine law_sets [0, 1, 2, 4, 7] (fun vs ws h => by simp only [v4Cls, ipv4Of_agree h]) ?_
  intro vs hl hf
  obtain ⟨p, hp, ho⟩ := hf.1 vs rfl
  have hr : v4Cls.pack vs = p.pack.map (·.1) := by simp only [v4Cls, hp]
  obtain ⟨a, b, c, d, e, rfl⟩ := ipv4_shape hp
  rw [hr, ho]
  simp only [IPv4.pack, ho, if_true]
  clear hr hp hf hl
  generalize hlen : p.ihl * 4 + p.data.length = len
  generalize hvi : p.version <<< 4 ||| p.ihl = vihl
  generalize hde : p.dscp <<< 2 ||| p.ecn = de
  generalize hfo : p.flags <<< 13 ||| p.offset = fo
  generalize hcs : ipv4Checksum vihl de len p.identification fo p.ttl p.protocol p.source p.destination = cs
  have hcs' := hcs
  rw [checksum_halves] at hcs'
  cases cs with
  | error x =>
    refine ⟨v4Sets (.int len) (.int vihl) (.int de) (.int fo), fun i x h => ?_, fun M le K => ?_⟩
    · have := lookup_mem h
      simp [v4Sets] at this ⊢; omega
    · generalize hC : Ctx.mk _ _ _ _ _ _ = C
      have hA := at_root (C := C) (v := C.V) (s := C.R) rfl rfl (by subst hC; exact fun _ h => h)
      subst hC
      refine ipv4_start hA (fun j hj => ?_) (by rw [hlen]; rfl) (by rw [hvi]; rfl) (by rw [hde]; rfl) (by rw [hfo]; rfl) ?_
      · match j, hj with | j + 8, _ => rfl
      · rw [hlen, hvi, hde, hfo]
        intro K2 e2 e0 e1 e4
        unfold checksumP
        refine good_str hA (i := 8) rfl rfl ?_
        refine good_str hA (i := 9) rfl rfl ?_
        split
        · rename_i q1; simp only [q1] at hcs'; cases hcs'; rfl
        · rename_i q1 q2; simp only [q1, q2] at hcs'; cases hcs'; rfl
        · refine good_stored hA (i := 0) (by simp) e0 ?_
          refine good_stored hA (i := 1) (by simp) e1 ?_
          refine good_stored hA (i := 2) (by simp) e2 ?_
          refine good_nat hA (i := 3) rfl rfl ?_
          refine good_stored hA (i := 4) (by simp) e4 ?_
          refine good_nat hA (i := 5) rfl rfl ?_
          refine good_nat hA (i := 6) rfl rfl ?_
          rw [hcs]
          rfl
  | ok s =>
    refine ⟨(7, .int s) :: v4Sets (.int len) (.int vihl) (.int de) (.int fo), fun i x h => ?_, fun M le K => ?_⟩
    · have := lookup_mem h
      simp [v4Sets] at this ⊢; omega
    · generalize hC : Ctx.mk _ _ _ _ _ _ = C
      have hA := at_root (C := C) (v := C.V) (s := C.R) rfl rfl (by subst hC; exact fun _ h => h)
      subst hC
      refine ipv4_start hA (fun j hj => ?_) (by rw [hlen]; rfl) (by rw [hvi]; rfl) (by rw [hde]; rfl) (by rw [hfo]; rfl) ?_
      · match j, hj with | j + 8, _ => rfl
      · rw [hlen, hvi, hde, hfo]
        intro K2 e2 e0 e1 e4
        unfold checksumP
        refine good_str hA (i := 8) rfl rfl ?_
        refine good_str hA (i := 9) rfl rfl ?_
        split
        · rename_i q1; simp only [q1] at hcs'; cases hcs'
        · rename_i q1 q2; simp only [q1, q2] at hcs'; cases hcs'
        · refine good_stored hA (i := 0) (by simp) e0 ?_
          refine good_stored hA (i := 1) (by simp) e1 ?_
          refine good_stored hA (i := 2) (by simp) e2 ?_
          refine good_nat hA (i := 3) rfl rfl ?_
          refine good_stored hA (i := 4) (by simp) e4 ?_
          refine good_nat hA (i := 5) rfl rfl ?_
          refine good_nat hA (i := 6) rfl rfl ?_
          rw [hcs]
          refine good_store hA rfl fun K7 e7 f7 => ?_
          refine good_fields hA rfl (ws := [.int vihl, .int de, .int len, .int p.identification, .int fo, .int p.ttl, .int p.protocol, .int s,
            .str p.source, .str p.destination, .bytes [], .bytes p.data, .int p.version, .int p.ihl, .int p.dscp, .int p.ecn, .int p.flags, .int p.offset]) rfl ?_ ?_ ?_
          · intro j w hw
            match j with
            | 0 | 1 | 2 | 4 | 7 => cases hw; rfl
            | 3 | 5 | 6 => exact hw
            | j + 8 => exact hw
          · intro j x hx
            match j with
            | 0 => cases hx; rw [f7 0 (by decide)]; exact e0
            | 1 => cases hx; rw [f7 1 (by decide)]; exact e1
            | 2 => cases hx; rw [f7 2 (by decide)]; exact e2
            | 4 => cases hx; rw [f7 4 (by decide)]; exact e4
            | 7 => cases hx; exact e7
            | 3 | 5 | 6 => cases hx
            | j + 8 => cases hx
          · simp only [map_fst]
            exact packAttrs_extra _ [.int vihl, .int de, .int len, .int p.identification, .int fo, .int p.ttl, .int p.protocol, .int s,
              .str p.source, .str p.destination, .bytes [], .bytes p.data] [.int p.version, .int p.ihl, .int p.dscp, .int p.ecn, .int p.flags, .int p.offset] rfl

/-! ## VLAN and Ethernet -/

theorem vlan_single (vs : List Val) : Single (vlanCls.writes vs) := by
  intro q x y hx hy
  by_cases hl : vs.length = 5
  · obtain ⟨tpid, t, a, b, c, rfl⟩ := five hl
    cases q with
    | nil => exact absurd hx (vlan_root _ x)
    | cons j q =>
      match j with
      | 0 => exact absurd hx (vlan_other (Or.inl rfl) q x)
      | 1 =>
        obtain ⟨_, t, h1, rfl⟩ := vlan_one q x hx
        obtain ⟨_, t', h2, rfl⟩ := vlan_one q y hy
        rw [h1] at h2; cases h2; rfl
      | 2 => rw [(vlan_two q x hx).2, (vlan_two q y hy).2]
      | 3 => rw [(vlan_three q x hx).2, (vlan_three q y hy).2]
      | 4 => rw [(vlan_four q x hx).2, (vlan_four q y hy).2]
      | j + 5 => exact absurd hx (vlan_other (Or.inr (by omega)) q x)
  · exfalso
    simp only [vlanCls] at hx
    split at hx
    · exact hl rfl
    · exact hx

/-- All or none of the three. -/
def WholeTag (vs : List Val) : Prop :=
  ∀ tpid t a b c, vs = [tpid, t, a, b, c] → (a = .none ∧ b = .none ∧ c = .none) ∨ (a ≠ .none ∧ b ≠ .none ∧ c ≠ .none)

def wholeCls : PCls := { vlanCls with writes := fun vs q x => WholeTag vs ∧ vlanCls.writes vs q x }

theorem whole_own {vs : List Val} {D : Done} (hD : Allowed (wholeCls.writes vs) D) : Agree [] (· ∈ [1]) vs (overs vs D 0) := by
  refine ⟨(overs_length _ _ _).symm, ?_⟩
  intro j v w hv hw hj
  rw [overs_getElem?, hv] at hw
  simp only [Option.map_some, Option.some.injEq, Nat.zero_add] at hw
  left
  rw [← hw]
  have same : ∀ {v}, vs[j]? = some v → (∀ q x, D (j :: q) = some x → q = [] ∧ x = orZero v ∧ v ≠ .none) → v = over v (fun q => D (j :: q)) := by
    intro v _ h
    cases e : D [j] with
    | none =>
      rw [over_leaf]
      intro q x hq
      obtain ⟨rfl, _⟩ := h q x hq
      rw [e] at hq; cases hq
    | some x =>
      obtain ⟨_, h1, h2⟩ := h [] x e
      rw [over_some (D := fun q => D (j :: q)) (x := x) e, h1, orZero_some h2]
  refine same hv fun q x hq => ?_
  obtain ⟨hW, hx⟩ := hD _ _ hq
  by_cases hl : vs.length = 5
  · obtain ⟨tpid, t, a, b, c, rfl⟩ := five hl
    have hn : ¬ (a = .none ∧ b = .none ∧ c = .none) := hx.1
    obtain ⟨ha, hb, hc⟩ := (hW _ _ _ _ _ rfl).resolve_left hn
    match j with
    | 0 => exact absurd hx (vlan_other (Or.inl rfl) q x)
    | 1 => exact absurd (by decide) hj
    | 2 => cases hv; exact ⟨(vlan_two q x hx).1, (vlan_two q x hx).2, ha⟩
    | 3 => cases hv; exact ⟨(vlan_three q x hx).1, (vlan_three q x hx).2, hb⟩
    | 4 => cases hv; exact ⟨(vlan_four q x hx).1, (vlan_four q x hx).2, hc⟩
    | j + 5 => exact absurd hx (vlan_other (Or.inr (by omega)) q x)
  · exfalso
    simp only [vlanCls] at hx
    split at hx
    · exact hl rfl
    · exact hx

theorem vlan_agree {vs ws : List Val} (h : Agree [] (· ∈ [1]) vs ws) : vlan.pack (.obj "net.VLAN" vs) = vlan.pack (.obj "net.VLAN" ws) := by
  by_cases hl : vs.length = 5
  · obtain ⟨_, _, _, _, _, rfl⟩ := five hl
    obtain ⟨_, _, _, _, _, rfl⟩ := five (h.1 ▸ hl)
    cases Agree.here h (j := 0) rfl rfl (by decide)
    cases Agree.here h (j := 2) rfl rfl (by decide)
    cases Agree.here h (j := 3) rfl rfl (by decide)
    cases Agree.here h (j := 4) rfl rfl (by decide)
    rfl
  · have none : ∀ vs : List Val, vs.length ≠ 5 → vlan.pack (.obj "net.VLAN" vs) = .error .unmodelled := by
      intro vs hl
      simp only [vlan]
      split
      · rename_i h; cases h; exact absurd rfl hl
      · rfl
    rw [none _ hl, none _ (h.1 ▸ hl)]

theorem slack_wholeCls : SlackCls wholeCls :=
  ⟨Agree [] (· ∈ [1]), fun _ _ h => ⟨vlan_agree h, rfl⟩, fun _ _ i p c h => h.modify i p c,
    fun vs _ hD => ⟨allowed_root (fun x h => vlan_root vs x h.2) hD, whole_own hD⟩⟩

def wholeVlans : PAttr := listP isVlan (oneOf vlan [wholeCls])

theorem slack_wholeVlans : Slack wholeVlans := by
  refine slack_list classOnly_vlan (slack_oneOf (by intro k hk; simp at hk; subst hk; exact slack_wholeCls) ?_) ?_ (fun _ _ => rfl)
  · intro k hk vs _
    simp at hk; subst hk
    exact ⟨rfl, rfl⟩
  · intro v x h
    cases v <;> simp only [oneOf] at h
    split at h
    · rename_i k hk
      have := List.mem_of_find?_eq_some hk
      simp at this; subst this
      exact vlan_root _ x h.2
    · exact h

theorem law_safe {k : NetCls} {c : PCls} (hs : SafeCls c) (hc : k.name = c.name) (hn : k.steps = c.packP [] k.arity) (hp : ∀ vs, k.pack vs = c.pack vs)
    (h1 : ∀ vs, Single (c.writes vs)) (fs : PFields) (slots : Nat → Prop) (ha : ∀ vs ws, Agree fs slots vs ws → k.pack vs = k.pack ws)
    (ho : ∀ vs D, Whole (.obj k.name vs) → Allowed (c.writes vs) D → Agree fs slots vs (overs vs D 0)) : Law k := by
  have hg : ∀ vs : List Val, vs.length = k.arity → ∀ M le K, Good ⟨.obj k.name vs, c.writes vs, M, le, (· = [0, 2]), fun _ => False⟩ k.steps K (fun _ b => b = k.pack vs) := by
    intro vs hl M le K
    have := hs.pack (C := ⟨.obj k.name vs, c.writes vs, M, le, (· = [0, 2]), fun _ => False⟩) (vs := vs) K (at_root (by show Val.obj k.name vs = _; rw [hc]) rfl)
    rw [hl, ← hn] at this
    refine this.mono ?_
    rintro K' b ⟨rfl, _⟩
    exact (hp vs).symm
  refine ⟨Agree fs slots, Agree.refl, fun _ _ _ h h' => h.trans h', fun _ _ i p c h => h.modify i p c, fun vs ws h => ⟨h.1, ha vs ws h⟩, ?_⟩
  intro vs hl _
  refine ⟨c.writes vs, hs.root vs, h1 vs, hg vs hl, fun D hD => ?_, fun hw D hD => ho vs D hw hD⟩
  have hD0 := allowed_root (hs.root vs) hD
  have hw := over_obj (c := k.name) (vs := vs) hD0
  obtain ⟨a, K', e1, _, rfl⟩ := exec_good (v := .obj k.name vs) (R := c.writes vs) k.steps hD (hg vs hl _ _ D)
  obtain ⟨a', K'', e2, _, rfl⟩ := exec_good (v := .obj k.name (overs vs D 0)) (R := c.writes (overs vs D 0)) k.steps allowed_none
    (hg (overs vs D 0) (by rw [overs_length]; exact hl) _ _ _)
  rw [over_none, ← hw, e1] at e2
  simp only [Option.some.injEq, Prod.mk.injEq] at e2
  exact e2.1.symm

theorem law_vlan : Law ⟨"net.VLAN", 5, vlanCls.packP [] 5, fun vs => vlan.pack (.obj "net.VLAN" vs)⟩ := by
  refine law_safe safe_vlanCls rfl rfl (fun _ => rfl) vlan_single [] (· ∈ [1]) (fun vs ws h => vlan_agree h) ?_
  intro vs D hw hD
  refine whole_own fun q x hq => ⟨?_, hD q x hq⟩
  intro tpid t a b c e
  exact hw [] tpid t a b c (by rw [e]; rfl)

theorem oneVlan_writes {w : PCls} (hn : w.name = "net.VLAN") {v : Val} {q : Path} {x : Val} : (oneOf vlan [w]).writes v q x ↔ ∃ vs, v = .obj "net.VLAN" vs ∧ w.writes vs q x := by
  constructor
  · intro h
    cases v <;> simp only [oneOf] at h
    rename_i c vs
    split at h
    · rename_i k hk
      have h1 := List.find?_some hk
      have h2 := List.mem_of_find?_eq_some hk
      simp at h1 h2; subst h2
      exact ⟨vs, by rw [← h1, hn], h⟩
    · exact h.elim
  · rintro ⟨vs, rfl, h⟩
    simp only [oneOf, List.find?, hn, beq_self_eq_true]
    exact h

theorem Whole.sub {v u : Val} {j : Nat} (h : Whole v) (hj : at? v [j] = some u) : Whole u := by
  intro p tpid t a b c hp
  refine h (j :: p) tpid t a b c ?_
  cases v <;> simp only [at?] at hj ⊢ <;> try cases hj
  all_goals
    cases e : (_ : List Val)[j]? <;> rw [e] at hj <;> simp only at hj <;> cases hj
    exact hp

theorem whole_list : ∀ (q : Path) (v : Val) (x : Val), Whole v → listWrites (oneOf vlan [vlanCls]) q v x → listWrites (oneOf vlan [wholeCls]) q v x
  | q, v, x, hW, hx => by
    by_cases hv : ∃ f xs, v = .list f xs
    · obtain ⟨f, xs, rfl⟩ := hv
      cases q with
      | nil => simp [listWrites] at hx
      | cons j q =>
        obtain ⟨u, h1, h2⟩ := hx
        exact ⟨u, h1, whole_list q u x (hW.sub (by rw [at?_list]; exact h1)) h2⟩
    · have hv' : ∀ f xs, v ≠ .list f xs := fun f xs h => hv ⟨f, xs, h⟩
      rw [listWrites_item hv'] at hx ⊢
      obtain ⟨vs, rfl, h⟩ := (oneVlan_writes rfl).1 hx
      refine (oneVlan_writes rfl).2 ⟨vs, rfl, ?_, h⟩
      intro tpid t a b c e
      exact hW [] tpid t a b c (by rw [e]; rfl)

theorem single_list : ∀ (q : Path) (v : Val) (x y : Val), listWrites (oneOf vlan [vlanCls]) q v x → listWrites (oneOf vlan [vlanCls]) q v y → x = y
  | q, v, x, y, hx, hy => by
    by_cases hv : ∃ f xs, v = .list f xs
    · obtain ⟨f, xs, rfl⟩ := hv
      cases q with
      | nil => simp [listWrites] at hx
      | cons j q =>
        obtain ⟨u, h1, h2⟩ := hx
        obtain ⟨u', h1', h2'⟩ := hy
        rw [h1] at h1'; cases h1'
        exact single_list q u x y h2 h2'
    · have hv' : ∀ f xs, v ≠ .list f xs := fun f xs h => hv ⟨f, xs, h⟩
      rw [listWrites_item hv'] at hx hy
      obtain ⟨vs, rfl, h⟩ := (oneVlan_writes rfl).1 hx
      obtain ⟨vs', e, h'⟩ := (oneVlan_writes rfl).1 hy
      cases e
      exact vlan_single vs q x y h h'

def wholeFields : PFields := leavesBut [("vlans", wholeVlans)] ethernetFields

/-- Only the VLANs are assigned to. -/
theorem ethernet_writes {vs : List Val} {q : Path} {x : Val} (h : ethernetCls.writes vs q x) :
    ∃ q' v, q = 2 :: q' ∧ vs[2]? = some v ∧ listWrites (oneOf vlan [vlanCls]) q' v x := by
  cases q with
  | nil => exact h.elim
  | cons j q =>
    obtain ⟨f, v, h1, h2, h3⟩ := h
    match j with
    | 0 | 1 | 3 | 4 => cases h1; exact h3.elim
    | 2 => cases h1; exact ⟨q, v, rfl, h2, h3⟩
    | j + 5 => cases h1

theorem law_ethernet : Law ⟨"net.Ethernet", 5, ethernetCls.packP [] 5, ethernetPack⟩ := by
  refine law_safe safe_ethernet rfl rfl (fun _ => rfl) ?_ wholeFields (fun _ => False) ?_ ?_
  · intro vs q x y hx hy
    obtain ⟨q1, v1, rfl, e1, h1⟩ := ethernet_writes hx
    obtain ⟨q2, v2, e, e2, h2⟩ := ethernet_writes hy
    cases e
    rw [e1] at e2; cases e2
    exact single_list _ _ _ _ h1 h2
  · intro vs ws h
    exact h.pack (fun _ h => h)
  · intro vs D hw hD
    refine agree_own (slack_leavesBut (by intro a ha; simp at ha; subst ha; exact slack_wholeVlans) _) fun j q x hq => Or.inr ?_
    obtain ⟨q1, v1, e, e1, h1⟩ := ethernet_writes (hD _ _ hq)
    cases e
    exact ⟨("vlans", wholeVlans), v1, rfl, e1, whole_list _ _ _ (hw.sub (j := 2) (by rw [at?_obj]; exact e1)) h1⟩

theorem law_nets : ∀ k ∈ nets, Law k := by
  intro k hk
  simp only [nets, List.mem_cons, List.not_mem_nil, or_false] at hk
  rcases hk with rfl | rfl | rfl | rfl | rfl | rfl | rfl | rfl
  · exact law_arp
  · exact law_vlan
  · exact law_ethernet
  · exact law_tlv _ _
  · exact law_tlv _ _
  · exact law_lldp
  · exact law_ipv4
  · exact law_ipv6

/-! ## Histories -/

theorem threads_net {k : NetCls} (hk : k ∈ nets) {vs : List Val} (hl : vs.length = k.arity) (hf : Fit (.obj k.name vs)) {n : Nat}
    {ts : List (Prog (Res Bytes))} {w : Val} (h : Runs (List.replicate n k.steps, .obj k.name vs) (ts, w)) :
    (∀ t ∈ ts, t = .ret (k.pack vs) ∨ CanStep t w) ∧ (∃ ts' w', Runs (ts, w) (ts', w') ∧ ∀ t ∈ ts', t = .ret (k.pack vs)) ∧
    ∃ ws, w = .obj k.name ws ∧ ws.length = k.arity ∧ k.pack ws = k.pack vs := by
  obtain ⟨S, _, _, _, _, h5⟩ := law_nets k hk
  obtain ⟨R, h0, h1, hg, h2, _⟩ := h5 vs hl hf
  obtain ⟨a, b, D, rfl, hD⟩ := threads_good h1 hg h
  exact ⟨a, b, overs vs D 0, over_obj (allowed_root h0 hD), by rw [overs_length]; exact hl, h2 D hD⟩

theorem life_net {k : NetCls} (hk : k ∈ nets) {v w : Val} (h : Life k v w) : ∃ vs ws, v = .obj k.name vs ∧ w = .obj k.name ws ∧
    vs.length = k.arity ∧ ws.length = k.arity ∧ k.pack vs = k.pack ws := by
  obtain ⟨S, hr, ht, hm, hp, h5⟩ := law_nets k hk
  suffices ∃ vs ws, v = .obj k.name vs ∧ w = .obj k.name ws ∧ ws.length = k.arity ∧ S vs ws by
    obtain ⟨vs, ws, h1, h2, h3, h4⟩ := this
    exact ⟨vs, ws, h1, h2, by rw [(hp _ _ h4).1]; exact h3, h3, (hp _ _ h4).2⟩
  induction h with
  | made vs hl => exact ⟨vs, vs, rfl, rfl, hl, hr vs⟩
  | changed i p c _ ih =>
    obtain ⟨vs, ws, rfl, rfl, hl, hS⟩ := ih
    exact ⟨_, _, rfl, rfl, by simpa using hl, hm vs ws i p c hS⟩
  | packed _ hf hw hR ih =>
    obtain ⟨vs, ws, rfl, rfl, hl, hS⟩ := ih
    obtain ⟨R, h0, h1, hg, _, h3⟩ := h5 ws hl hf
    obtain ⟨_, _, D, rfl, hD⟩ := threads_good h1 hg hR
    exact ⟨vs, overs ws D 0, rfl, over_obj (allowed_root h0 hD), by rw [overs_length]; exact hl, ht _ _ _ hS (h3 hw D hD)⟩

end Pyof.Net
