import Verif.Spec.Uses
import Verif.Lemmas.Slack
/-!
# Threads that pack or ask for the size
-/
namespace Pyof.Threads

/-! ## Threads of different kinds -/

/-- A law for threads: `T i D t` says that thread `i` may be at `t` when `D` has been assigned. -/
structure Kinds {α : Type} (v : Val) (R : Path → Val → Prop) (Q : Nat → α → Prop) (T : Nat → Done → Prog α → Prop) : Prop where
  ret : ∀ {i D a}, T i D (.ret a) → Q i a
  get : ∀ {i D p k}, Allowed R D → T i D (.get p k) → ∃ u, at? (over v D) p = some u ∧ T i D (k u)
  set : ∀ {i D p x k}, Allowed R D → T i D (.set p x k) → R p x ∧ Clear R p ∧ T i (upd D p x) k ∧ ∀ j t, j ≠ i → T j D t → T j (upd D p x) t

def KInv {α : Type} (v : Val) (R : Path → Val → Prop) (T : Nat → Done → Prog α → Prop) (n : Nat) (ts : List (Prog α)) (w : Val) : Prop :=
  ∃ D, w = over v D ∧ Allowed R D ∧ ts.length = n ∧ ∀ i t, ts[i]? = some t → T i D t

variable {α : Type} {v : Val} {R : Path → Val → Prop} {Q : Nat → α → Prop} {T : Nat → Done → Prog α → Prop}

theorem KInv.step (hT : Kinds v R Q T) {n : Nat} {ts ts' : List (Prog α)} {w w' : Val} (h : KInv v R T n ts w) (hs : StepAny (ts, w) (ts', w')) :
    KInv v R T n ts' w' := by
  obtain ⟨D, rfl, hD, hl, hts⟩ := h
  cases hs with
  | @mk _ i t t' _ _ hi hst =>
    have hlt : i < ts.length := (List.getElem?_eq_some_iff.1 hi).1
    cases hst with
    | @get p k _ u hu =>
      refine ⟨D, rfl, hD, by simp [hl], ?_⟩
      intro j s hj
      by_cases e : j = i
      · subst e
        rw [List.getElem?_set_self hlt] at hj; cases hj
        obtain ⟨u', hu', hg⟩ := hT.get hD (hts _ _ hi)
        rw [hu'] at hu; cases hu; exact hg
      · rw [List.getElem?_set_ne (Ne.symm e)] at hj; exact hts j s hj
    | @set p x k _ =>
      obtain ⟨h1, h2, h3, h4⟩ := hT.set hD (hts _ _ hi)
      refine ⟨upd D p x, put_over p v D x (h2.done hD), allowed_upd hD h1, by simp [hl], ?_⟩
      intro j s hj
      by_cases e : j = i
      · subst e
        rw [List.getElem?_set_self hlt] at hj; cases hj; exact h3
      · rw [List.getElem?_set_ne (Ne.symm e)] at hj; exact h4 j s e (hts j s hj)

theorem KInv.runs (hT : Kinds v R Q T) {n : Nat} {c c' : List (Prog α) × Val} (hr : Runs c c') (h : KInv v R T n c.1 c.2) : KInv v R T n c'.1 c'.2 := by
  induction hr with
  | refl => exact h
  | step _ hs ih => exact ih.step hT hs

theorem KInv.can (hT : Kinds v R Q T) {n : Nat} {ts : List (Prog α)} {w : Val} (h : KInv v R T n ts w) {i : Nat} {t : Prog α} (hi : ts[i]? = some t) :
    (∃ r, t = .ret r ∧ Q i r) ∨ CanStep t w := by
  obtain ⟨D, rfl, hD, _, hts⟩ := h
  have ht := hts i t hi
  cases t with
  | ret a => exact Or.inl ⟨a, rfl, hT.ret ht⟩
  | get p k => obtain ⟨u, hu, _⟩ := hT.get hD ht; exact Or.inr ⟨_, .get hu⟩
  | set p x k => exact Or.inr ⟨_, .set⟩

theorem KInv.one (hT : Kinds v R Q T) {n : Nat} : ∀ (t : Prog α) {ts : List (Prog α)} {w : Val} {i : Nat}, KInv v R T n ts w → ts[i]? = some t →
    ∃ a w', Runs (ts, w) (ts.set i (.ret a), w')
  | .ret a, ts, w, i, h, hi => by
    refine ⟨a, w, ?_⟩
    have : ts.set i (.ret a) = ts := by
      obtain ⟨h1, h2⟩ := List.getElem?_eq_some_iff.1 hi
      rw [← h2]; exact List.set_getElem_self h1
    rw [this]; exact .refl _
  | .get p k, ts, w, i, h, hi => by
    obtain ⟨r, hr, _⟩ | ⟨c, hc⟩ := h.can hT hi
    · cases hr
    · cases hc with
      | @get _ _ _ u hu =>
        have st : StepAny (ts, w) (ts.set i (k u), w) := .mk hi (.get hu)
        have hl : i < ts.length := (List.getElem?_eq_some_iff.1 hi).1
        obtain ⟨a, w', hr⟩ := KInv.one hT (k u) (i := i) (h.step hT st) (by simp [hl])
        rw [set_twice] at hr
        exact ⟨a, w', (Runs.step (.refl _) st).trans hr⟩
  | .set p x k, ts, w, i, h, hi => by
    have st : StepAny (ts, w) (ts.set i k, put w p x) := .mk hi .set
    have hl : i < ts.length := (List.getElem?_eq_some_iff.1 hi).1
    obtain ⟨a, w', hr⟩ := KInv.one hT k (i := i) (h.step hT st) (by simp [hl])
    rw [set_twice] at hr
    exact ⟨a, w', (Runs.step (.refl _) st).trans hr⟩

theorem KInv.all (hT : Kinds v R Q T) {n : Nat} {ts : List (Prog α)} {w : Val} (h : KInv v R T n ts w) :
    ∃ ts' w', Runs (ts, w) (ts', w') ∧ ts'.length = n ∧ ∀ (i : Nat) t, ts'[i]? = some t → ∃ r, t = .ret r ∧ Q i r := by
  have hn : ts.length = n := by obtain ⟨_, _, _, hl, _⟩ := h; exact hl
  have main : ∀ m, m ≤ n → ∃ ts' w', Runs (ts, w) (ts', w') ∧ ts'.length = n ∧ ∀ (i : Nat) t, i < m → ts'[i]? = some t → Finished t := by
    intro m
    induction m with
    | zero => intro _; exact ⟨ts, w, .refl _, hn, fun i t hi => by omega⟩
    | succ m ih =>
      intro hm
      obtain ⟨ts', w', h1, h2, h3⟩ := ih (by omega)
      have hi : KInv v R T n ts' w' := KInv.runs hT h1 h
      have hlt : m < ts'.length := by omega
      have hl : ts'[m]? = some (ts'[m]'hlt) := List.getElem?_eq_getElem hlt
      obtain ⟨a, w2, h4⟩ := KInv.one hT _ hi hl
      refine ⟨_, w2, h1.trans h4, by simp [h2], ?_⟩
      intro i t hin ht
      by_cases e : i = m
      · subst e
        rw [List.getElem?_set_self hlt] at ht
        cases ht; exact ⟨a, rfl⟩
      · rw [List.getElem?_set_ne (by omega)] at ht
        exact h3 i t (by omega) ht
  obtain ⟨ts', w', h1, h2, h3⟩ := main n (Nat.le_refl _)
  refine ⟨ts', w', h1, h2, ?_⟩
  intro i t hi
  have hl : i < ts'.length := (List.getElem?_eq_some_iff.1 hi).1
  obtain ⟨r, rfl⟩ := h3 i t (by omega) hi
  rcases KInv.can hT (KInv.runs hT h1 h) hi with ⟨r', hr', hq⟩ | ⟨c, hc⟩
  · exact ⟨r', hr', hq⟩
  · cases hc

/-! ## Threads that assign nothing -/

/-- Such a thread, whatever has been assigned by others. -/
def Rd (v : Val) (R : Path → Val → Prop) (Q : α → Prop) : Prog α → Prop
  | .ret a => Q a
  | .get p k => ∀ D, Allowed R D → ∃ u, at? (over v D) p = some u ∧ Rd v R Q (k u)
  | .set _ _ _ => False

private theorem knows {Q : α → Prop} {H W : Path → Prop} : ∀ (t : Prog α) {K : Done}, Allowed R K → (∃ p x, K p = some x) →
    Good ⟨v, R, Le, fun _ _ h => h, H, W⟩ t K (fun K' a => Q a ∧ K' = fun _ => none) → False
  | .ret a, K, _, ⟨p, x, hx⟩, h => by rw [h.2] at hx; cases hx
  | .get p k, K, hK, hx, h => by
    obtain ⟨u, _, hg⟩ := h K (fun _ _ h => h) hK
    rcases hg with hg | ⟨x, ⟨hp, _⟩, hg⟩
    · exact knows (k u) hK hx hg
    · rw [upd_same hp] at hg; exact knows (k u) hK hx hg
  | .set p x k, K, hK, hx, h => by
    obtain ⟨h1, _, _, hg⟩ := h
    exact knows k (allowed_upd hK h1) ⟨p, x, by simp [upd]⟩ (hg _ (by simp [upd]) kept_upd)

/-- A thread that knows nothing about the assignments, not even at its end, has made none. -/
theorem rd_of_good {Q : α → Prop} {H W : Path → Prop} : ∀ (t : Prog α), Good ⟨v, R, Le, fun _ _ h => h, H, W⟩ t (fun _ => none) (fun K' a => Q a ∧ K' = fun _ => none) → Rd v R Q t
  | .ret a, h => h.1
  | .get p k, h => by
    intro D hD
    obtain ⟨u, hu, hg⟩ := h D nofun hD
    refine ⟨u, hu, ?_⟩
    rcases hg with hg | ⟨x, ⟨hp, _⟩, hg⟩
    · exact rd_of_good (k u) hg
    · exact (knows (k u) (allowed_upd allowed_none (hD _ _ hp)) ⟨p, x, by simp [upd]⟩ hg).elim
  | .set p x k, h => by
    obtain ⟨h1, _, _, hg⟩ := h
    exact (knows k (allowed_upd allowed_none h1) ⟨p, x, by simp [upd]⟩ (hg _ (by simp [upd]) kept_upd)).elim

/-- One thread assigns, the others do not. -/
def Duo (v : Val) (R : Path → Val → Prop) (Q : Nat → α → Prop) (i0 : Nat) : Nat → Done → Prog α → Prop :=
  fun i D t => (i = i0 ∧ Good (alone v R) t D (fun _ => Q i)) ∨ Rd v R (Q i) t

theorem kinds_duo (i0 : Nat) : Kinds v R Q (Duo v R Q i0) where
  ret := by
    rintro i D a (⟨_, h⟩ | h)
    · exact h
    · exact h
  get := by
    rintro i D p k hD (⟨e, h⟩ | h)
    · obtain ⟨u, hu, hg⟩ := h D rfl hD
      refine ⟨u, hu, Or.inl ⟨e, ?_⟩⟩
      rcases hg with hg | ⟨x, ⟨hx, _⟩, hg⟩
      · exact hg
      · rwa [upd_same hx] at hg
    · obtain ⟨u, hu, hg⟩ := h D hD
      exact ⟨u, hu, Or.inr hg⟩
  set := by
    rintro i D p x k hD (⟨rfl, h⟩ | h)
    · obtain ⟨h1, h2, _, hg⟩ := h
      refine ⟨h1, h2, Or.inl ⟨rfl, hg _ (by simp [upd]) kept_upd⟩, ?_⟩
      rintro j t hj (⟨e, _⟩ | h)
      · exact absurd e hj
      · exact Or.inr h
    · exact h.elim

/-- All threads assign, but always the same. -/
def Crowd (v : Val) (R : Path → Val → Prop) (Q : Nat → α → Prop) : Nat → Done → Prog α → Prop :=
  fun i D t => ∃ K, Le K D ∧ Good (shared v R) t K (fun _ => Q i)

theorem kinds_crowd (hR : Single R) : Kinds v R Q (Crowd v R Q) where
  ret := by rintro i D a ⟨K, _, h⟩; exact h
  get := by
    rintro i D p k hD ⟨K, hK, h⟩
    obtain ⟨u, hu, hg⟩ := h D hK hD
    refine ⟨u, hu, ?_⟩
    rcases hg with hg | ⟨x, ⟨hx, _⟩, hg⟩
    · exact ⟨K, hK, hg⟩
    · exact ⟨_, le_upd hK hx, hg⟩
  set := by
    rintro i D p x k hD ⟨K, hK, h⟩
    obtain ⟨h1, h2, _, hg⟩ := h
    have grow : Le D (upd D p x) := by
      intro q y hq
      simp only [upd]
      split
      · rename_i e; subst e; rw [hR q y x (hD q y hq) h1]
      · exact hq
    refine ⟨h1, h2, ⟨upd K p x, ?_, hg _ (by simp [upd]) kept_upd⟩, ?_⟩
    · intro q y hq
      simp only [upd] at hq ⊢
      split at hq
      · rename_i e; rw [if_pos e]; exact hq
      · rename_i e; rw [if_neg e]; exact hK q y hq
    · rintro j t _ ⟨K', hK', h'⟩
      exact ⟨K', fun q y h => grow q y (hK' q y h), h'⟩

/-! ## Calls -/

/-- What each of the calls does, from every state and whatever the other threads do. -/
structure Calls (call : Call → Prog Answer) (v : Val) (R : Path → Val → Prop) (bytes : Res Bytes) (size : Res Nat) : Prop where
  pack : ∀ M le K, Good ⟨v, R, M, le, (· = [0, 2]), fun _ => False⟩ (call .pack) K (fun _ b => b = .bytes bytes)
  size : ∀ M le K, Good ⟨v, R, M, le, (· = [0, 2]), fun _ => False⟩ (call .size) K (fun K' b => b = .size size ∧ K' = K)

def reply (bytes : Res Bytes) (size : Res Nat) : Call → Answer
  | .pack => .bytes bytes
  | .size => .size size

theorem one_pack : ∀ {cs : List Call} {i j : Nat}, cs.count .pack ≤ 1 → cs[i]? = some .pack → cs[j]? = some .pack → i = j
  | [], i, j, _, hi, _ => by simp at hi
  | c :: cs, 0, 0, _, _, _ => rfl
  | c :: cs, 0, j + 1, h, hi, hj => by
    simp at hi hj; subst hi
    have : 0 < cs.count .pack := List.count_pos_iff.2 (List.mem_of_getElem? hj)
    simp at h; omega
  | c :: cs, i + 1, 0, h, hi, hj => by
    simp at hi hj; subst hj
    have : 0 < cs.count .pack := List.count_pos_iff.2 (List.mem_of_getElem? hi)
    simp at h; omega
  | c :: cs, i + 1, j + 1, h, hi, hj => by
    have hc : cs.count .pack ≤ 1 := by rw [List.count_cons] at h; split at h <;> omega
    have e : i = j := one_pack hc (by simpa using hi) (by simpa using hj)
    rw [e]

theorem calls_kinds {call : Call → Prog Answer} {v : Val} {R : Path → Val → Prop} {bytes : Res Bytes} {size : Res Nat}
    (h : Calls call v R bytes size) (hR : Once v R) {cs : List Call} (hn : Fair cs v) :
    ∃ T, Kinds v R (fun i r => ∀ c, cs[i]? = some c → r = reply bytes size c) T ∧ KInv v R T cs.length (cs.map call) v := by
  have base : ∀ T : Nat → Done → Prog Answer → Prop, (∀ (i : Nat) c, cs[i]? = some c → T i (fun _ => none) (call c)) → KInv v R T cs.length (cs.map call) v := by
    intro T hT
    refine ⟨fun _ => none, (over_none _).symm, allowed_none, by simp, ?_⟩
    intro i t ht
    rw [List.getElem?_map] at ht
    obtain ⟨c, hc, rfl⟩ := Option.map_eq_some_iff.1 ht
    exact hT i c hc
  by_cases hp : NoPad v
  · refine ⟨_, kinds_crowd (hR.single hp), base _ ?_⟩
    intro i c hc
    refine ⟨fun _ => none, nofun, ?_⟩
    cases c with
    | pack => exact (h.pack Le (fun _ _ h => h) _).mono fun _ b hb c hc' => by rw [hc] at hc'; cases hc'; exact hb
    | size => exact (h.size Le (fun _ _ h => h) _).mono fun _ b hb c hc' => by rw [hc] at hc'; cases hc'; exact hb.1
  · have h1 := hn.resolve_right hp
    have size : ∀ i : Nat, cs[i]? = some Call.size → Rd v R (fun r => ∀ c, cs[i]? = some c → r = reply bytes size c) (call .size) := by
      intro i hc
      refine rd_of_good _ ((h.size Le (fun _ _ h => h) _).mono ?_)
      rintro K' b ⟨hb, hK⟩
      exact ⟨fun c hc' => by rw [hc] at hc'; cases hc'; exact hb, hK⟩
    obtain ⟨i0, hi0⟩ : ∃ i0, ∀ i : Nat, cs[i]? = some Call.pack → i = i0 := by
      by_cases he : ∃ i : Nat, cs[i]? = some Call.pack
      · obtain ⟨i0, h0⟩ := he
        exact ⟨i0, fun i hi => one_pack h1 hi h0⟩
      · exact ⟨0, fun i hi => (he ⟨i, hi⟩).elim⟩
    refine ⟨_, kinds_duo i0, base _ ?_⟩
    intro i c hc
    cases c with
    | size => exact Or.inr (size i hc)
    | pack =>
      refine Or.inl ⟨hi0 i hc, ?_⟩
      exact (h.pack _ (alone v R).le _).mono fun _ b hb c hc' => by rw [hc] at hc'; cases hc'; exact hb

/-- What threads reach that make such calls. -/
theorem calls_runs {call : Call → Prog Answer} {v : Val} {R : Path → Val → Prop} {bytes : Res Bytes} {size : Res Nat}
    (h : Calls call v R bytes size) (hR : Once v R) {cs : List Call} (hn : Fair cs v) {ts : List (Prog Answer)} {w : Val}
    (hr : Runs (cs.map call, v) (ts, w)) :
    (∀ (i : Nat) c t, cs[i]? = some c → ts[i]? = some t → t = .ret (reply bytes size c) ∨ CanStep t w) ∧
    (∃ w', Runs (ts, w) (cs.map fun c => .ret (reply bytes size c), w')) ∧ ∃ D, w = over v D ∧ Allowed R D := by
  obtain ⟨T, hT, hI⟩ := calls_kinds h hR hn
  have hI' : KInv v R T cs.length ts w := KInv.runs hT hr hI
  refine ⟨?_, ?_, ?_⟩
  · intro i c t hc ht
    rcases hI'.can hT ht with ⟨r, rfl, hq⟩ | hq
    · rw [hq c hc]; exact Or.inl rfl
    · exact Or.inr hq
  · obtain ⟨ts', w', h1, h2, h3⟩ := hI'.all hT
    refine ⟨w', ?_⟩
    have : ts' = cs.map fun c => .ret (reply bytes size c) := by
      refine List.ext_getElem? ?_
      intro i
      rw [List.getElem?_map]
      cases ht : ts'[i]? with
      | none =>
        have : cs[i]? = none := by rw [List.getElem?_eq_none_iff] at ht ⊢; omega
        rw [this]; rfl
      | some t =>
        obtain ⟨r, rfl, hq⟩ := h3 i t ht
        have hlt := (List.getElem?_eq_some_iff.1 ht).1
        have hc : cs[i]? = some (cs[i]'(by omega)) := List.getElem?_eq_getElem (by omega)
        rw [hc, hq _ hc]; rfl
    rw [← this]; exact h1
  · obtain ⟨D, h1, h2, _⟩ := hI'
    exact ⟨D, h1, h2⟩

/-! ## Messages -/

/-- What is used of the message classes. -/
structure Sizable (m : PMsg) : Prop where
  safe : ∀ f ∈ m.body, Safe f.2
  len : ∀ (j : Nat) a, m.body[j]? = some ("actions_len", a) → a = leafP (ubint 2)
  fields : m.body.fields = m.cls.body
  size : m.cls.size = sizeAttrs m.cls.body

theorem sizable_plainMsg {m : MsgCls} {special : List (String × PAttr)} (hs : ∀ a ∈ special, Safe a.2)
    (hb : (leavesBut special m.body).fields = m.body) (hn : ∀ f ∈ m.body, f.1 ≠ "actions_len") (hz : m.size = sizeAttrs m.body) :
    Sizable (plainMsg special m) where
  safe := safe_leavesBut hs _
  len := by
    intro j a h
    obtain ⟨g, hg, e⟩ := List.mem_map.1 (List.mem_of_getElem? h)
    exact absurd (congrArg Prod.fst e) (hn g hg)
  fields := hb
  size := hz

theorem sizable_plain0 {m : MsgCls} (hn : ∀ f ∈ m.body, f.1 ≠ "actions_len") (hz : m.size = sizeAttrs m.body) : Sizable (plainMsg [] m) :=
  sizable_plainMsg (by intro a h; cases h) (leavesBut_fields _ (by intro f _ a h; cases h)) hn hz

theorem sizable_packetOut {m : MsgCls} {acts : PAttr} {i n : Nat} (ha : Safe acts) (hb : (leavesBut [("actions", acts)] m.body).fields = m.body)
    (hl : (leavesBut [("actions", acts)] m.body)[2]? = some ("actions_len", leafP (ubint 2)))
    (h2 : ∀ j, lenSlot (leavesBut [("actions", acts)] m.body) j → j = 2) (hz : m.size = sizeAttrs m.body) : Sizable (packetOutMsg m acts i n) where
  safe := safe_leavesBut (by intro a h; simp at h; subst h; exact ha) m.body
  len := by
    intro j a h
    have e := h2 j ⟨a, h⟩
    subst e
    rw [show (packetOutMsg m acts i n).body = leavesBut [("actions", acts)] m.body from rfl, hl] at h
    cases h; rfl
  fields := hb
  size := hz

theorem sizable_messages : ∀ m ∈ messages, Sizable m := by
  intro m hm
  unfold messages at hm
  repeat (
    rcases List.mem_cons.1 hm with rfl | hm
    · first
      | exact sizable_plain0 (noLen (by decide +kernel)) rfl
      | exact sizable_packetOut (safe_leaf _) rfl rfl (fun j => lenSlot_names (by decide)) rfl
      | exact sizable_packetOut safe_actions rfl rfl (fun j => lenSlot_names (by decide)) rfl
      | exact sizable_plainMsg (by intro a h; simp at h; subst h; exact safe_helloElems) rfl (noLen (by decide +kernel)) rfl
      | exact sizable_plainMsg (by intro a h; simp at h; subst h; exact safe_match) rfl (noLen (by decide +kernel)) rfl
      | exact sizable_plainMsg (by intro a h; simp at h; subst h; exact safe_buckets) rfl (noLen (by decide +kernel)) rfl
      | exact sizable_plainMsg (by intro a h; simp at h; rcases h with rfl | rfl; exact safe_match; exact safe_instructions) rfl
          (noLen (by decide +kernel)) rfl)
  cases hm

theorem size_good {m : PMsg} (hz : Sizable m) {c : String} {vs : List Val} (hl : vs.length = m.body.length + 1) {R : Path → Val → Prop}
    (h0 : ∀ x, ¬ R [] x) (ho : Own m vs R) (hh : InHeader vs R) (M le K) :
    Good ⟨.obj c vs, R, M, le, (· = [0, 2]), fun _ => False⟩ m.sizeSteps K (fun K' b => b = sizeAttrs m.cls.fields vs ∧ K' = K) := by
  obtain ⟨C, hC⟩ : ∃ C : Ctx, C = ⟨.obj c vs, R, M, le, (· = [0, 2]), fun _ => False⟩ := ⟨_, rfl⟩
  rw [← hC]
  have hA : At C [] (.obj c vs) R := by subst hC; exact at_root rfl rfl
  cases vs with
  | nil => simp at hl
  | cons hdr vs =>
    intro D hM hD
    refine ⟨_, hA.read_obj h0 hD, Or.inl ?_⟩
    simp only [overs, overs_length]
    have hfs : PFields.fields (("header", headerP m.cls) :: m.body) = m.cls.fields := by
      simp only [MsgCls.fields, ← hz.fields]; rfl
    have := sizeFields_good (C := C) (p := []) (("header", headerP m.cls) :: m.body) (hdr :: vs) 0 K ?_
    · rw [hfs] at this; exact this
    · intro k f w hf hw
      have hk : At C [k] w (fun q x => R (k :: q) x) := by
        have := hA.child h0 (j := k) (u := w) (by rw [at?_obj]; exact hw) (s' := fun q x => R (k :: q) x) (fun _ _ => Iff.rfl)
        simpa using this
      rw [show ([] : Path) ++ [0 + k] = [k] by simp]
      cases k with
      | zero =>
        cases hf; cases hw
        by_cases h4 : Four hdr
        · obtain ⟨hc, a, t, l, x, rfl⟩ := h4
          exact header_size hk (fun q x h => (hh q x h).1) K
        · refine (safe_header m.cls).size K ⟨hk.val, fun q x => (hk.here q x).trans ⟨fun h => ?_, fun h => (header_no h).elim⟩, hk.clear, hk.mine⟩
          obtain ⟨_, h', e, h4'⟩ := hh q x h
          cases e
          exact (h4 h4').elim
      | succ k =>
        obtain ⟨n, a⟩ := f
        have hf : m.body[k]? = some (n, a) := by simpa using hf
        by_cases hn : n = "actions_len"
        · subst hn
          have := hz.len k a hf
          subst this
          intro D hM hD
          obtain ⟨i1, i2⟩ := hk.read hD
          exact ⟨_, i1, Or.inl ⟨rfl, rfl⟩⟩
        · refine (hz.safe _ (List.mem_of_getElem? hf)).size K ⟨hk.val, fun q x => (hk.here q x).trans ?_, hk.clear, hk.mine⟩
          exact ho hl k n a w hf hn hw q x

theorem calls_message {m : PMsg} (hz : Sizable m) {c : String} {vs : List Val} (hl : vs.length = m.body.length + 1) {R : Path → Val → Prop}
    (h0 : ∀ x, ¬ R [] x) (ho : Own m vs R) (hh : InHeader vs R)
    (hg : ∀ M le K, Good ⟨.obj c vs, R, M, le, (· = [0, 2]), fun _ => False⟩ m.steps K (fun _ b => b = m.cls.pack (.obj c vs))) :
    Calls m.call (.obj c vs) R (m.cls.pack (.obj c vs)) (sizeAttrs m.cls.fields vs) where
  pack := by
    intro M le K
    refine (hg M le K).bind ?_
    rintro K' b rfl
    exact rfl
  size := by
    intro M le K
    refine (size_good hz hl h0 ho hh M le K).bind ?_
    rintro K' b ⟨rfl, rfl⟩
    exact ⟨rfl, rfl⟩

theorem SameMsg.size {m : PMsg} (hz : Sizable m) {v w : Val} (h : SameMsg m v w) :
    ∃ vs ws, v = .obj m.cls.name vs ∧ w = .obj m.cls.name ws ∧ sizeAttrs m.cls.fields vs = sizeAttrs m.cls.fields ws := by
  obtain ⟨h, h', vs, ws, rfl, rfl, h1, h2, h3⟩ := h
  refine ⟨_, _, rfl, rfl, ?_⟩
  have := h3.size (by
    rintro i ⟨a, ha⟩
    refine ⟨fun f hf => ?_⟩
    rw [ha] at hf; cases hf
    exact ⟨2, ubint 2, hz.len i a ha, fun _ => rfl⟩)
  rw [hz.fields] at this
  simp only [MsgCls.fields, sizeAttrs, h1.size, this]

/-! ## Structures -/

/-- What is asked of a structure. -/
structure Part (a : PAttr) : Prop where
  safe : Safe a
  slack : Slack a
  usize : ∀ c vs, a.attr.usize (.obj c vs) = a.attr.size (.obj c vs)

theorem part_oneOf {a : Attr} {cs : List PCls} (h1 : ∀ k ∈ cs, SafeCls k) (h2 : ∀ k ∈ cs, SlackCls k)
    (ha : ∀ k ∈ cs, ∀ vs, cs.find? (fun k' => k'.name == k.name) = some k → a.pack (.obj k.name vs) = k.pack vs ∧ a.size (.obj k.name vs) = k.size vs)
    (hu : ∀ c vs, a.usize (.obj c vs) = a.size (.obj c vs)) : Part (oneOf a cs) :=
  ⟨safe_oneOf h1 ha, slack_oneOf h2 ha, hu⟩

theorem part_single {a : Attr} {k : PCls} (h1 : SafeCls k) (h2 : SlackCls k)
    (ha : ∀ vs, a.pack (.obj k.name vs) = k.pack vs ∧ a.size (.obj k.name vs) = k.size vs) (hu : ∀ c vs, a.usize (.obj c vs) = a.size (.obj c vs)) :
    Part (oneOf a [k]) := by
  refine part_oneOf ?_ ?_ ?_ hu
  · intro k' hk; simp at hk; subst hk; exact h1
  · intro k' hk; simp at hk; subst hk; exact h2
  · intro k' hk vs _; simp at hk; subst hk; exact ha vs

theorem part_list {isItem : Val → Bool} (hc : ClassOnly isItem) {it : PAttr} (h : Part it) : Safe (listP isItem it) ∧ Slack (listP isItem it) :=
  ⟨safe_list hc h.safe h.usize, slack_list hc h.slack (fun v x => h.safe.root v x) h.usize⟩

theorem part_oxm : Part oxmP := ⟨safe_oxm, slack_oxm, fun _ _ => rfl⟩
theorem part_match : Part matchP := ⟨safe_match, slack_match, fun _ _ => rfl⟩
theorem part_action : Part actionP := ⟨safe_action, slack_action, fun _ _ => rfl⟩

theorem part_instruction : Part (oneOf V04.instruction instructionClss) where
  safe := safe_family (fun s => autoCls s.name (leavesBut [("actions", actionsP)] s.fields) 1) (fun _ => rfl)
      (fun s hs => safe_auto (safe_leavesBut (by intro a ha; simp at ha; subst ha; exact safe_actions) _) (slot_instruction hs))
      (fun s hs => pack_instruction hs)
  slack := slack_family (fun s => autoCls s.name (leavesBut [("actions", actionsP)] s.fields) 1) (fun _ => rfl)
      (fun s hs => slack_auto (slack_leavesBut (by intro a ha; simp at ha; subst ha; exact slack_actions) _) (slot_instruction hs))
      (fun s hs => pack_instruction hs)
  usize := fun _ _ => rfl

theorem part_bucket : Part (oneOf V04.bucket [bucketCls]) :=
  part_single safe_bucketCls slack_bucketCls
    (fun vs => ⟨by simp [V04.bucket, bucketCls, lengthCut, structAttr], by simp [V04.bucket, bucketCls, lengthCut]⟩) (fun _ _ => rfl)

theorem part_helloElem : Part (oneOf V04.helloElem [helloElemCls]) := by
  have hs : Slot (leaves V04.helloElemFields) 1 := ⟨by intro f hf; cases hf; exact ⟨2, _, rfl, fun _ => rfl⟩⟩
  exact part_single (safe_auto (safe_leaves _) hs) (slack_auto (slack_leaves _) hs)
    (fun vs => ⟨by simp [V04.helloElem, helloElemCls, autoCls, lengthCut, autoStruct, leaves_fields],
      by simp [V04.helloElem, helloElemCls, autoCls, lengthCut, autoStruct, structAttr, leaves_fields]⟩) (fun _ _ => rfl)

/-- The lists that properties hold. -/
def idLists : List (String × PAttr) :=
  [("instruction_ids", instructionsP), ("next_table_ids", instructionsP), ("action_ids", actionsP), ("oxm_ids", oxmsP)]

theorem safe_idLists : ∀ a ∈ idLists, Safe a.2 := by
  intro a ha
  simp only [idLists, List.mem_cons, List.not_mem_nil, or_false] at ha
  rcases ha with rfl | rfl | rfl | rfl
  · exact safe_instructions
  · exact safe_instructions
  · exact safe_actions
  · exact safe_oxms

theorem slack_idLists : ∀ a ∈ idLists, Slack a.2 := by
  intro a ha
  simp only [idLists, List.mem_cons, List.not_mem_nil, or_false] at ha
  rcases ha with rfl | rfl | rfl | rfl
  · exact slack_instructions
  · exact slack_instructions
  · exact slack_actions
  · exact slack_oxms

theorem slot_property {s : Sub} (hs : s ∈ V04.propertySubs) : Slot (leavesBut idLists s.fields) 1 := by
  refine ⟨?_⟩
  simp only [V04.propertySubs, List.mem_cons, List.not_mem_nil, or_false] at hs
  rcases hs with rfl | rfl | rfl | rfl | rfl <;> (intro f hf; cases hf; exact ⟨2, _, rfl, fun _ => rfl⟩)

theorem pack_property {s : Sub} (hs : s ∈ V04.propertySubs) :
    (autoCls s.name (leavesBut idLists s.fields) 1).pack = s.pack ∧ (autoCls s.name (leavesBut idLists s.fields) 1).size = s.size := by
  simp only [V04.propertySubs, List.mem_cons, List.not_mem_nil, or_false] at hs
  rcases hs with rfl | rfl | rfl | rfl | rfl <;> exact ⟨rfl, rfl⟩

theorem part_property : Part propertyP where
  safe := safe_family (fun s => autoCls s.name (leavesBut idLists s.fields) 1) (fun _ => rfl)
    (fun s hs => safe_auto (safe_leavesBut safe_idLists _) (slot_property hs)) (fun s hs => pack_property hs)
  slack := slack_family (fun s => autoCls s.name (leavesBut idLists s.fields) 1) (fun _ => rfl)
    (fun s hs => slack_auto (slack_leavesBut slack_idLists _) (slot_property hs)) (fun s hs => pack_property hs)
  usize := fun _ _ => rfl

theorem part_tableFeatures : Part tableFeaturesP := by
  have hp := part_list (classOnly_sub V04.propertySubs) part_property
  have hs : Slot (leavesBut [("properties", listP (isSub V04.propertySubs) propertyP)] V04.tableFeaturesFields) 0 :=
    ⟨by intro f hf; cases hf; exact ⟨2, _, rfl, fun _ => rfl⟩⟩
  exact part_single (safe_auto (safe_leavesBut (by intro a ha; simp at ha; subst ha; exact hp.1) _) hs)
    (slack_auto (slack_leavesBut (by intro a ha; simp at ha; subst ha; exact hp.2) _) hs) (fun vs => ⟨rfl, rfl⟩) (fun _ _ => rfl)

theorem part_plain {a : Attr} {name : String} {fs : PFields} (h : ∀ f ∈ fs, Safe f.2 ∧ Slack f.2)
    (ha : ∀ vs, a.pack (.obj name vs) = packAttrs fs.fields vs ∧ a.size (.obj name vs) = sizeAttrs fs.fields vs)
    (hu : ∀ c vs, a.usize (.obj c vs) = a.size (.obj c vs)) : Part (oneOf a [plainCls name fs]) :=
  part_single (safe_plain name fun f hf => (h f hf).1) (slack_plain name fun f hf => (h f hf).2) ha hu

theorem leavesBut_both {special : List (String × PAttr)} (hs : ∀ a ∈ special, Safe a.2 ∧ Slack a.2) (fs : Fields) :
    ∀ f ∈ leavesBut special fs, Safe f.2 ∧ Slack f.2 :=
  fun f hf => ⟨safe_leavesBut (fun a ha => (hs a ha).1) fs f hf, slack_leavesBut (fun a ha => (hs a ha).2) fs f hf⟩

theorem match_both : ∀ a ∈ [("match", matchP)], Safe a.2 ∧ Slack a.2 := by
  intro a ha; simp at ha; subst ha; exact ⟨safe_match, slack_match⟩

theorem part_aggregate : Part aggregateStatsRequestP :=
  part_plain (leavesBut_both match_both _) (fun vs => ⟨rfl, rfl⟩) (fun _ _ => rfl)

theorem part_flowRequest : Part flowStatsRequestP :=
  part_plain (leavesBut_both match_both _) (fun vs => ⟨rfl, rfl⟩) (fun _ _ => rfl)

theorem part_flowStats : Part flowStatsP :=
  part_plain (leavesBut_both (by
    intro a ha; simp at ha; rcases ha with rfl | rfl
    · exact ⟨safe_match, slack_match⟩
    · exact ⟨safe_instructions, slack_instructions⟩) _) (fun vs => ⟨rfl, rfl⟩) (fun _ _ => rfl)

theorem part_groupDesc : Part groupDescStatsP := by
  refine part_plain ?_ (fun vs => ⟨rfl, rfl⟩) (fun _ _ => rfl)
  intro f hf
  rcases List.mem_append.1 hf with hf | hf
  · exact ⟨safe_leaves _ f hf, slack_leaves _ f hf⟩
  · simp at hf; subst hf
    exact ⟨safe_bare part_bucket.safe, slack_bare part_bucket.slack⟩

theorem part_meterStats : Part meterStatsP := by
  have hs : Slot (leaves V04.meterStatsFields) 1 := ⟨by intro f hf; cases hf; exact ⟨2, _, rfl, fun _ => rfl⟩⟩
  exact part_single (safe_auto (safe_leaves _) hs) (slack_auto (slack_leaves _) hs)
    (fun vs => ⟨rfl, rfl⟩) (fun _ _ => rfl)

theorem part_structures : ∀ a ∈ structures, Part a := by
  intro a ha
  simp only [structures, List.mem_cons, List.not_mem_nil, or_false] at ha
  rcases ha with rfl | rfl | rfl | rfl | rfl | rfl | rfl | rfl | rfl | rfl | rfl | rfl | rfl
  · exact part_oxm
  · exact part_match
  · exact part_action
  · exact part_instruction
  · exact part_bucket
  · exact part_helloElem
  · exact part_property
  · exact part_tableFeatures
  · exact part_aggregate
  · exact part_flowRequest
  · exact part_flowStats
  · exact part_groupDesc
  · exact part_meterStats

theorem calls_part {a : PAttr} (h : Safe a) (v : Val) : Calls a.call v (a.writes v) (a.attr.pack v) (a.attr.size v) where
  pack := by
    intro M le K
    refine (h.pack K (at_root rfl rfl)).bind ?_
    rintro K' b ⟨rfl, _⟩
    exact rfl
  size := by
    intro M le K
    refine (h.size K (at_root rfl rfl)).bind ?_
    rintro K' b ⟨rfl, rfl⟩
    exact ⟨rfl, rfl⟩

end Pyof.Threads
