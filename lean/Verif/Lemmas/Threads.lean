import Verif.Spec.Threads
/-!
# A logic for threads that pack the same message

`over v D` is the message `v` after the assignments `D`.  `Good C t K Q` says that a thread `t` which knows that the assignments `K` have
been made only makes allowed assignments, and ends with knowledge and result satisfying `Q`, whatever allowed assignments the others make.
-/
namespace Pyof.Threads

def upd (D : Done) (p : Path) (x : Val) : Done := fun q => if q = p then some x else D q

theorem overs_getElem? : ∀ (vs : List Val) (D : Done) (k i : Nat),
    (overs vs D k)[i]? = vs[i]?.map fun u => over u (fun q => D ((k + i) :: q)) := by
  intro vs
  induction vs with
  | nil => intro D k i; simp [overs]
  | cons v vs ih =>
    intro D k i
    cases i with
    | zero => simp [overs]
    | succ i => simp only [overs, List.getElem?_cons_succ, ih]; congr 1; funext u; congr 1; funext q; congr 2; omega

theorem overs_length : ∀ (vs : List Val) (D : Done) (k : Nat), (overs vs D k).length = vs.length := by
  intro vs
  induction vs with
  | nil => intro D k; rfl
  | cons v vs ih => intro D k; simp [overs, ih]

theorem over_some {v : Val} {D : Done} {x : Val} (h : D [] = some x) : over v D = x := by
  cases v <;> simp [over, h]

theorem over_obj {c : String} {vs : List Val} {D : Done} (h : D [] = none) : over (.obj c vs) D = .obj c (overs vs D 0) := by
  simp [over, h]

theorem over_list {f : Bool} {vs : List Val} {D : Done} (h : D [] = none) : over (.list f vs) D = .list f (overs vs D 0) := by
  simp [over, h]

mutual
theorem over_id : ∀ (v : Val) (D : Done), (∀ q, D q = none) → over v D = v
  | .obj c vs, D, h => by rw [over_obj (h []), overs_id vs D 0 h]
  | .list f xs, D, h => by rw [over_list (h []), overs_id xs D 0 h]
  | .none, D, h | .int _, D, h | .enum _, D, h | .mask _, D, h | .str _, D, h | .bytes _, D, h | .ub _ _, D, h | .hw _, D, h
  | .ip _ _, D, h | .ip6 _ _, D, h | .dpid _, D, h | .chr _ _, D, h | .bin _, D, h | .pad _, D, h | .foreign _ _, D, h => by
    simp [over, h]
theorem overs_id : ∀ (vs : List Val) (D : Done) (k : Nat), (∀ q, D q = none) → overs vs D k = vs
  | [], _, _, _ => rfl
  | v :: vs, D, k, h => by rw [overs, over_id v _ (fun _ => h _), overs_id vs D (k + 1) h]
end

/-- No assignment above `p`. -/
def ClearD (D : Done) (p : Path) : Prop := ∀ q i r, p = q ++ i :: r → D q = none

theorem ClearD.tail {D : Done} {i : Nat} {p : Path} (h : ClearD D (i :: p)) : ClearD (fun q => D (i :: q)) p := by
  intro q j r e
  exact h (i :: q) j r (by rw [e]; rfl)

theorem at?_over : ∀ (p : Path) (v : Val) (D : Done), ClearD D p →
    at? (over v D) p = (at? v p).map fun u => over u (fun q => D (p ++ q)) := by
  intro p
  induction p with
  | nil => intro v D _; simp [at?]
  | cons i p ih =>
    intro v D h
    have h0 : D [] = none := h [] i p rfl
    cases v <;> (try (simp only [over, h0, at?, Option.map_none]; done))
    case obj c vs =>
      rw [over_obj h0]
      simp only [at?, overs_getElem?]
      cases vs[i]? with
      | none => rfl
      | some u => simp only [Option.map_some, Nat.zero_add, ih _ _ h.tail, List.cons_append]
    case list f vs =>
      rw [over_list h0]
      simp only [at?, overs_getElem?]
      cases vs[i]? with
      | none => rfl
      | some u => simp only [Option.map_some, Nat.zero_add, ih _ _ h.tail, List.cons_append]

theorem overs_put (vs : List Val) (D : Done) (i : Nat) (p : Path) (x : Val)
    (ih : ∀ v, put (over v (fun q => D (i :: q))) p x = over v (upd (fun q => D (i :: q)) p x)) :
    (overs vs D 0).modify i (fun v => put v p x) = overs vs (upd D (i :: p) x) 0 := by
  apply List.ext_getElem?
  intro j
  rw [List.getElem?_modify, overs_getElem?, overs_getElem?]
  cases vs[j]? with
  | none => rfl
  | some u =>
    simp only [Option.map_some, Option.map_eq_map, Nat.zero_add]
    by_cases hj : i = j
    · subst hj
      simp only [if_true, ih]
      congr 2; funext q; simp only [upd, List.cons.injEq, true_and]
    · simp only [hj, if_false, id_eq]
      congr 2; funext q; simp only [upd, List.cons.injEq]; rw [if_neg (by intro h; exact hj h.1.symm)]

theorem put_over : ∀ (p : Path) (v : Val) (D : Done) (x : Val), ClearD D p → put (over v D) p x = over v (upd D p x) := by
  intro p
  induction p with
  | nil => intro v D x _; rw [over_some (v := v) (D := upd D [] x) (x := x) (by simp [upd])]; cases over v D <;> rfl
  | cons i p ih =>
    intro v D x h
    have h0 : D [] = none := h [] i p rfl
    have h1 : upd D (i :: p) x [] = none := by simp [upd, h0]
    cases v <;> (try (simp only [over, h0, h1, put]; done))
    case obj c vs => rw [over_obj h0, over_obj h1]; simp only [put]; rw [overs_put _ _ _ _ _ (fun v => ih v _ x h.tail)]
    case list f vs => rw [over_list h0, over_list h1]; simp only [put]; rw [overs_put _ _ _ _ _ (fun v => ih v _ x h.tail)]

/-! ## The logic -/

/-- A message `V`, the allowed assignments `R`, what the others may have done (`M K D`: a thread that knows `K` may find `D`), places `H`
where only an assignment to that very place assigns, and places `W` where only others assign. -/
structure Ctx where
  V : Val
  R : Path → Val → Prop
  M : Done → Done → Prop
  le : ∀ K D, M K D → ∀ p x, K p = some x → D p = some x
  H : Path → Prop
  W : Path → Prop

/-- `q` is an attribute of an object around `p`, or one of those places. -/
def Near (C : Ctx) (p q : Path) : Prop := C.H q ∨ ∃ r j s i, p = r ++ j :: s ∧ q = r ++ [i]

/-- What a thread still knows after an assignment at `p`.  It may have to forget attributes of other objects, since they may be the same object. -/
def Kept (C : Ctx) (p : Path) (K K' : Done) : Prop := ∀ q, Near C p q → q ≠ p → K' q = K q

theorem kept_upd {C : Ctx} {p : Path} {K : Done} {x : Val} : Kept C p K (upd K p x) := by
  intro q _ h
  simp [upd, h]

theorem Near.child {C : Ctx} {p : Path} {j i : Nat} : Near C (p ++ [j]) (p ++ [i]) := Or.inr ⟨p, j, [], i, rfl, rfl⟩

theorem Near.more {C : Ctx} {p q : Path} (r : Path) (h : Near C p q) : Near C (p ++ r) q := by
  rcases h with h | ⟨a, j, s, i, rfl, rfl⟩
  · exact Or.inl h
  · exact Or.inr ⟨a, j, s ++ r, i, by simp, rfl⟩

/-- All assignments are allowed ones. -/
def Allowed (R : Path → Val → Prop) (D : Done) : Prop := ∀ p x, D p = some x → R p x

/-- No assignment is allowed above `p`. -/
def Clear (R : Path → Val → Prop) (p : Path) : Prop := ∀ q i r, p = q ++ i :: r → ∀ x, ¬ R q x

theorem Clear.done {R : Path → Val → Prop} {p : Path} (h : Clear R p) {D : Done} (hD : Allowed R D) : ClearD D p := by
  intro q i r e
  cases hq : D q with
  | none => rfl
  | some x => exact absurd (hD q x hq) (h q i r e x)

def Good {α : Type} (C : Ctx) : Prog α → Done → (Done → α → Prop) → Prop
  | .ret a, K, Q => Q K a
  | .get p k, K, Q => ∀ D, C.M K D → Allowed C.R D → ∃ v, at? (over C.V D) p = some v ∧
      (Good C (k v) K Q ∨ ∃ x, (D p = some x ∧ ¬ C.W p) ∧ Good C (k v) (upd K p x) Q)
  | .set p x k, K, Q => C.R p x ∧ Clear C.R p ∧ (¬ C.W p ∧ ∃ r i u, p = r ++ [i] ∧ at? C.V r = some u) ∧
      ∀ K', K' p = some x → Kept C p K K' → Good C k K' Q

theorem Good.mono {α : Type} {C : Ctx} : ∀ {t : Prog α} {K : Done} {Q Q' : Done → α → Prop}, Good C t K Q →
    (∀ K a, Q K a → Q' K a) → Good C t K Q'
  | .ret _, _, _, _, h, hq => hq _ _ h
  | .get _ _, _, _, _, h, hq => fun D hM hD => let ⟨v, hv, hg⟩ := h D hM hD; ⟨v, hv, hg.imp (·.mono hq) fun ⟨x, hx, hg⟩ => ⟨x, hx, hg.mono hq⟩⟩
  | .set _ _ _, _, _, _, h, hq => ⟨h.1, h.2.1, h.2.2.1, fun K' h1 h2 => (h.2.2.2 K' h1 h2).mono hq⟩

theorem Good.bind {α β : Type} {C : Ctx} : ∀ {t : Prog α} {f : α → Prog β} {K : Done} {Q : Done → α → Prop} {Q' : Done → β → Prop},
    Good C t K Q → (∀ K a, Q K a → Good C (f a) K Q') → Good C (t.bind f) K Q'
  | .ret _, _, _, _, _, h, hf => hf _ _ h
  | .get _ _, _, _, _, _, h, hf => fun D hM hD => let ⟨v, hv, hg⟩ := h D hM hD; ⟨v, hv, hg.imp (·.bind hf) fun ⟨x, hx, hg⟩ => ⟨x, hx, hg.bind hf⟩⟩
  | .set _ _ _, _, _, _, _, h, hf => ⟨h.1, h.2.1, h.2.2.1, fun K' h1 h2 => (h.2.2.2 K' h1 h2).bind hf⟩

/-- The rule for steps that may raise: the result of the first is `r`. -/
theorem Good.andThen {α β : Type} {C : Ctx} {t : Prog (Res α)} {f : α → Prog (Res β)} {K : Done} {r : Res α} {P : Done → Prop}
    {Q' : Done → Res β → Prop} (h : Good C t K (fun K' a => a = r ∧ P K')) (he : ∀ K' e, r = .error e → P K' → Q' K' (.error e))
    (hf : ∀ K' a, r = .ok a → P K' → Good C (f a) K' Q') : Good C (t.andThen f) K Q' := by
  refine h.bind ?_
  rintro K' a ⟨rfl, hP⟩
  cases a with
  | error e => exact he K' e rfl hP
  | ok a => exact hf K' a rfl hP

/-! ## Where a value is -/

/-- The value `v` is at `p`, and the assignments allowed in it are `s`. -/
structure At (C : Ctx) (p : Path) (v : Val) (s : Path → Val → Prop) : Prop where
  val : at? C.V p = some v
  here : ∀ q x, C.R (p ++ q) x ↔ s q x
  clear : Clear C.R p
  mine : ∀ q, ¬ C.W (p ++ q)

theorem at?_append : ∀ (p q : Path) (v : Val), at? v (p ++ q) = (at? v p).bind fun u => at? u q := by
  intro p
  induction p with
  | nil => intro q v; simp [at?]
  | cons i p ih =>
    intro q v
    cases v <;> simp only [List.cons_append, at?, Option.bind_none]
    case obj c vs => cases vs[i]? with | none => rfl | some u => exact ih q u
    case list f vs => cases vs[i]? with | none => rfl | some u => exact ih q u

theorem clear_child {R : Path → Val → Prop} {p : Path} (h : Clear R p) (h0 : ∀ x, ¬ R p x) (j : Nat) : Clear R (p ++ [j]) := by
  intro q i r e x
  rcases List.append_eq_append_iff.1 e with ⟨a, rfl, ha⟩ | ⟨a, rfl, ha⟩
  · cases a with
    | nil => simpa using h0 x
    | cons b a => simp at ha
  · cases a with
    | nil => simpa using h0 x
    | cons b a => exact h q b a rfl x

theorem At.root {C : Ctx} {p : Path} {v : Val} {s : Path → Val → Prop} (h : At C p v s) (h0 : ∀ x, ¬ s [] x) : ∀ x, ¬ C.R p x := by
  intro x hx
  exact h0 x ((h.here [] x).1 (by simpa using hx))

theorem At.child {C : Ctx} {p : Path} {v u : Val} {s : Path → Val → Prop} (h : At C p v s) (h0 : ∀ x, ¬ s [] x) {j : Nat}
    (hu : at? v [j] = some u) {s' : Path → Val → Prop} (hs : ∀ q x, s (j :: q) x ↔ s' q x) : At C (p ++ [j]) u s' := by
  refine ⟨?_, ?_, clear_child h.clear (h.root h0) j, fun q => by rw [List.append_assoc]; exact h.mine _⟩
  · rw [at?_append, h.val]; exact hu
  · intro q x
    rw [← hs, ← h.here]; simp

theorem at?_obj {c : String} {vs : List Val} {j : Nat} : at? (.obj c vs) [j] = vs[j]? := by
  simp only [at?]; cases vs[j]? <;> rfl

theorem at?_list {f : Bool} {vs : List Val} {j : Nat} : at? (.list f vs) [j] = vs[j]? := by
  simp only [at?]; cases vs[j]? <;> rfl

/-- What a thread reads. -/
theorem At.read {C : Ctx} {p : Path} {v : Val} {s : Path → Val → Prop} (h : At C p v s) {D : Done} (hD : Allowed C.R D) :
    at? (over C.V D) p = some (over v (fun q => D (p ++ q))) ∧ ∀ q x, D (p ++ q) = some x → s q x := by
  refine ⟨?_, fun q x hx => (h.here q x).1 (hD _ _ hx)⟩
  rw [at?_over p C.V D (h.clear.done hD), h.val]; rfl

/-- Nothing is ever assigned in it. -/
theorem At.read_leaf {C : Ctx} {p : Path} {v : Val} {s : Path → Val → Prop} (h : At C p v s) (hs : ∀ q x, ¬ s q x) {D : Done}
    (hD : Allowed C.R D) : at? (over C.V D) p = some v := by
  obtain ⟨h1, h2⟩ := h.read hD
  rw [h1, over_id]
  intro q
  cases hq : D (p ++ q) with
  | none => rfl
  | some x => exact absurd (h2 q x hq) (hs q x)

theorem At.none {C : Ctx} {p : Path} {v : Val} {s : Path → Val → Prop} (h0 : ∀ x, ¬ s [] x) {D : Done}
    (h2 : ∀ q x, D (p ++ q) = some x → s q x) : D (p ++ []) = .none := by
  cases hq : D (p ++ []) with
  | none => rfl
  | some x => exact absurd (h2 [] x hq) (h0 x)

/-! ## Laws -/

/-- The attributes of the objects around `p` have not changed, except what is at or below `p`. -/
def Frame (C : Ctx) (p : Path) (K K' : Done) : Prop := ∀ q, Near C p q → ¬ p <+: q → K' q = K q

theorem Frame.refl {C : Ctx} {p : Path} {K : Done} : Frame C p K K := fun _ _ _ => rfl
theorem Frame.trans {C : Ctx} {p : Path} {K K' K'' : Done} (h : Frame C p K K') (h' : Frame C p K' K'') : Frame C p K K'' :=
  fun q hn hq => (h' q hn hq).trans (h q hn hq)
theorem Frame.up {C : Ctx} {p r : Path} {K K' : Done} (h : Frame C (p ++ r) K K') : Frame C p K K' :=
  fun q hn hq => h q (hn.more r) (fun hp => hq ((List.prefix_append p r).trans hp))
theorem Kept.frame {C : Ctx} {p r : Path} {K K' : Done} (h : Kept C (p ++ r) K K') : Frame C p K K' := by
  intro q hn hq
  refine h q (hn.more r) ?_
  rintro rfl
  exact hq (List.prefix_append p r)

theorem not_prefix_child {p : Path} {i j : Nat} (h : i ≠ j) (r : Path) : ¬ (p ++ [j]) <+: (p ++ i :: r) := by
  rintro ⟨t, ht⟩
  simp only [List.append_assoc, List.append_cancel_left_eq, List.singleton_append, List.cons.injEq] at ht
  exact h ht.1.symm

/-- The length of an ActionSetField that has to be padded. -/
def PadLen (v : Val) (q : Path) : Prop := ∃ p, q = p ++ [1] ∧ Padded v p

theorem PadLen.sub {v u : Val} {j : Nat} {q : Path} (hu : at? v [j] = some u) (h : PadLen u q) : PadLen v (j :: q) := by
  obtain ⟨p, rfl, t, l, f, b, hp, hb⟩ := h
  refine ⟨j :: p, rfl, t, l, f, b, ?_, hb⟩
  have := at?_append [j] p v
  rw [hu] at this
  exact this.trans hp

theorem NoPad.no {v : Val} (h : NoPad v) {q : Path} (hq : PadLen v q) : False := by
  obtain ⟨p, _, t, l, f, b, hp, hb, h8⟩ := hq
  exact h8 (h p t l f hp b hb)

/-- At most one value is assigned at each place. -/
def Single (s : Path → Val → Prop) : Prop := ∀ q x y, s q x → s q y → x = y

/-- At most one value is assigned at each place, but for lengths of actions that have to be padded. -/
def Once (v : Val) (s : Path → Val → Prop) : Prop := ∀ q x y, s q x → s q y → x = y ∨ PadLen v q

theorem Once.single {v : Val} {s : Path → Val → Prop} (h : Once v s) (hn : NoPad v) : Single s := fun q x y hx hy => (h q x y hx hy).elim id fun h => (hn.no h).elim

structure Safe (a : PAttr) : Prop where
  root : ∀ v x, ¬ a.writes v [] x
  pack : ∀ {C : Ctx} {p : Path} {v : Val} (K : Done), At C p v (a.writes v) →
    Good C (a.packP p) K (fun K' b => b = a.attr.pack v ∧ Frame C p K K')
  size : ∀ {C : Ctx} {p : Path} {v : Val} (K : Done), At C p v (a.writes v) →
    Good C (a.sizeP p) K (fun K' b => b = a.attr.size v ∧ K' = K)
  once : ∀ {v : Val}, Once v (a.writes v)

structure SafeCls (k : PCls) : Prop where
  root : ∀ vs x, ¬ k.writes vs [] x
  pack : ∀ {C : Ctx} {p : Path} {vs : List Val} (K : Done), At C p (.obj k.name vs) (k.writes vs) →
    Good C (k.packP p vs.length) K (fun K' b => b = k.pack vs ∧ Frame C p K K')
  size : ∀ {C : Ctx} {p : Path} {vs : List Val} (K : Done), At C p (.obj k.name vs) (k.writes vs) →
    Good C (k.sizeP p vs.length) K (fun K' b => b = k.size vs ∧ K' = K)
  once : ∀ {vs : List Val}, Once (.obj k.name vs) (k.writes vs)

theorem safe_leaf (a : Attr) : Safe (leafP a) where
  root := fun _ _ h => h
  pack := fun K h D _ hD => ⟨_, h.read_leaf (fun _ _ h => h) hD, Or.inl ⟨rfl, Frame.refl⟩⟩
  size := fun K h D _ hD => ⟨_, h.read_leaf (fun _ _ h => h) hD, Or.inl ⟨rfl, rfl⟩⟩
  once := fun _ _ _ h => h.elim

/-- The values read are the given ones `ws`; `Inv` is what is known throughout. -/
theorem packFields_good {C : Ctx} {p : Path} {Inv : Done → Prop} : ∀ (fs : PFields) (ws : List Val) (j : Nat) (K : Done), Inv K →
    (∀ (k : Nat) (f : String × PAttr) (w : Val), fs[k]? = some f → ws[k]? = some w → ∀ K, Inv K →
      Good C (f.2.packP (p ++ [j + k])) K (fun K' b => b = f.2.attr.pack w ∧ Inv K')) →
    Good C (packFields p fs j ws.length) K (fun K' b => b = packAttrs fs.fields ws ∧ Inv K')
  | [], ws, j, K, hK, h => by simp only [packFields, Good]; exact ⟨by simp [PFields.fields, packAttrs], hK⟩
  | (s, c) :: fs, [], j, K, hK, h => by
    simp only [packFields, List.length_nil, Good]; exact ⟨by simp [PFields.fields, packAttrs], hK⟩
  | (s, c) :: fs, w :: ws, j, K, hK, h => by
    simp only [packFields, List.length_cons]
    refine (h 0 (s, c) w rfl rfl K hK).andThen ?_ ?_
    · intro K' e he hI
      dsimp only at he
      exact ⟨by simp [PFields.fields, packAttrs, he], hI⟩
    · intro K' b hb hI
      dsimp only at hb
      refine (packFields_good fs ws (j + 1) K' hI ?_).andThen ?_ ?_
      · intro k f w hf hw K hK
        have := h (k + 1) f w (by simpa using hf) (by simpa using hw) K hK
        rwa [show j + (k + 1) = j + 1 + k by omega] at this
      · intro K'' e he hI
        simp only [PFields.fields] at he
        exact ⟨by simp [PFields.fields, packAttrs, he, hb], hI⟩
      · intro K'' r hr hI
        simp only [PFields.fields] at hr
        exact ⟨by simp [PFields.fields, packAttrs, hr, hb], hI⟩

theorem sizeFields_good {C : Ctx} {p : Path} : ∀ (fs : PFields) (ws : List Val) (j : Nat) (K : Done),
    (∀ (k : Nat) (f : String × PAttr) (w : Val), fs[k]? = some f → ws[k]? = some w → 
      Good C (f.2.sizeP (p ++ [j + k])) K (fun K' b => b = f.2.attr.size w ∧ K' = K)) →
    Good C (sizeFields p fs j ws.length) K (fun K' b => b = sizeAttrs fs.fields ws ∧ K' = K)
  | [], ws, j, K, h => by simp only [sizeFields, Good]; exact ⟨by simp [PFields.fields, sizeAttrs], trivial⟩
  | (s, c) :: fs, [], j, K, h => by
    simp only [sizeFields, List.length_nil, Good]; exact ⟨by simp [PFields.fields, sizeAttrs], trivial⟩
  | (s, c) :: fs, w :: ws, j, K, h => by
    simp only [sizeFields, List.length_cons]
    refine (h 0 (s, c) w rfl rfl).andThen ?_ ?_
    · intro K' e he hI
      dsimp only at he
      exact ⟨by simp [PFields.fields, sizeAttrs, he], hI⟩
    · rintro K' b hb rfl
      dsimp only at hb
      refine (sizeFields_good fs ws (j + 1) K' ?_).andThen ?_ ?_
      · intro k f w hf hw
        have := h (k + 1) f w (by simpa using hf) (by simpa using hw)
        rwa [show j + (k + 1) = j + 1 + k by omega] at this
      · rintro K'' e he rfl
        simp only [PFields.fields] at he
        exact ⟨by simp [PFields.fields, sizeAttrs, he, hb], rfl⟩
      · rintro K'' r hr rfl
        simp only [PFields.fields] at hr
        exact ⟨by simp [PFields.fields, sizeAttrs, hr, hb], rfl⟩


theorem fields_get {fs : PFields} {j : Nat} {f : String × PAttr} (h : fs[j]? = some f) : fs.fields[j]? = some (f.1, f.2.attr) := by
  simp [PFields.fields, h]

/-- A field of an object at `p`. -/
theorem At.field {C : Ctx} {p : Path} {c : String} {vs : List Val} {s : Path → Val → Prop} (h : At C p (.obj c vs) s) (h0 : ∀ x, ¬ s [] x)
    {fs : PFields} {j : Nat} {f : String × PAttr} {v : Val} (hf : fs[j]? = some f) (hv : vs[j]? = some v)
    (hs : ∀ q x, s (j :: q) x ↔ fieldWrites fs vs (j :: q) x) : At C (p ++ [j]) v (f.2.writes v) := by
  refine h.child h0 (by rw [at?_obj]; exact hv) ?_
  intro q x
  rw [hs]
  simp only [fieldWrites]
  constructor
  · rintro ⟨f', v', h1, h2, h3⟩
    rw [hf] at h1; rw [hv] at h2; cases h1; cases h2; exact h3
  · intro h; exact ⟨f, v, hf, hv, h⟩

theorem fieldWrites_once {fs : PFields} (hs : ∀ f ∈ fs, Safe f.2) {c : String} {vs : List Val} :
    Once (.obj c vs) (fieldWrites fs vs) := by
  intro q x y hx hy
  cases q with
  | nil => exact hx.elim
  | cons j q =>
    obtain ⟨f, v, h1, h2, h3⟩ := hx
    obtain ⟨f', v', h1', h2', h3'⟩ := hy
    rw [h1] at h1'; rw [h2] at h2'; cases h1'; cases h2'
    exact ((hs f (List.mem_of_getElem? h1)).once q x y h3 h3').imp id (PadLen.sub (by rw [at?_obj]; exact h2))

/-- The sizes of the attributes, none of which depends on an assigned value. -/
theorem sizes_good {C : Ctx} {p : Path} {c : String} {vs : List Val} {s : Path → Val → Prop} (h : At C p (.obj c vs) s) (h0 : ∀ x, ¬ s [] x)
    {fs : PFields} (hs : ∀ f ∈ fs, Safe f.2)
    (hj : ∀ j f, fs[j]? = some f → (∀ q x, s (j :: q) x ↔ fieldWrites fs vs (j :: q) x) ∨
      ∃ n a, f.2 = leafP a ∧ ∀ v, a.size v = .ok n) (K : Done) :
    Good C (sizeFields p fs 0 vs.length) K (fun K' b => b = sizeAttrs fs.fields vs ∧ K' = K) := by
  refine sizeFields_good fs vs 0 K ?_
  intro k f w hf hw
  rw [Nat.zero_add]
  rcases hj k f hf with h1 | ⟨n, a, ha, hn⟩
  · exact (hs f (List.mem_of_getElem? hf)).size K (h.field h0 hf hw h1)
  · rw [ha]
    intro D hM hD
    obtain ⟨h1, h2⟩ := (h.child h0 (j := k) (u := w) (by rw [at?_obj]; exact hw) (s' := fun q x => s (k :: q) x) (fun _ _ => Iff.rfl)).read hD
    exact ⟨_, h1, Or.inl (by simp only [Good, leafP, hn]; trivial)⟩

/-- The attributes one by one, where `i` is an attribute that has been assigned. -/
theorem packs_good {C : Ctx} {p : Path} {c : String} {vs : List Val} {s : Path → Val → Prop} (h : At C p (.obj c vs) s) (h0 : ∀ x, ¬ s [] x)
    {fs : PFields} (hs : ∀ f ∈ fs, Safe f.2) (set : List (Nat × Val))
    (hj : ∀ j f, fs[j]? = some f → (set.lookup j = none ∧ ∀ q x, s (j :: q) x ↔ fieldWrites fs vs (j :: q) x) ∨
      ((set.lookup j).isSome ∧ ∃ a, f.2 = leafP a))
    (ws : List Val) (hl : ws.length = vs.length) (hw : ∀ j w, ws[j]? = some w → (match set.lookup j with | some x => w = x | none => vs[j]? = some w))
    (K K0 : Done) (hK : ∀ j x, set.lookup j = some x → K (p ++ [j]) = some x) (hF : Frame C p K0 K) :
    Good C (packFields p fs 0 vs.length) K (fun K' b => b = packAttrs fs.fields ws ∧
      (∀ j x, set.lookup j = some x → K' (p ++ [j]) = some x) ∧ Frame C p K0 K') := by
  rw [← hl]
  refine packFields_good (Inv := fun K' => (∀ j x, set.lookup j = some x → K' (p ++ [j]) = some x) ∧ Frame C p K0 K') fs ws 0 K ⟨hK, hF⟩ ?_
  rintro k f w hf hwk K ⟨hK, hF⟩
  rw [Nat.zero_add]
  have hv := hw k w hwk
  rcases hj k f hf with ⟨h1, h2⟩ | ⟨h1, a, ha⟩
  · rw [h1] at hv
    refine ((hs f (List.mem_of_getElem? hf)).pack K (h.field h0 hf hv h2)).mono ?_
    rintro K' b ⟨rfl, hf'⟩
    refine ⟨rfl, ?_, hF.trans hf'.up⟩
    intro j x hx
    rw [hf' _ .child (not_prefix_child (i := j) (j := k) ?_ [])]
    · exact hK j x hx
    · rintro rfl; rw [h1] at hx; cases hx
  · obtain ⟨x, hx⟩ := Option.isSome_iff_exists.1 h1
    rw [hx] at hv
    subst hv
    rw [ha]
    intro D hM hD
    have hlt : k < vs.length := by rw [← hl]; exact (List.getElem?_eq_some_iff.1 hwk).1
    obtain ⟨h3, h4⟩ := (h.child h0 (j := k) (u := vs[k]) (by rw [at?_obj]; exact List.getElem?_eq_getElem hlt)
      (s' := fun q x => s (k :: q) x) (fun _ _ => Iff.rfl)).read hD
    have h5 : D (p ++ [k]) = some w := C.le K D hM _ _ (hK k w hx)
    rw [over_some (v := vs[k]) (D := fun q => D (p ++ [k] ++ q)) (x := w) (by simpa using h5)] at h3
    exact ⟨_, h3, Or.inl ⟨rfl, hK, hF⟩⟩

theorem root_fields (fs : PFields) (vs : List Val) (x : Val) : ¬ fieldWrites fs vs [] x := fun h => h

theorem packs_plain {C : Ctx} {p : Path} {c : String} {vs : List Val} {fs : PFields} (h : At C p (.obj c vs) (fieldWrites fs vs))
    (hs : ∀ f ∈ fs, Safe f.2) (K : Done) :
    Good C (packFields p fs 0 vs.length) K (fun K' b => b = packAttrs fs.fields vs ∧ Frame C p K K') := by
  refine (packs_good h (root_fields fs vs) hs [] ?_ vs rfl ?_ K K ?_ Frame.refl).mono ?_
  · intro j f _; exact Or.inl ⟨rfl, fun _ _ => Iff.rfl⟩
  · intro j w hw; simpa using hw
  · intro j x h; simp at h
  · rintro K' b ⟨h1, _, h2⟩; exact ⟨h1, h2⟩

theorem sizes_plain {C : Ctx} {p : Path} {c : String} {vs : List Val} {fs : PFields} (h : At C p (.obj c vs) (fieldWrites fs vs))
    (hs : ∀ f ∈ fs, Safe f.2) (K : Done) :
    Good C (sizeFields p fs 0 vs.length) K (fun K' b => b = sizeAttrs fs.fields vs ∧ K' = K) :=
  sizes_good h (root_fields fs vs) hs (fun _ _ _ => Or.inl fun _ _ => Iff.rfl) K

theorem safe_plain (name : String) {fs : PFields} (hs : ∀ f ∈ fs, Safe f.2) : SafeCls (plainCls name fs) where
  root := fun _ _ h => h
  pack := fun K h => packs_plain h hs K
  size := fun K h => sizes_plain h hs K
  once := fieldWrites_once hs

theorem set_get {vs : List Val} {i : Nat} {x : Val} (j : Nat) (w : Val) (hw : (vs.set i x)[j]? = some w) :
    (match ([(i, x)] : List (Nat × Val)).lookup j with | some x => w = x | none => vs[j]? = some w) := by
  rw [List.getElem?_set] at hw
  by_cases hij : i = j
  · subst hij
    simp only [if_true] at hw
    split at hw
    · cases hw; simp [List.lookup]
    · cases hw
  · simp only [hij, if_false] at hw
    have : (j == i) = false := by simpa using fun h => hij h.symm
    simp [List.lookup, this, hw]

theorem lookup_one {i : Nat} {x : Val} (j : Nat) : ([(i, x)] : List (Nat × Val)).lookup j = if j = i then some x else none := by
  simp only [List.lookup]
  by_cases h : j = i
  · simp [h]
  · have : (j == i) = false := by simpa using h
    simp [this, h]

/-- Attribute `i` is a number that is assigned. -/
structure Slot (fs : PFields) (i : Nat) : Prop where
  leaf : ∀ f, fs[i]? = some f → ∃ n a, f.2 = leafP a ∧ ∀ v, a.size v = .ok n

theorem Slot.no {fs : PFields} {i : Nat} (hi : Slot fs i) {vs : List Val} {q : Path} {x : Val} : ¬ fieldWrites fs vs (i :: q) x := by
  rintro ⟨f, v, h1, _, h3⟩
  obtain ⟨n, a, ha, _⟩ := hi.leaf f h1
  rw [ha] at h3
  exact h3

/-- Like `autoCls`, for any assigned value. -/
theorem packs_slot {C : Ctx} {p : Path} {c : String} {vs : List Val} {s : Path → Val → Prop} (h : At C p (.obj c vs) s)
    {fs : PFields} (hs : ∀ f ∈ fs, Safe f.2) {i : Nat} (hi : Slot fs i) (h0 : ∀ x, ¬ s [] x)
    (hc : ∀ j, j ≠ i → ∀ q x, s (j :: q) x ↔ fieldWrites fs vs (j :: q) x) (x : Val) (K K0 : Done) (hK : K (p ++ [i]) = some x) (hF : Frame C p K0 K) :
    Good C (packFields p fs 0 vs.length) K (fun K' b => b = packAttrs fs.fields (vs.set i x) ∧ K' (p ++ [i]) = some x ∧ Frame C p K0 K') := by
  refine (packs_good h h0 hs [(i, x)] ?_ (vs.set i x) (by simp) (fun j w hw => set_get j w hw) K K0 ?_ hF).mono ?_
  · intro j f hf
    by_cases hj : j = i
    · subst hj
      obtain ⟨n, a, ha, _⟩ := hi.leaf f hf
      exact Or.inr ⟨by simp, a, ha⟩
    · exact Or.inl ⟨by simp [lookup_one, hj], hc j hj⟩
  · intro j y hy
    rw [lookup_one] at hy
    by_cases hj : j = i
    · subst hj; simp at hy; rw [hK, hy]
    · simp [hj] at hy
  · rintro K' b ⟨h1, h2, h3⟩
    exact ⟨h1, h2 i x (by simp), h3⟩

theorem sizes_slot {C : Ctx} {p : Path} {c : String} {vs : List Val} {s : Path → Val → Prop} (h : At C p (.obj c vs) s)
    {fs : PFields} (hs : ∀ f ∈ fs, Safe f.2) {i : Nat} (hi : Slot fs i) (h0 : ∀ x, ¬ s [] x)
    (hc : ∀ j, j ≠ i → ∀ q x, s (j :: q) x ↔ fieldWrites fs vs (j :: q) x) (K : Done) :
    Good C (sizeFields p fs 0 vs.length) K (fun K' b => b = sizeAttrs fs.fields vs ∧ K' = K) := by
  refine sizes_good h h0 hs ?_ K
  intro j f hf
  by_cases hj : j = i
  · subst hj; exact Or.inr (hi.leaf f hf)
  · exact Or.inl (hc j hj)

section auto
variable {name : String} {fs : PFields} {i : Nat}

theorem auto_root (vs : List Val) (x : Val) : ¬ (autoCls name fs i).writes vs [] x := by
  rintro (⟨h, _⟩ | h)
  · cases h
  · exact h

theorem auto_other (vs : List Val) (j : Nat) (hj : j ≠ i) (q : Path) (x : Val) :
    (autoCls name fs i).writes vs (j :: q) x ↔ fieldWrites fs vs (j :: q) x := by
  constructor
  · rintro (⟨h, _⟩ | h)
    · simp only [List.cons.injEq] at h; exact absurd h.1 hj
    · exact h
  · exact Or.inr

theorem auto_once (hs : ∀ f ∈ fs, Safe f.2) (hi : Slot fs i) {c : String} {vs : List Val} :
    Once (.obj c vs) ((autoCls name fs i).writes vs) := by
  rintro q x y (⟨rfl, n, h1, rfl⟩ | h) (⟨h', m, h2, rfl⟩ | h')
  · rw [h1] at h2; cases h2; exact Or.inl rfl
  · exact (hi.no h').elim
  · subst h'; exact (hi.no h).elim
  · exact fieldWrites_once hs q x y h h'

theorem safe_auto (hs : ∀ f ∈ fs, Safe f.2) (hi : Slot fs i) : SafeCls (autoCls name fs i) where
  root := auto_root
  pack := by
    intro C p vs K h
    have hsz := sizes_slot h hs hi (auto_root vs) (auto_other vs) K
    refine hsz.andThen ?_ ?_
    · rintro K' e he rfl
      exact ⟨by simp [autoCls, autoPack, withLength, he], Frame.refl⟩
    · rintro K' n hn rfl
      refine ⟨(h.here [i] _).2 (Or.inl ⟨rfl, n, hn, rfl⟩), clear_child h.clear (h.root (auto_root vs)) i, ⟨h.mine [i], p, i, _, rfl, h.val⟩, ?_⟩
      intro K2 hK2 hk2
      refine (packs_slot h hs hi (auto_root vs) (auto_other vs) (.int n) _ K' hK2 hk2.frame).mono ?_
      rintro K'' b ⟨rfl, _, hF⟩
      exact ⟨by simp [autoCls, autoPack, withLength, hn], hF⟩
  size := fun K h => sizes_slot h hs hi (auto_root _) (auto_other _) K
  once := auto_once hs hi
end auto

/-! ## Values of one of several classes -/

theorem safe_oneOf {a : Attr} {cs : List PCls} (hs : ∀ k ∈ cs, SafeCls k)
    (ha : ∀ k ∈ cs, ∀ vs, cs.find? (fun k' => k'.name == k.name) = some k → a.pack (.obj k.name vs) = k.pack vs ∧ a.size (.obj k.name vs) = k.size vs) :
    Safe (oneOf a cs) := by
  have key : ∀ c k, cs.find? (fun k => k.name == c) = some k → k ∈ cs ∧ k.name = c := by
    intro c k h
    exact ⟨List.mem_of_find?_eq_some h, by simpa using List.find?_some h⟩
  have root : ∀ v x, ¬ (oneOf a cs).writes v [] x := by
    intro v x h
    cases v <;> simp only [oneOf] at h
    case obj c vs =>
      cases hk : cs.find? (fun k => k.name == c) with
      | none => rw [hk] at h; exact h
      | some k => rw [hk] at h; exact (hs k (key c k hk).1).root vs x h
  have dispatch : ∀ {C : Ctx} {p : Path} {v : Val} {D : Done}, At C p v ((oneOf a cs).writes v) → Allowed C.R D →
      (∃ c vs vs' k, v = .obj c vs ∧ cs.find? (fun k => k.name == c) = some k ∧ vs'.length = vs.length ∧
        at? (over C.V D) p = some (.obj c vs') ∧ At C p (.obj k.name vs) (k.writes vs)) ∨
      (at? (over C.V D) p = some v ∧ ∀ c vs, v = .obj c vs → cs.find? (fun k => k.name == c) = none) := by
    intro C p v D h hD
    by_cases hv : ∃ c vs k, v = .obj c vs ∧ cs.find? (fun k => k.name == c) = some k
    · obtain ⟨c, vs, k, rfl, hk⟩ := hv
      obtain ⟨h1, h2⟩ := h.read hD
      rw [over_obj (At.none (C := C) (v := .obj c vs) (root _) h2)] at h1
      refine Or.inl ⟨c, vs, _, k, rfl, hk, overs_length _ _ _, h1, ?_⟩
      obtain ⟨_, rfl⟩ := key c k hk
      refine ⟨h.val, ?_, h.clear, h.mine⟩
      intro q x
      rw [h.here]
      simp only [oneOf, hk]
    · refine Or.inr ⟨h.read_leaf ?_ hD, ?_⟩
      · intro q x hx
        apply hv
        cases v <;> simp only [oneOf] at hx
        case obj c vs =>
          cases hk : cs.find? (fun k => k.name == c) with
          | none => rw [hk] at hx; exact hx.elim
          | some k => exact ⟨c, vs, k, rfl, hk⟩
      · rintro c vs rfl
        cases hk : cs.find? (fun k => k.name == c) with
        | none => rfl
        | some k => exact (hv ⟨c, vs, k, rfl, hk⟩).elim
  refine ⟨root, ?_, ?_, ?_⟩
  · intro C p v K h D hM hD
    rcases dispatch h hD with ⟨c, vs, vs', k, rfl, hk, hl, hr, hA⟩ | ⟨hr, hno⟩
    · obtain ⟨hm, rfl⟩ := key c k hk
      refine ⟨_, hr, Or.inl ?_⟩
      simp only [hk, hl]
      refine ((hs k hm).pack K hA).mono ?_
      rintro K' b ⟨rfl, hF⟩
      exact ⟨(ha k hm vs hk).1.symm, hF⟩
    · refine ⟨_, hr, Or.inl ?_⟩
      cases v <;> try exact ⟨rfl, Frame.refl⟩
      simp only [hno _ _ rfl]
      exact ⟨rfl, Frame.refl⟩
  · intro C p v K h D hM hD
    rcases dispatch h hD with ⟨c, vs, vs', k, rfl, hk, hl, hr, hA⟩ | ⟨hr, hno⟩
    · obtain ⟨hm, rfl⟩ := key c k hk
      refine ⟨_, hr, Or.inl ?_⟩
      simp only [hk, hl]
      refine ((hs k hm).size K hA).mono ?_
      rintro K' b ⟨rfl, hF⟩
      exact ⟨(ha k hm vs hk).2.symm, hF⟩
    · refine ⟨_, hr, Or.inl ?_⟩
      cases v <;> try exact ⟨rfl, rfl⟩
      simp only [hno _ _ rfl]
      exact ⟨rfl, rfl⟩
  · intro v q x y hx hy
    cases v <;> simp only [oneOf] at hx hy
    case obj c vs =>
      cases hk : cs.find? (fun k => k.name == c) with
      | none => rw [hk] at hx; exact hx.elim
      | some k =>
        rw [hk] at hx hy
        obtain ⟨hm, rfl⟩ := key c k hk
        exact (hs k hm).once q x y hx hy


/-! ## Lists -/

/-- Whether something is an item depends on its class only. -/
def ClassOnly (isItem : Val → Bool) : Prop :=
  (∀ c vs vs', isItem (.obj c vs) = isItem (.obj c vs')) ∧ ∀ v, isItem v = true → ∃ c vs, v = .obj c vs

theorem classOnly_obj (c : String) : ClassOnly (isObj c) :=
  ⟨fun _ _ _ => rfl, fun v h => by cases v <;> first | exact ⟨_, _, rfl⟩ | exact absurd h (by simp [isObj])⟩

theorem classOnly_sub (subs : List Sub) : ClassOnly (isSub subs) :=
  ⟨fun _ _ _ => rfl, fun v h => by cases v <;> first | exact ⟨_, _, rfl⟩ | exact absurd h (by simp [isSub])⟩

/-- The value `v` is at `p`. -/
def AtItem (C : Ctx) (it : PAttr) (p : Path) (v : Val) : Prop := At C p v (it.writes v)

theorem listWrites_root {it : PAttr} (hi : Safe it) (v : Val) (x : Val) : ¬ listWrites it [] v x := by
  intro h
  cases v <;> simp only [listWrites] at h <;> exact hi.root _ _ h

theorem listWrites_item {it : PAttr} {v : Val} (hv : ∀ f xs, v ≠ .list f xs) (q : Path) (x : Val) : listWrites it q v x ↔ it.writes v q x := by
  cases v <;> (try (cases q <;> simp only [listWrites]; done))
  exact absurd rfl (hv _ _)

mutual
/-- Where the items are does not depend on what is assigned in them. -/
theorem itemPath_good {isItem : Val → Bool} (hc : ClassOnly isItem) {it : PAttr} (hi : Safe it) {C : Ctx} :
    ∀ (v : Val) (p : Path) (D : Done), At C p v (fun q x => listWrites it q v x) → (∀ q x, D q = some x → listWrites it q v x) →
      (∃ e, itemPath isItem (over v D) p = .error e ∧ addItem isItem v = .error e) ∨
      ∃ ps ys, itemPath isItem (over v D) p = .ok ps ∧ addItem isItem v = .ok ys ∧ ps.length = ys.length ∧ 
        ∀ (k : Nat) (q : Path) (y : Val), ps[k]? = some q → ys[k]? = some y → p <+: q ∧ AtItem C it q y
  | .list f xs, p, D, h, hD => by
    have h0 : D [] = none := by
      cases hq : D [] with
      | none => rfl
      | some x => exact absurd (hD [] x hq) (listWrites_root hi _ x)
    rw [over_list h0]
    simp only [itemPath, addItem]
    have := itemPaths_good hc hi (C := C) xs p D 0 ?_ ?_
    · exact this
    · intro k y hy
      rw [Nat.zero_add]
      refine h.child (fun x => listWrites_root hi _ x) (by rw [at?_list]; exact hy) ?_
      intro q x
      simp only [listWrites, hy, Option.some.injEq, exists_eq_left']
    · intro k y hy q x hq
      rw [Nat.zero_add] at hq
      obtain ⟨y', h1, h2⟩ := hD (k :: q) x hq
      rw [hy] at h1; cases h1; exact h2
  | .obj c vs, p, D, h, hD => by
    have h0 : D [] = none := by
      cases hq : D [] with
      | none => rfl
      | some x => exact absurd (hD [] x hq) (listWrites_root hi _ x)
    rw [over_obj h0]
    simp only [itemPath, addItem, hc.1 c (overs vs D 0) vs]
    by_cases hx : isItem (.obj c vs) = true
    · simp only [hx, if_true]
      refine Or.inr ⟨_, _, rfl, rfl, rfl, ?_⟩
      intro k q y hq hy
      cases k with
      | zero =>
        simp at hq hy; subst hq; subst hy
        exact ⟨List.prefix_rfl, h.val, fun q x => (h.here q x).trans (listWrites_item (by nofun) q x), h.clear, h.mine⟩
      | succ k => simp at hq
    · simp only [hx]
      exact Or.inl ⟨_, rfl, rfl⟩
  | .none, p, D, h, hD | .int _, p, D, h, hD | .enum _, p, D, h, hD | .mask _, p, D, h, hD | .str _, p, D, h, hD
  | .bytes _, p, D, h, hD | .ub _ _, p, D, h, hD | .hw _, p, D, h, hD | .ip _ _, p, D, h, hD | .ip6 _ _, p, D, h, hD
  | .dpid _, p, D, h, hD | .chr _ _, p, D, h, hD | .bin _, p, D, h, hD | .pad _, p, D, h, hD | .foreign _ _, p, D, h, hD => by
    have h0 : D [] = none := by
      cases hq : D [] with
      | none => rfl
      | some x => exact absurd (hD [] x hq) (listWrites_root hi _ x)
    simp only [over, h0, itemPath, addItem]
    rw [if_neg, if_neg]
    · exact Or.inl ⟨_, rfl, rfl⟩
    · intro hx; obtain ⟨c, vs, h⟩ := hc.2 _ hx; cases h
    · intro hx; obtain ⟨c, vs, h⟩ := hc.2 _ hx; cases h
theorem itemPaths_good {isItem : Val → Bool} (hc : ClassOnly isItem) {it : PAttr} (hi : Safe it) {C : Ctx} :
    ∀ (xs : List Val) (p : Path) (D : Done) (j : Nat),
      (∀ (k : Nat) y, xs[k]? = some y → At C (p ++ [j + k]) y (fun q x => listWrites it q y x)) →
      (∀ (k : Nat) y, xs[k]? = some y → ∀ q x, D ((j + k) :: q) = some x → listWrites it q y x) →
      (∃ e, itemPaths isItem (overs xs D j) p j = .error e ∧ addItems isItem xs = .error e) ∨
      ∃ ps ys, itemPaths isItem (overs xs D j) p j = .ok ps ∧ addItems isItem xs = .ok ys ∧ ps.length = ys.length ∧
        ∀ (k : Nat) (q : Path) (y : Val), ps[k]? = some q → ys[k]? = some y → p <+: q ∧ AtItem C it q y
  | [], p, D, j, _, _ => by
    simp only [overs, itemPaths, addItems]
    exact Or.inr ⟨[], [], rfl, rfl, rfl, by intro k q y h; simp at h⟩
  | x :: xs, p, D, j, h, hD => by
    have ihs := itemPaths_good hc hi xs p D (j + 1)
      (fun k y hy => by have := h (k + 1) y (by simpa using hy); rwa [show j + (k + 1) = j + 1 + k by omega] at this)
      (fun k y hy q x hq => hD (k + 1) y (by simpa using hy) q x (by rw [show j + (k + 1) = j + 1 + k by omega]; exact hq))
    have ih := itemPath_good hc hi x (p ++ [j]) (fun q => D (j :: q)) (h 0 x rfl) (hD 0 x rfl)
    simp only [overs, itemPaths, addItems]
    rcases ih with ⟨e, h1, h2⟩ | ⟨ps, ys, h1, h2, h3, h4⟩
    · rw [h1, h2]; exact Or.inl ⟨e, rfl, rfl⟩
    · rw [h1, h2]
      rcases ihs with ⟨e, i1, i2⟩ | ⟨ps', ys', i1, i2, i3, i4⟩
      · rw [i1, i2]; exact Or.inl ⟨e, rfl, rfl⟩
      · rw [i1, i2]
        refine Or.inr ⟨_, _, rfl, rfl, by simp [h3, i3], ?_⟩
        intro k q y hq hy
        rw [List.getElem?_append] at hq hy
        by_cases hk : k < ps.length
        · rw [if_pos hk] at hq; rw [if_pos (h3 ▸ hk)] at hy
          obtain ⟨a, b⟩ := h4 k q y hq hy
          exact ⟨(List.prefix_append p [j]).trans a, b⟩
        · rw [if_neg hk] at hq; rw [if_neg (h3 ▸ hk), ← h3] at hy
          exact i4 _ q y hq hy
end

theorem itemsPack_good {it : PAttr} (hi : Safe it) {C : Ctx} {p : Path} (K0 : Done) : ∀ (ps : List Path) (ys : List Val) (K : Done),
    ps.length = ys.length → (∀ (k : Nat) (q : Path) (y : Val), ps[k]? = some q → ys[k]? = some y → p <+: q ∧ AtItem C it q y) → Frame C p K0 K →
    Good C (itemsPack it ps) K (fun K' b => b = packItems it.attr ys ∧ Frame C p K0 K')
  | [], [], K, _, _, hF => ⟨rfl, hF⟩
  | [], _ :: _, _, hl, _, _ => by simp at hl
  | _ :: _, [], _, hl, _, _ => by simp at hl
  | q :: ps, y :: ys, K, hl, h, hF => by
    obtain ⟨h1, h2⟩ := h 0 q y rfl rfl
    simp only [itemsPack, packItems]
    have up : ∀ K', Frame C q K K' → Frame C p K0 K' := by
      intro K' h'
      obtain ⟨r, rfl⟩ := h1
      exact hF.trans h'.up
    refine (hi.pack K h2).andThen ?_ ?_
    · intro K' e he hF'
      rw [he]; exact ⟨rfl, up K' hF'⟩
    · intro K' b hb hF'
      rw [hb]
      refine (itemsPack_good hi K0 ps ys K' (by simpa using hl) (fun k q y hq hy => h (k + 1) q y (by simpa using hq) (by simpa using hy))
        (up K' hF')).andThen ?_ ?_
      · intro K'' e he hF''; rw [he]; exact ⟨rfl, hF''⟩
      · intro K'' r hr hF''; rw [hr]; exact ⟨rfl, hF''⟩

theorem itemsSize_good {it : PAttr} (hi : Safe it) (hu : ∀ c vs, it.attr.usize (.obj c vs) = it.attr.size (.obj c vs)) {C : Ctx} {p : Path} :
    ∀ (ps : List Path) (ys : List Val) (K : Done),
    ps.length = ys.length → (∀ y ∈ ys, ∃ c vs, y = .obj c vs) → (∀ (k : Nat) (q : Path) (y : Val), ps[k]? = some q → ys[k]? = some y → p <+: q ∧ AtItem C it q y) →
    Good C (itemsSize it ps) K (fun K' b => b = sizeItems it.attr ys ∧ K' = K)
  | [], [], K, _, _, _ => ⟨rfl, rfl⟩
  | [], _ :: _, _, hl, _, _ => by simp at hl
  | _ :: _, [], _, hl, _, _ => by simp at hl
  | q :: ps, y :: ys, K, hl, ho, h => by
    obtain ⟨h1, h2⟩ := h 0 q y rfl rfl
    obtain ⟨c, vs, rfl⟩ := ho y (by simp)
    simp only [itemsSize, sizeItems, hu]
    refine (hi.size K h2).andThen ?_ ?_
    · rintro K' e he rfl
      rw [he]; exact ⟨rfl, rfl⟩
    · rintro K' b hb rfl
      rw [hb]
      refine (itemsSize_good hi hu ps ys K' (by simpa using hl) (fun y hy => ho y (by simp [hy]))
        (fun k q y hq hy => h (k + 1) q y (by simpa using hq) (by simpa using hy))).andThen ?_ ?_
      · rintro K'' e he rfl; rw [he]; exact ⟨rfl, rfl⟩
      · rintro K'' r hr rfl; rw [hr]; exact ⟨rfl, rfl⟩

mutual
theorem addItem_items {isItem : Val → Bool} : ∀ (v : Val) (ys : List Val), addItem isItem v = .ok ys → ∀ y ∈ ys, isItem y = true
  | .list _ xs, ys, h => addItems_items xs ys (by simpa [addItem] using h)
  | .none, ys, h | .int _, ys, h | .enum _, ys, h | .mask _, ys, h | .str _, ys, h
  | .bytes _, ys, h | .ub _ _, ys, h | .hw _, ys, h | .ip _ _, ys, h | .ip6 _ _, ys, h
  | .dpid _, ys, h | .chr _ _, ys, h | .bin _, ys, h | .pad _, ys, h | .foreign _ _, ys, h | .obj _ _, ys, h => by
    simp only [addItem] at h
    split at h
    · rename_i hx
      cases h
      intro y hy
      simp at hy; subst hy; exact hx
    · cases h
theorem addItems_items {isItem : Val → Bool} : ∀ (xs : List Val) (ys : List Val), addItems isItem xs = .ok ys → ∀ y ∈ ys, isItem y = true
  | [], ys, h => by simp only [addItems] at h; cases h; simp
  | x :: xs, ys, h => by
    simp only [addItems] at h
    cases h1 : addItem isItem x with
    | error e => rw [h1] at h; cases h
    | ok a =>
      rw [h1] at h
      cases h2 : addItems isItem xs with
      | error e => rw [h2] at h; cases h
      | ok r =>
        rw [h2] at h; cases h
        intro y hy
        rcases List.mem_append.1 hy with hy | hy
        · exact addItem_items x a h1 y hy
        · exact addItems_items xs r h2 y hy
end

theorem listWrites_once {it : PAttr} (hi : Safe it) : ∀ (q : Path) (v : Val), ∀ x y, listWrites it q v x → listWrites it q v y → x = y ∨ PadLen v q
  | q, v, x, y, hx, hy => by
    by_cases hv : ∃ f xs, v = .list f xs
    · obtain ⟨f, xs, rfl⟩ := hv
      cases q with
      | nil => simp [listWrites] at hx
      | cons j q =>
        obtain ⟨u, h1, h2⟩ := hx
        obtain ⟨u', h1', h2'⟩ := hy
        rw [h1] at h1'; cases h1'
        exact (listWrites_once hi q u x y h2 h2').imp id (PadLen.sub (by rw [at?_list]; exact h1))
    · have hv' : ∀ f xs, v ≠ .list f xs := fun f xs h => hv ⟨f, xs, h⟩
      rw [listWrites_item hv'] at hx hy
      exact hi.once q x y hx hy

theorem safe_list {isItem : Val → Bool} (hc : ClassOnly isItem) {it : PAttr} (hi : Safe it)
    (hu : ∀ c vs, it.attr.usize (.obj c vs) = it.attr.size (.obj c vs)) : Safe (listP isItem it) where
  root := fun v x => listWrites_root hi v x
  once := fun q x y => listWrites_once hi q _ x y
  pack := by
    intro C p v K h D hM hD
    obtain ⟨h1, h2⟩ := h.read hD
    have h0 := At.none (C := C) (v := v) (fun x => listWrites_root hi v x) h2
    refine ⟨_, h1, Or.inl ?_⟩
    have leaf : (∀ f xs, v ≠ .list f xs) → (∀ c vs, v ≠ .obj c vs) → over v (fun q => D (p ++ q)) = v := by
      intro n1 n2
      cases v <;> (try (simp only [over, h0]; done))
      · exact absurd rfl (n2 _ _)
      · exact absurd rfl (n1 _ _)
    by_cases hv : ∃ f xs, v = .list f xs
    · obtain ⟨f, xs, rfl⟩ := hv
      rw [over_list h0]
      have hg := itemPaths_good hc hi (C := C) xs p (fun q => D (p ++ q)) 0 ?_ ?_
      · simp only [listP, listAttr]
        rcases hg with ⟨e, i1, i2⟩ | ⟨ps, ys, i1, i2, i3, i4⟩
        · rw [i1, i2]; exact ⟨rfl, Frame.refl⟩
        · rw [i1, i2]; exact itemsPack_good hi K ps ys K i3 i4 Frame.refl
      · intro k y hy
        rw [Nat.zero_add]
        refine h.child (fun x => listWrites_root hi _ x) (by rw [at?_list]; exact hy) ?_
        intro q x
        simp only [listP, listWrites, hy, Option.some.injEq, exists_eq_left']
      · intro k y hy q x hq
        rw [Nat.zero_add] at hq
        obtain ⟨y', e1, e2⟩ := h2 (k :: q) x hq
        rw [hy] at e1; cases e1; exact e2
    · by_cases ho : ∃ c vs, v = .obj c vs
      · obtain ⟨c, vs, rfl⟩ := ho
        rw [over_obj h0]
        exact ⟨rfl, Frame.refl⟩
      · rw [leaf (fun f xs h => hv ⟨f, xs, h⟩) (fun c vs h => ho ⟨c, vs, h⟩)]
        cases v <;> first | exact ⟨rfl, Frame.refl⟩ | exact absurd ⟨_, _, rfl⟩ hv
  size := by
    intro C p v K h D hM hD
    obtain ⟨h1, h2⟩ := h.read hD
    have h0 := At.none (C := C) (v := v) (fun x => listWrites_root hi v x) h2
    refine ⟨_, h1, Or.inl ?_⟩
    by_cases hv : ∃ f xs, v = .list f xs
    · obtain ⟨f, xs, rfl⟩ := hv
      rw [over_list h0]
      have hg := itemPaths_good hc hi (C := C) xs p (fun q => D (p ++ q)) 0 ?_ ?_
      · simp only [listP, listAttr]
        rcases hg with ⟨e, i1, i2⟩ | ⟨ps, ys, i1, i2, i3, i4⟩
        · rw [i1, i2]; exact ⟨rfl, rfl⟩
        · rw [i1, i2]; exact itemsSize_good hi hu ps ys K i3 (fun y hy => hc.2 y (addItems_items xs ys i2 y hy)) i4
      · intro k y hy
        rw [Nat.zero_add]
        refine h.child (fun x => listWrites_root hi _ x) (by rw [at?_list]; exact hy) ?_
        intro q x
        simp only [listP, listWrites, hy, Option.some.injEq, exists_eq_left']
      · intro k y hy q x hq
        rw [Nat.zero_add] at hq
        obtain ⟨y', e1, e2⟩ := h2 (k :: q) x hq
        rw [hy] at e1; cases e1; exact e2
    · by_cases ho : ∃ c vs, v = .obj c vs
      · obtain ⟨c, vs, rfl⟩ := ho
        rw [over_obj h0]
        simp only [listP, hc.1 c _ vs]
        by_cases hx : isItem (.obj c vs) = true
        · simp only [hx, if_true]
          have hA : At C p (.obj c vs) (it.writes (.obj c vs)) :=
            ⟨h.val, fun q x => (h.here q x).trans (listWrites_item (by nofun) q x), h.clear, h.mine⟩
          refine (hi.size K hA).mono ?_
          rintro K' b ⟨rfl, rfl⟩
          exact ⟨by simp [listAttr, pyTrue, hx, hu], rfl⟩
        · simp only [hx]
          refine ⟨?_, rfl⟩
          simp only [listAttr, hc.1 c (overs vs _ 0) vs, hx]
          simp [pyTrue]
      · cases v <;> first | (simp only [over, h0]; exact ⟨rfl, rfl⟩) | exact absurd ⟨_, _, rfl⟩ hv | exact absurd ⟨_, _, rfl⟩ ho

theorem places_get {p : Path} {n k : Nat} {q : Path} (h : (places p n)[k]? = some q) : q = p ++ [k] := by
  simp only [places, List.getElem?_map, Option.map_eq_some_iff] at h
  obtain ⟨a, h1, rfl⟩ := h
  rw [List.getElem?_range (by have := (List.getElem?_eq_some_iff.1 h1).1; simpa using this)] at h1
  cases h1; rfl

theorem safe_bare {isItem : Val → Bool} {it : PAttr} (hi : Safe it) : Safe (bareListP isItem it) where
  root := fun v x h => by cases v <;> simp only [bareListP] at h <;> (try exact h)
  once := by
    intro v q x y hx hy
    simp only [bareListP] at hx hy
    split at hx
    · rename_i xs j q
      obtain ⟨u, h1, h2⟩ := hx
      obtain ⟨u', h1', h2'⟩ := hy
      rw [h1] at h1'; cases h1'
      exact (hi.once q x y h2 h2').imp id (PadLen.sub (by rw [at?_list]; exact h1))
    · exact hx.elim
  pack := by
    intro C p v K h D hM hD
    by_cases hv : ∃ xs, v = .list true xs
    · obtain ⟨xs, rfl⟩ := hv
      have root : ∀ x, ¬ (bareListP isItem it).writes (.list true xs) [] x := fun x h => h
      obtain ⟨h1, h2⟩ := h.read hD
      have h0 := At.none (C := C) (v := .list true xs) root h2
      rw [over_list h0] at h1
      refine ⟨_, h1, Or.inl ?_⟩
      simp only [overs_length]
      refine itemsPack_good hi K _ xs K (by simp [places]) ?_ Frame.refl
      intro k q y hq hy
      rw [places_get hq]
      refine ⟨List.prefix_append p [k], ?_⟩
      refine h.child root (by rw [at?_list]; exact hy) ?_
      intro q x
      simp only [bareListP, hy, Option.some.injEq, exists_eq_left']
    · have hw : ∀ q x, ¬ (bareListP isItem it).writes v q x := by
        intro q x hx
        simp only [bareListP] at hx
        split at hx
        · exact hv ⟨_, rfl⟩
        · exact hx
      refine ⟨_, h.read_leaf hw hD, Or.inl ?_⟩
      simp only [bareListP]
      split
      · exact absurd ⟨_, rfl⟩ hv
      · exact ⟨rfl, Frame.refl⟩
  size := by
    intro C p v K h D hM hD
    obtain ⟨h1, h2⟩ := h.read hD
    exact ⟨_, h1, Or.inl ⟨rfl, rfl⟩⟩

end Pyof.Threads
