import Verif.Lemmas.ThreadsMsg
import Verif.Spec.Sharing
/-!
# Messages that share objects
-/
namespace Pyof.Threads

/-! ## Two rounds of assignments -/

/-- First `D`, then `E`. -/
def both (D E : Done) : Done := fun q => match E q with | some x => some x | none => D q

mutual
theorem over_over : ∀ (v : Val) (D E : Done), (∀ q x, E q = some x → ClearD D q) → over (over v D) E = over v (both D E)
  | .obj c vs, D, E, h => by
    cases hE : E [] with
    | some x => rw [over_some hE, over_some (x := x) (by simp [both, hE])]
    | none =>
      cases hD : D [] with
      | some y => rw [over_some hD, over_some (x := y) (v := .obj c vs) (by simp [both, hE, hD]), over_id y E (none_below h hD hE)]
      | none => rw [over_obj hD, over_obj hE, over_obj (by simp [both, hE, hD]), overs_over vs D E 0 h]
  | .list f vs, D, E, h => by
    cases hE : E [] with
    | some x => rw [over_some hE, over_some (x := x) (by simp [both, hE])]
    | none =>
      cases hD : D [] with
      | some y => rw [over_some hD, over_some (x := y) (v := .list f vs) (by simp [both, hE, hD]), over_id y E (none_below h hD hE)]
      | none => rw [over_list hD, over_list hE, over_list (by simp [both, hE, hD]), overs_over vs D E 0 h]
  | .none, D, E, h | .int _, D, E, h | .enum _, D, E, h | .mask _, D, E, h | .str _, D, E, h | .bytes _, D, E, h | .ub _ _, D, E, h | .hw _, D, E, h
  | .ip _ _, D, E, h | .ip6 _ _, D, E, h | .dpid _, D, E, h | .chr _ _, D, E, h | .bin _, D, E, h | .pad _, D, E, h | .foreign _ _, D, E, h => by
    cases hE : E [] with
    | some x => rw [over_some hE, over_some (x := x) (by simp [both, hE])]
    | none =>
      cases hD : D [] with
      | some y =>
        rw [over_some hD, over_id y E (none_below h hD hE)]
        simp [over, both, hE, hD]
      | none => simp [over, both, hE, hD]
theorem overs_over : ∀ (vs : List Val) (D E : Done) (k : Nat), (∀ q x, E q = some x → ClearD D q) → overs (overs vs D k) E k = overs vs (both D E) k
  | [], _, _, _, _ => rfl
  | v :: vs, D, E, k, h => by
    simp only [overs]
    rw [overs_over vs D E (k + 1) h, over_over v _ _ (fun q x hq => (h (k :: q) x hq).tail)]
    rfl
theorem none_below {D E : Done} {y : Val} (h : ∀ q x, E q = some x → ClearD D q) (hD : D [] = some y) (hE : E [] = none) (q : Path) : E q = none := by
  cases q with
  | nil => exact hE
  | cons i q =>
    cases hq : E (i :: q) with
    | none => rfl
    | some x => have := h _ _ hq [] i q rfl; rw [hD] at this; cases this
end

/-! ## Threads -/

/-- What may be assigned at a place may be assigned wherever else the object is. -/
def Closed (pairs : List (Path × Path)) (R : Path → Val → Prop) : Prop :=
  ∀ p q x, SameAttr pairs p q → R p x → Clear R p → R q x ∧ Clear R q

theorem sameAttr_refl (pairs : List (Path × Path)) {R : Path → Val → Prop} (h0 : ∀ x, ¬ R [] x) {p : Path} {x : Val} (h : R p x) :
    SameAttr pairs p p := by
  rcases List.eq_nil_or_concat p with rfl | ⟨a, i, rfl⟩
  · exact absurd h (h0 x)
  · exact ⟨a, a, i, by simp, by simp, .refl _⟩

theorem allowed_both {R : Path → Val → Prop} {D E : Done} (hD : Allowed R D) (hE : Allowed R E) : Allowed R (both D E) := by
  intro q y hq
  simp only [both] at hq
  cases he : E q with
  | some z => rw [he] at hq; cases hq; exact hE _ _ he
  | none => rw [he] at hq; exact hD _ _ hq

open Classical in
theorem can_set {α : Type} {pairs : List (Path × Path)} (p : Path) (x : Val) (k : Prog α) (w : Val) : ∃ w', SStep pairs (.set p x k, w) (k, w') := by
  refine ⟨_, .set (E := fun q => if SameAttr pairs p q then some x else none) ?_⟩
  intro q y
  by_cases h : SameAttr pairs p q
  · simp [h, eq_comm]
  · simp [h]

theorem SRuns.trans {α : Type} {pairs : List (Path × Path)} {a b c : List (Prog α) × Val} (h : SRuns pairs a b) (h' : SRuns pairs b c) : SRuns pairs a c := by
  induction h' with
  | refl => exact h
  | step _ s ih => exact .step ih s

theorem SRuns.length {α : Type} {pairs : List (Path × Path)} {a b : List (Prog α) × Val} (h : SRuns pairs a b) : b.1.length = a.1.length := by
  induction h with
  | refl => rfl
  | step _ hs ih => rw [← ih]; cases hs; simp

/-! ## A message in a list of messages -/

/-- `R` for each message, in the list. -/
def inWorld (Rs : Nat → Path → Val → Prop) : Path → Val → Prop
  | [], _ => False
  | i :: p, x => Rs i p x

theorem Clear.tail {Rs : Nat → Path → Val → Prop} {i : Nat} {p : Path} : Clear (Rs i) p → Clear (inWorld Rs) (i :: p) := by
  intro h q j r e x hx
  cases q with
  | nil => exact hx
  | cons k q =>
    simp only [List.cons_append, List.cons.injEq] at e
    obtain ⟨rfl, e⟩ := e
    exact h q j r e x hx

theorem at?_world {f : Bool} {vs : List Val} {D : Done} (h : D [] = none) {i : Nat} {u : Val} (hi : vs[i]? = some u) (p : Path) :
    at? (over (.list f vs) D) (i :: p) = at? (over u fun q => D (i :: q)) p := by
  rw [over_list h]
  simp only [at?, overs_getElem?, hi, Option.map_some, Nat.zero_add]

theorem allowed_inside {Rs : Nat → Path → Val → Prop} {D : Done} (hD : Allowed (inWorld Rs) D) (i : Nat) : Allowed (Rs i) (fun q => D (i :: q)) :=
  fun p x h => hD (i :: p) x h

theorem inWorld_none {Rs : Nat → Path → Val → Prop} {D : Done} (hD : Allowed (inWorld Rs) D) : D [] = none := by
  cases h : D [] with
  | none => rfl
  | some x => exact (hD _ _ h).elim

/-- A thread that is good for a message is good in a list of messages. -/
theorem good_inside {α : Type} {f : Bool} {vs : List Val} {Rs : Nat → Path → Val → Prop} {i : Nat} {u : Val} (hi : vs[i]? = some u)
    {Q : α → Prop} : ∀ (t : Prog α) {K : Done}, Good (shared u (Rs i)) t (fun q => K (i :: q)) (fun _ => Q) →
    Good (shared (.list f vs) (inWorld Rs) (fun q => ∃ i, q = [i, 0, 2])) (t.inside i) K (fun _ => Q)
  | .ret a, K, h => h
  | .get p k, K, h => by
    intro D hM hD
    obtain ⟨x, hx, hg⟩ := h (fun q => D (i :: q)) (fun q y hq => hM (i :: q) y hq) (allowed_inside hD i)
    refine ⟨x, ?_, hg.imp (good_inside hi (k x)) fun ⟨y, hy, hg⟩ => ⟨y, hy, good_inside hi (k x) ?_⟩⟩
    rotate_left
    · have e : (fun q => upd K (i :: p) y (i :: q)) = upd (fun q => K (i :: q)) p y := by
        funext q; simp only [upd, List.cons.injEq, true_and]
      rw [e]; exact hg
    show at? (over (.list f vs) D) (i :: p) = _
    rw [at?_world (inWorld_none hD) hi]
    exact hx
  | .set p x k, K, h => by
    obtain ⟨h1, h2, ⟨hw, r, j, z, hr, hz⟩, hg⟩ := h
    refine ⟨h1, Clear.tail h2, ⟨hw, i :: r, j, z, by rw [hr]; rfl, ?_⟩, ?_⟩
    · show at? (.list f vs) (i :: r) = _
      simp only [at?, hi]; exact hz
    · intro K' h3 h4
      refine good_inside hi k (hg _ h3 ?_)
      intro q hn hq
      refine h4 (i :: q) ?_ (by simpa using hq)
      rcases hn with rfl | ⟨a, j', s, l, rfl, rfl⟩
      · exact Or.inl ⟨i, rfl⟩
      · exact Or.inr ⟨i :: a, j', s, l, rfl, rfl⟩

/-! ## Places -/

/-- What the place of a value says about the assignments in it. -/
theorem Place.at {m : PMsg} {vs : List Val} {C : Ctx} {c : String} (hv : C.V = .obj c vs) (h0 : ∀ x, ¬ C.R [] x) (ho : Own m vs C.R)
    (hl : vs.length = m.body.length + 1) {p : Path} {a : PAttr} {v : Val} (h : Place m vs p a v) (hw : ∀ q, ¬ C.W q := by exact fun _ h => h) :
    At C p v (a.writes v) := by
  have root : At C [] (.obj c vs) C.R := at_root hv rfl hw
  induction h with
  | @attr j n a v hj hn hv =>
    have := root.child h0 (j := j + 1) (u := v) (by rw [at?_obj]; exact hv) (s' := a.writes v) (ho hl j n a v hj hn hv)
    simpa using this
  | @item p isItem it f xs k v _ hk hnl ih =>
    refine ih.child (fun x h => h) (by rw [at?_list]; exact hk) ?_
    intro q x
    show (∃ y, xs[k]? = some y ∧ listWrites it q y x) ↔ _
    rw [← listWrites_item hnl]
    constructor
    · rintro ⟨y, h1, h2⟩
      rw [hk] at h1; cases h1; exact h2
    · intro h; exact ⟨v, hk, h⟩
  | @bareItem p isItem it xs k v _ hk ih =>
    refine ih.child (fun x h => h) (by rw [at?_list]; exact hk) ?_
    intro q x
    show (∃ y, xs[k]? = some y ∧ it.writes y q x) ↔ _
    constructor
    · rintro ⟨y, h1, h2⟩
      rw [hk] at h1; cases h1; exact h2
    · intro h; exact ⟨v, hk, h⟩
  | @field p a cs c c' us fs i j n b v _ hk hj hij hu ih =>
    have e : (oneOf a cs).writes (.obj c us) = (autoCls c' fs i).writes us := by funext q x; simp only [oneOf, hk]
    rw [e] at ih
    exact ih.field (f := (n, b)) (auto_root us) hj hu (auto_other us j hij)
  | @tlvs p us v _ hu ih =>
    have e : matchP.writes (.obj "04.Match" us) = (autoCls "04.Match" matchFieldsP 1).writes us := rfl
    rw [e] at ih
    exact ih.field (fs := matchFieldsP) (f := ("oxm_match_fields", oxmsP)) (auto_root us) rfl hu (auto_other us 2 (by decide))
  | @tlv p t l v _ ih =>
    have e : actionP.writes (.obj "04.ActionSetField" [t, l, v]) = setFieldCls.writes [t, l, v] := rfl
    rw [e] at ih
    refine ih.field (fs := setFieldFieldsP) (f := ("field", oxmP)) (j := 2) ?_ rfl rfl ?_
    · rintro x (⟨h, _⟩ | h)
      · cases h
      · exact h
    · intro q x
      constructor
      · rintro (⟨h, _⟩ | h)
        · simp at h
        · exact h
      · exact Or.inr
  | @bucket p us j n b v _ hj hu ih =>
    have e : (oneOf V04.bucket [bucketCls]).writes (.obj "04.Bucket" us) = fieldWrites bucketFieldsP us := rfl
    rw [e] at ih
    exact ih.field (f := (n, b)) (fun x h => h) hj hu (fun _ _ => Iff.rfl)

/-- Two places with the same assignments below them. -/
theorem alike {R : Path → Val → Prop} {a b : Path} {s : Path → Val → Prop} (ha : ∀ q x, R (a ++ q) x ↔ s q x) (hb : ∀ q x, R (b ++ q) x ↔ s q x)
    (cb : Clear R b) (t : Path) (x : Val) (h : R (a ++ t) x) (hc : Clear R (a ++ t)) : R (b ++ t) x ∧ Clear R (b ++ t) := by
  refine ⟨(hb t x).2 ((ha t x).1 h), ?_⟩
  intro q i r e y hy
  rcases List.append_eq_append_iff.1 e with ⟨d, rfl, hd⟩ | ⟨d, rfl, hd⟩
  · exact hc (a ++ d) i r (by rw [hd, List.append_assoc]) y ((ha d y).2 ((hb d y).1 hy))
  · cases d with
    | nil =>
      simp only [List.nil_append] at hd
      refine hc a i r (by rw [← hd]) y ?_
      have := (ha [] y).2 ((hb [] y).1 (by simpa using hy))
      simpa using this
    | cons j d =>
      exact cb q j d rfl y hy

theorem same_alike {pairs : List (Path × Path)} {R : Path → Val → Prop}
    (h : ∀ e ∈ pairs, Clear R e.1 ∧ Clear R e.2 ∧ ∃ s : Path → Val → Prop, (∀ q x, R (e.1 ++ q) x ↔ s q x) ∧ ∀ q x, R (e.2 ++ q) x ↔ s q x)
    {a b : Path} (hs : Same pairs a b) :
    ∀ t x, (R (a ++ t) x ∧ Clear R (a ++ t)) ↔ (R (b ++ t) x ∧ Clear R (b ++ t)) := by
  induction hs with
  | refl => exact fun _ _ => Iff.rfl
  | @pair p q s hm =>
    obtain ⟨h1, h2, w, h3, h4⟩ := h _ hm
    intro t x
    rw [List.append_assoc, List.append_assoc]
    exact ⟨fun h => alike h3 h4 h2 _ _ h.1 h.2, fun h => alike h4 h3 h1 _ _ h.1 h.2⟩
  | symm _ ih => exact fun t x => (ih t x).symm
  | trans _ _ ih ih' => exact fun t x => (ih t x).trans (ih' t x)

/-! ## Lists of messages -/

/-- The assignments that packing each of the messages may make. -/
theorem world_rules {ms : List (PMsg × List Val)} (hm : ∀ e ∈ ms, e.1 ∈ messages) :
    ∃ Rs : Nat → Path → Val → Prop, ∀ (i : Nat), (ms[i]? = none → ∀ p x, ¬ Rs i p x) ∧
      ∀ e, ms[i]? = some e → (∀ x, ¬ Rs i [] x) ∧ Once (.obj e.1.cls.name e.2) (Rs i) ∧
      Own e.1 e.2 (Rs i) ∧ ∀ M le K, Good ⟨.obj e.1.cls.name e.2, Rs i, M, le, (· = [0, 2]), fun _ => False⟩ e.1.steps K (fun _ b => b = e.1.cls.pack (.obj e.1.cls.name e.2)) := by
  have : ∀ i : Nat, ∃ R : Path → Val → Prop, (ms[i]? = none → ∀ p x, ¬ R p x) ∧ ∀ e, ms[i]? = some e → (∀ x, ¬ R [] x) ∧ Once (.obj e.1.cls.name e.2) R ∧
      Own e.1 e.2 R ∧ ∀ M le K, Good ⟨.obj e.1.cls.name e.2, R, M, le, (· = [0, 2]), fun _ => False⟩ e.1.steps K (fun _ b => b = e.1.cls.pack (.obj e.1.cls.name e.2)) := by
    intro i
    cases hi : ms[i]? with
    | none => exact ⟨fun _ _ => False, fun _ _ _ h => h, nofun⟩
    | some e =>
      obtain ⟨R, h0, ⟨h1, h2, _⟩, h3⟩ := safe_messages e.1 (hm e (List.mem_of_getElem? hi)) e.1.cls.name e.2
      refine ⟨R, nofun, ?_⟩
      intro e' he
      cases he
      exact ⟨h0, h1, h2, h3⟩
  exact ⟨fun i => Classical.choose (this i), fun i => Classical.choose_spec (this i)⟩

theorem inWorld_append {Rs : Nat → Path → Val → Prop} {i : Nat} {p q : Path} {x : Val} : inWorld Rs (i :: p ++ q) x ↔ Rs i (p ++ q) x := Iff.rfl

theorem world_closed {ms : List (PMsg × List Val)} (hw : ∀ e ∈ ms, Whole e) {pairs : List (Path × Path)} (hp : ∀ e ∈ pairs, Sharable ms e.1 e.2)
    {Rs : Nat → Path → Val → Prop} (hR : ∀ (i : Nat) e, ms[i]? = some e → (∀ x, ¬ Rs i [] x) ∧ Own e.1 e.2 (Rs i)) : Closed pairs (inWorld Rs) := by
  have key : ∀ e ∈ pairs, Clear (inWorld Rs) e.1 ∧ Clear (inWorld Rs) e.2 ∧
      ∃ s : Path → Val → Prop, (∀ q x, inWorld Rs (e.1 ++ q) x ↔ s q x) ∧ ∀ q x, inWorld Rs (e.2 ++ q) x ↔ s q x := by
    rintro ⟨p, q⟩ he
    obtain ⟨i, j, p', q', e, e', a, v, h1, h2, hi, hj, h3, h4⟩ := hp _ he
    simp only at h1 h2
    subst h1; subst h2
    have A := Place.at (C := shared (.obj e.1.cls.name e.2) (Rs i)) rfl (hR i e hi).1 (hR i e hi).2 (hw e (List.mem_of_getElem? hi)) h3
    have B := Place.at (C := shared (.obj e'.1.cls.name e'.2) (Rs j)) rfl (hR j e' hj).1 (hR j e' hj).2 (hw e' (List.mem_of_getElem? hj)) h4
    exact ⟨Clear.tail A.clear, Clear.tail B.clear, a.writes v, A.here, B.here⟩
  rintro _ _ x ⟨a, b, i, rfl, rfl, hs⟩ h1 h2
  exact (same_alike key hs [i] x).1 ⟨h1, h2⟩

theorem world_get {ms : List (PMsg × List Val)} {i : Nat} {e : PMsg × List Val} (hi : ms[i]? = some e) :
    (ms.map fun e => Val.obj e.1.cls.name e.2)[i]? = some (.obj e.1.cls.name e.2) := by simp [hi]

/-! ## Threads -/

theorem Same.at {pairs : List (Path × Path)} {w : Val} (h : ∀ e ∈ pairs, at? w e.1 = at? w e.2) {p q : Path} (hs : Same pairs p q) :
    at? w p = at? w q := by
  induction hs with
  | refl => rfl
  | pair s hm => rw [at?_append, at?_append, h _ hm]
  | symm _ ih => exact ih.symm
  | trans _ _ ih ih' => exact ih.trans ih'

theorem at?_smaller : ∀ (p : Path) (v u : Val), at? v p = some u → p = [] ∨ sizeOf u < sizeOf v := by
  intro p
  induction p with
  | nil => intro v u _; exact Or.inl rfl
  | cons i p ih =>
    intro v u h
    right
    have key : ∀ (vs : List Val) (z : Val), vs[i]? = some z → at? z p = some u → sizeOf u < 1 + sizeOf vs := by
      intro vs z hz hu
      have h1 := List.sizeOf_lt_of_mem (List.mem_of_getElem? hz)
      rcases ih z u hu with rfl | h2
      · simp only [at?, Option.some.injEq] at hu; subst hu; omega
      · omega
    cases v <;> simp only [at?] at h <;> try cases h
    case obj c vs =>
      cases hz : vs[i]? with
      | none => rw [hz] at h; cases h
      | some z =>
        rw [hz] at h
        have := key vs z hz h
        simp only [Val.obj.sizeOf_spec]; omega
    case list f vs =>
      cases hz : vs[i]? with
      | none => rw [hz] at h; cases h
      | some z =>
        rw [hz] at h
        have := key vs z hz h
        simp only [Val.list.sizeOf_spec]; omega

/-- An object is not inside itself. -/
theorem Same.not_inside {pairs : List (Path × Path)} {w : Val} (h : ∀ e ∈ pairs, at? w e.1 = at? w e.2) {a s : Path} {v : Val}
    (hv : at? w a = some v) (hs : Same pairs a (a ++ s)) : s = [] := by
  have h1 := hs.at h
  rw [at?_append, hv, Option.bind_some] at h1
  rcases at?_smaller s v v h1.symm with rfl | h2
  · rfl
  · omega

/-- Shared objects are at places that hold the same value. -/
theorem sharable_at {ms : List (PMsg × List Val)} {Rs : Nat → Path → Val → Prop} (hw : ∀ e ∈ ms, Whole e)
    (hR : ∀ i e, ms[i]? = some e → (∀ x, ¬ Rs i [] x) ∧ Own e.1 e.2 (Rs i)) {p q : Path} (h : Sharable ms p q) :
    at? (world ms) p = at? (world ms) q := by
  obtain ⟨i, j, p', q', e, e', a, v, rfl, rfl, hi, hj, h3, h4⟩ := h
  have A := Place.at (C := shared (.obj e.1.cls.name e.2) (Rs i)) rfl (hR i e hi).1 (hR i e hi).2 (hw e (List.mem_of_getElem? hi)) h3
  have B := Place.at (C := shared (.obj e'.1.cls.name e'.2) (Rs j)) rfl (hR j e' hj).1 (hR j e' hj).2 (hw e' (List.mem_of_getElem? hj)) h4
  simp only [world, at?, world_get hi, world_get hj]
  exact A.val.trans B.val.symm

theorem Place.not_header {m : PMsg} {vs : List Val} {p : Path} {a : PAttr} {v : Val} (h : Place m vs p a v) : ∃ j s, p = (j + 1) :: s := by
  induction h with
  | attr => exact ⟨_, _, rfl⟩
  | item _ _ _ ih => obtain ⟨j, s, rfl⟩ := ih; exact ⟨j, _, rfl⟩
  | bareItem _ _ ih => obtain ⟨j, s, rfl⟩ := ih; exact ⟨j, _, rfl⟩
  | field _ _ _ _ _ ih => obtain ⟨j, s, rfl⟩ := ih; exact ⟨j, _, rfl⟩
  | tlvs _ _ ih => obtain ⟨j, s, rfl⟩ := ih; exact ⟨j, _, rfl⟩
  | tlv _ ih => obtain ⟨j, s, rfl⟩ := ih; exact ⟨j, _, rfl⟩
  | bucket _ _ _ ih => obtain ⟨j, s, rfl⟩ := ih; exact ⟨j, _, rfl⟩

/-- The header is not shared. -/
theorem header_apart {ms : List (PMsg × List Val)} {pairs : List (Path × Path)} (hp : ∀ e ∈ pairs, Sharable ms e.1 e.2) (i : Nat) {q : Path}
    (h : Same pairs q [i, 0]) : q = [i, 0] := by
  have main : ∀ {p q : Path}, Same pairs p q → (p = [i, 0] ↔ q = [i, 0]) := by
    intro p q h
    induction h with
    | refl => exact Iff.rfl
    | @pair p q s hm =>
      obtain ⟨a, b, p', q', _, _, _, _, h1, h2, _, _, h3, h4⟩ := hp _ hm
      obtain ⟨j, t, rfl⟩ := h3.not_header
      obtain ⟨j', t', rfl⟩ := h4.not_header
      simp only at h1 h2
      subst h1; subst h2
      simp
    | symm _ ih => exact ih.symm
    | trans _ _ ih ih' => exact ih.trans ih'
  exact (main h).2 rfl

/-- What is known of the messages: `Rs` says which assignments packing each of them may make. -/
structure Setting (pairs : List (Path × Path)) (f : Bool) (vs : List Val) (Rs : Nat → Path → Val → Prop) : Prop where
  closed : Closed pairs (inWorld Rs)
  equal : ∀ e ∈ pairs, at? (.list f vs) e.1 = at? (.list f vs) e.2
  header : ∀ i q, Same pairs q [i, 0] → q = [i, 0]
  once : ∀ (i : Nat) u, vs[i]? = some u → Once u (Rs i)

/-- What is true of every state that the threads reach; thread `k` packs message `idx[k]`, and `Q k` is asked of its result. -/
def SInv {α : Type} (f : Bool) (vs : List Val) (Rs : Nat → Path → Val → Prop) (idx : List Nat) (Q : Nat → α → Prop) (ts : List (Prog α)) (w : Val) : Prop :=
  ∃ D, w = over (.list f vs) D ∧ Allowed (inWorld Rs) D ∧ ∀ (k : Nat) t, ts[k]? = some t → ∃ i u K s, idx[k]? = some i ∧ vs[i]? = some u ∧
    t = s.inside i ∧ Le K (fun q => D (i :: q)) ∧ Good (shared u (Rs i)) s K (fun _ => Q k)

theorem Prog.inside_ret {α : Type} {i : Nat} {t : Prog α} {a : α} (h : t.inside i = .ret a) : t = .ret a := by
  cases t <;> simp only [Prog.inside] at h <;> cases h
  rfl

section threads
variable {α : Type} {pairs : List (Path × Path)} {f : Bool} {vs : List Val} {Rs : Nat → Path → Val → Prop} {idx : List Nat} {Q : Nat → α → Prop}

open Classical in
theorem sstep (hS : Setting pairs f vs Rs) (hP : PadsApart pairs (.list f vs) idx) {ts ts' : List (Prog α)} {w w' : Val}
    (h : SInv f vs Rs idx Q ts w) (hs : SStepAny pairs (ts, w) (ts', w')) : SInv f vs Rs idx Q ts' w' := by
  obtain ⟨D, rfl, hD, hts⟩ := h
  cases hs with
  | @mk _ n t t' _ _ hn hst =>
    have hl : n < ts.length := (List.getElem?_eq_some_iff.1 hn).1
    obtain ⟨i, u, K, s, hni, hi, rfl, hK, hg⟩ := hts n t hn
    cases s with
    | ret a => cases hst
    | get p k =>
      cases hst with
      | @get _ _ _ x hx =>
        obtain ⟨x', hx', hg'⟩ := hg _ hK (allowed_inside hD i)
        rw [at?_world (inWorld_none hD) hi, show at? (over u fun q => D (i :: q)) p = some x' from hx'] at hx
        cases hx
        refine ⟨D, rfl, hD, ?_⟩
        intro j s hs
        by_cases e : n = j
        · subst e
          rw [List.getElem?_set_self hl] at hs
          cases hs
          rcases hg' with hg' | ⟨y, ⟨hy, _⟩, hg'⟩
          · exact ⟨i, u, K, _, hni, hi, rfl, hK, hg'⟩
          · exact ⟨i, u, upd K p y, _, hni, hi, rfl, le_upd hK hy, hg'⟩
        · rw [List.getElem?_set_ne e] at hs
          exact hts j s hs
    | set p x k =>
      cases hst with
      | @set _ _ _ _ E hE =>
        obtain ⟨h1, h2, ⟨_, r, l, z, rfl, hz⟩, hg'⟩ := hg
        have h2' : Clear (inWorld Rs) (i :: (r ++ [l])) := Clear.tail h2
        have hA : Allowed (inWorld Rs) E := by
          intro q y hq
          obtain ⟨h3, rfl⟩ := (hE q y).1 hq
          exact (hS.closed _ q y h3 h1 h2').1
        have hC : ∀ q y, E q = some y → ClearD D q := by
          intro q y hq
          obtain ⟨h3, rfl⟩ := (hE q y).1 hq
          exact (hS.closed _ q y h3 h1 h2').2.done hD
        have here : E (i :: (r ++ [l])) = some x := (hE _ x).2 ⟨⟨i :: r, i :: r, l, rfl, rfl, .refl _⟩, rfl⟩
        refine ⟨both D E, over_over _ D E hC, allowed_both hD hA, ?_⟩
        intro j s hs
        by_cases e : n = j
        · subst e
          rw [List.getElem?_set_self hl] at hs
          cases hs
          refine ⟨i, u, fun q => if q = r ++ [l] then some x else if E (i :: q) = none then K q else none, k, hni, hi, rfl, ?_, ?_⟩
          · intro q y hq
            simp only at hq
            split at hq
            · rename_i e; subst e; cases hq; simp [both, here]
            · split at hq
              · rename_i e; simp only [both, e]; exact hK q y hq
              · cases hq
          · refine hg' _ (by simp) ?_
            intro q hn hq
            have : E (i :: q) = none := by
              cases he : E (i :: q) with
              | none => rfl
              | some y =>
                exfalso
                obtain ⟨⟨a, b, n, e1, e2, hsame⟩, _⟩ := (hE _ y).1 he
                obtain ⟨rfl, e3⟩ := List.append_inj' (show i :: r ++ [l] = a ++ [n] from e1) rfl
                simp only [List.cons.injEq, and_true] at e3
                subst e3
                rcases hn with rfl | ⟨a, j', s, m, e4, rfl⟩
                · obtain ⟨rfl, e5⟩ := List.append_inj' (show [i, 0] ++ [2] = b ++ [l] from e2) rfl
                  simp only [List.cons.injEq, and_true] at e5
                  subst e5
                  have := hS.header _ _ hsame
                  simp only [List.cons.injEq, true_and] at this
                  exact hq (by rw [this]; rfl)
                · obtain ⟨rfl, e5⟩ := List.append_inj' (show i :: a ++ [m] = b ++ [l] from e2) rfl
                  simp only [List.cons.injEq, and_true] at e5
                  subst e5
                  obtain ⟨s', rfl⟩ : ∃ s', r = a ++ s' := by
                    rcases List.append_eq_append_iff.1 e4 with ⟨c, rfl, hc⟩ | ⟨c, rfl, _⟩
                    · cases c with
                      | nil => exact ⟨[], by simp⟩
                      | cons d c => simp at hc
                    · exact ⟨c, rfl⟩
                  have hz' : at? u (a ++ s') = some z := hz
                  rw [at?_append] at hz'
                  cases hy : at? u a with
                  | none => rw [hy] at hz'; cases hz'
                  | some y =>
                    have := Same.not_inside (w := .list f vs) hS.equal (a := i :: a) (s := s') (v := y) (by simp only [at?, hi]; exact hy) hsame.symm
                    subst this
                    exact hq (by simp)
            simp [hq, this]
        · rw [List.getElem?_set_ne e] at hs
          obtain ⟨i', u', K', s', hj, hi', rfl, hK', hg''⟩ := hts j s hs
          refine ⟨i', u', K', s', hj, hi', rfl, ?_, hg''⟩
          intro q y hq
          have hy := hK' q y hq
          simp only [both]
          cases he : E (i' :: q) with
          | none => exact hy
          | some z =>
            rcases hS.once i' u' hi' q z y (hA _ _ he) (hD _ _ hy) with rfl | ⟨a, rfl, hp⟩
            · rfl
            · exfalso
              obtain ⟨⟨c, d, m, e1, e2, hsame⟩, _⟩ := (hE _ z).1 he
              obtain ⟨rfl, _⟩ := List.append_inj' (show i :: r ++ [l] = c ++ [m] from e1) rfl
              obtain ⟨rfl, _⟩ := List.append_inj' (show i' :: a ++ [1] = d ++ [m] from e2) rfl
              refine hP j n i' i a r hj hni (fun h => e h.symm) hsame.symm ?_
              obtain ⟨t, l, g, b, h3, h4⟩ := hp
              exact ⟨t, l, g, b, by simp only [at?, hi']; exact h3, h4⟩

theorem sruns (hS : Setting pairs f vs Rs) (hP : PadsApart pairs (.list f vs) idx) {c c' : List (Prog α) × Val}
    (hr : SRuns pairs c c') (h : SInv f vs Rs idx Q c.1 c.2) : SInv f vs Rs idx Q c'.1 c'.2 := by
  induction hr with
  | refl => exact h
  | @step b c hb hs ih => exact sstep hS hP ih hs

/-- No thread of such a state is stuck. -/
theorem scan {ts : List (Prog α)} {w : Val} (h : SInv f vs Rs idx Q ts w) {k : Nat} {t : Prog α} (ht : ts[k]? = some t) :
    (∃ r, t = .ret r ∧ Q k r) ∨ CanSStep pairs t w := by
  obtain ⟨D, rfl, hD, hts⟩ := h
  obtain ⟨i, u, K, s, _, hi, rfl, hK, hg⟩ := hts k t ht
  cases s with
  | ret a => exact Or.inl ⟨a, rfl, hg⟩
  | get p k =>
    obtain ⟨x, hx, _⟩ := hg _ hK (allowed_inside hD i)
    refine Or.inr ⟨_, .get (v := x) ?_⟩
    rw [at?_world (inWorld_none hD) hi]; exact hx
  | set p x k =>
    obtain ⟨w', h⟩ := can_set (pairs := pairs) (i :: p) x (k.inside i) (over (.list f vs) D)
    exact Or.inr ⟨_, h⟩

/-- Each thread can be brought to its end. -/
theorem sone (hS : Setting pairs f vs Rs) (hP : PadsApart pairs (.list f vs) idx) : ∀ (t : Prog α) {ts : List (Prog α)} {w : Val}
    {i : Nat}, SInv f vs Rs idx Q ts w → ts[i]? = some t → ∃ a w', SRuns pairs (ts, w) (ts.set i (.ret a), w')
  | .ret a, ts, w, i, h, hi => by
    refine ⟨a, w, ?_⟩
    have : ts.set i (.ret a) = ts := by
      obtain ⟨h1, h2⟩ := List.getElem?_eq_some_iff.1 hi
      rw [← h2]; exact List.set_getElem_self h1
    rw [this]; exact .refl _
  | .get p k, ts, w, i, h, hi => by
    obtain ⟨r, hr, _⟩ | ⟨c, hcs⟩ := scan (pairs := pairs) h hi
    · cases hr
    · cases hcs with
      | @get _ _ _ u hu =>
        have st : SStepAny pairs (ts, w) (ts.set i (k u), w) := .mk hi (.get hu)
        have hl : i < ts.length := (List.getElem?_eq_some_iff.1 hi).1
        obtain ⟨a, w', hr⟩ := sone hS hP (k u) (i := i) (sstep hS hP h st) (by simp [hl])
        rw [set_twice] at hr
        exact ⟨a, w', (SRuns.step (.refl _) st).trans hr⟩
  | .set p x k, ts, w, i, h, hi => by
    obtain ⟨w1, hw1⟩ := can_set (pairs := pairs) p x k w
    have st : SStepAny pairs (ts, w) (ts.set i k, w1) := .mk hi hw1
    have hl : i < ts.length := (List.getElem?_eq_some_iff.1 hi).1
    obtain ⟨a, w', hr⟩ := sone hS hP k (i := i) (sstep hS hP h st) (by simp [hl])
    rw [set_twice] at hr
    exact ⟨a, w', (SRuns.step (.refl _) st).trans hr⟩

/-- All threads can be brought to their ends. -/
theorem sall (hS : Setting pairs f vs Rs) (hP : PadsApart pairs (.list f vs) idx) {ts : List (Prog α)} {w : Val}
    (h : SInv f vs Rs idx Q ts w) : ∃ ts' w', SRuns pairs (ts, w) (ts', w') ∧ ts'.length = ts.length ∧ ∀ t ∈ ts', Finished t := by
  have main : ∀ n, n ≤ ts.length → ∃ ts' w', SRuns pairs (ts, w) (ts', w') ∧ ts'.length = ts.length ∧
      ∀ (i : Nat) t, i < n → ts'[i]? = some t → Finished t := by
    intro n
    induction n with
    | zero => intro _; exact ⟨ts, w, .refl _, rfl, fun i t hi => by omega⟩
    | succ n ih =>
      intro hn
      obtain ⟨ts', w', h1, h2, h3⟩ := ih (by omega)
      have hi : SInv f vs Rs idx Q ts' w' := sruns hS hP h1 h
      have hlt : n < ts'.length := by omega
      have hl : ts'[n]? = some (ts'[n]'hlt) := List.getElem?_eq_getElem hlt
      obtain ⟨a, w2, h4⟩ := sone hS hP _ hi hl
      refine ⟨_, w2, h1.trans h4, by simp [h2], ?_⟩
      intro i t hin ht
      by_cases e : i = n
      · subst e
        rw [List.getElem?_set_self hlt] at ht
        cases ht; exact ⟨a, rfl⟩
      · rw [List.getElem?_set_ne (by omega)] at ht
        exact h3 i t (by omega) ht
  obtain ⟨ts', w', h1, h2, h3⟩ := main ts.length (Nat.le_refl _)
  refine ⟨ts', w', h1, h2, ?_⟩
  intro t ht
  obtain ⟨i, hi⟩ := List.mem_iff_getElem?.1 ht
  have hl : i < ts'.length := (List.getElem?_eq_some_iff.1 hi).1
  exact h3 i t (by omega) hi
end threads

theorem padsApart_one {pairs : List (Path × Path)} {w : Val} (i : Nat) : PadsApart pairs w [i] := by
  intro k k' _ _ _ _ hk hk' hne
  have h1 := (List.getElem?_eq_some_iff.1 hk).1
  have h2 := (List.getElem?_eq_some_iff.1 hk').1
  simp only [List.length_singleton] at h1 h2
  omega

theorem padsApart_none {pairs : List (Path × Path)} {ms : List (PMsg × List Val)} (h : ∀ e ∈ ms, NoPad (.obj e.1.cls.name e.2)) (idx : List Nat) :
    PadsApart pairs (world ms) idx := by
  rintro _ _ i _ p _ _ _ _ _ ⟨t, l, f, b, h1, h2, h3⟩
  simp only [world, at?, List.getElem?_map] at h1
  cases he : ms[i]? with
  | none => rw [he] at h1; cases h1
  | some e =>
    rw [he] at h1
    exact h3 (h e (List.mem_of_getElem? he) p t l f h1 b h2)

/-! ## Running examples -/

mutual
/-- The places of the ActionSetFields that have to be padded. -/
def pads : Val → List Path
  | .obj c vs => (if padsHere (.obj c vs) then [[]] else []) ++ padsAll vs 0
  | .list _ xs => padsAll xs 0
  | _ => []
def padsAll : List Val → Nat → List Path
  | [], _ => []
  | v :: vs, n => (pads v).map (n :: ·) ++ padsAll vs (n + 1)
end

theorem padsAll_mem {vs : List Val} {i : Nat} {u : Val} (hi : vs[i]? = some u) {p : Path} (hp : p ∈ pads u) (n : Nat) : (n + i) :: p ∈ padsAll vs n := by
  induction vs generalizing i n with
  | nil => cases hi
  | cons v vs ih =>
    simp only [padsAll, List.mem_append, List.mem_map]
    cases i with
    | zero => simp only [List.getElem?_cons_zero, Option.some.injEq] at hi; subst hi; exact Or.inl ⟨p, hp, rfl⟩
    | succ i =>
      refine Or.inr ?_
      have := ih (i := i) (by simpa using hi) (n + 1)
      rwa [show n + 1 + i = n + (i + 1) by omega] at this

theorem pads_mem : ∀ {v : Val} {p : Path}, Padded v p → p ∈ pads v := by
  intro v p
  induction p generalizing v with
  | nil =>
    rintro ⟨t, l, f, b, hp, hb, h8⟩
    simp only [at?, Option.some.injEq] at hp
    subst hp
    simp [pads, padsHere, hb, h8]
  | cons i p ih =>
    rintro ⟨t, l, f, b, hp, hb⟩
    cases v <;> simp only [at?] at hp <;> try cases hp
    case obj c vs =>
      cases hi : vs[i]? with
      | none => rw [hi] at hp; cases hp
      | some u =>
        rw [hi] at hp
        have := padsAll_mem hi (ih ⟨t, l, f, b, hp, hb⟩) 0
        rw [Nat.zero_add] at this
        simp only [pads]
        exact List.mem_append_right _ this
    case list g vs =>
      cases hi : vs[i]? with
      | none => rw [hi] at hp; cases hp
      | some u =>
        rw [hi] at hp
        have := padsAll_mem hi (ih ⟨t, l, f, b, hp, hb⟩) 0
        rw [Nat.zero_add] at this
        simpa only [pads] using this

/-- `f` gives each object one name. -/
structure Names (pairs : List (Path × Path)) (f : Path → Path) : Prop where
  pair : ∀ e ∈ pairs, ∀ s, f (e.1 ++ s) = f (e.2 ++ s)
  same : ∀ p, Same pairs p (f p)

theorem Names.iff {pairs : List (Path × Path)} {f : Path → Path} (h : Names pairs f) {p q : Path} : Same pairs p q ↔ f p = f q := by
  constructor
  · intro hs
    induction hs with
    | refl => rfl
    | pair s hm => exact h.pair _ hm s
    | symm _ ih => exact ih.symm
    | trans _ _ ih ih' => exact ih.trans ih'
  · intro e
    exact .trans (h.same p) (by rw [e]; exact .symm (h.same q))

/-- A test of `PadsApart`. -/
theorem padsApart_of {pairs : List (Path × Path)} {f : Path → Path} (hf : Names pairs f) {w : Val} (hw : ∀ e ∈ pairs, at? w e.1 = at? w e.2) {idx : List Nat}
    (h : ∀ a ∈ pads w, ∀ b ∈ pads w, f a = f b → ∀ k < idx.length, ∀ k' < idx.length, k ≠ k' → ¬ (idx[k]? = a.head? ∧ idx[k']? = b.head?)) :
    PadsApart pairs w idx := by
  intro k k' i i' p p' hk hk' hne hs hp
  have hp' : Padded w (i' :: p') := by
    obtain ⟨t, l, g, b, h1, h2⟩ := hp
    exact ⟨t, l, g, b, (hs.at hw).symm.trans h1, h2⟩
  exact h _ (pads_mem hp) _ (pads_mem hp') (hf.iff.1 hs) k (List.getElem?_eq_some_iff.1 hk).1 k' (List.getElem?_eq_some_iff.1 hk').1 hne ⟨hk, hk'⟩

/-- The names of objects when the pairs put the same object at both places. -/
def swaps : List (Path × Path) → Path → Path
  | [], p => p
  | (a, b) :: r, p => if b <+: p then a ++ p.drop b.length else swaps r p

theorem swaps_same (pairs all : List (Path × Path)) (h : ∀ e ∈ pairs, e ∈ all) (p : Path) : Same all p (swaps pairs p) := by
  induction pairs with
  | nil => exact .refl _
  | cons e r ih =>
    obtain ⟨a, b⟩ := e
    simp only [swaps]
    by_cases hb : b <+: p
    · rw [if_pos hb]
      obtain ⟨s, rfl⟩ := hb
      rw [List.drop_left]
      exact .symm (.pair s (h _ (List.mem_cons_self ..)))
    · rw [if_neg hb]; exact ih (fun e he => h e (List.mem_cons_of_mem _ he))

/-- Places that are not inside each other. -/
def apart (p q : Path) : Bool := !(p.isPrefixOf q) && !(q.isPrefixOf p)

theorem apart_not {p q s : Path} (h : apart p q = true) : ¬ q <+: p ++ s := by
  simp only [apart, Bool.and_eq_true, Bool.not_eq_eq_eq_not, Bool.not_true] at h
  intro hq
  have h1 : ¬ p <+: q := by rw [← List.isPrefixOf_iff_prefix]; simp [h.1]
  have h2 : ¬ q <+: p := by rw [← List.isPrefixOf_iff_prefix]; simp [h.2]
  rcases Nat.le_total p.length q.length with hl | hl
  · exact h1 (List.prefix_of_prefix_length_le (List.prefix_append _ _) hq hl)
  · exact h2 (List.prefix_of_prefix_length_le hq (List.prefix_append _ _) hl)

theorem swaps_first (pairs : List (Path × Path)) (a s : Path) (h : ∀ e ∈ pairs, apart a e.2 = true) : swaps pairs (a ++ s) = a ++ s := by
  induction pairs with
  | nil => rfl
  | cons e r ih =>
    obtain ⟨x, y⟩ := e
    simp only [swaps]
    rw [if_neg (apart_not (h _ (List.mem_cons_self ..))), ih (fun e he => h e (List.mem_cons_of_mem _ he))]

/-- The first places are not inside the second places, and the second places not inside each other. -/
def disjoint : List (Path × Path) → Bool
  | [] => true
  | e :: r => (r.all fun e' => apart e.2 e'.2 && apart e'.2 e.2) && disjoint r

theorem swaps_second (pairs : List (Path × Path)) (h : disjoint pairs = true) (a b s : Path) (hm : (a, b) ∈ pairs) : swaps pairs (b ++ s) = a ++ s := by
  induction pairs with
  | nil => cases hm
  | cons e r ih =>
    obtain ⟨x, y⟩ := e
    simp only [disjoint, Bool.and_eq_true, List.all_eq_true] at h
    simp only [swaps]
    rcases List.mem_cons.1 hm with e | hm
    · cases e
      rw [if_pos (List.prefix_append _ _), List.drop_left]
    · rw [if_neg (apart_not (h.1 _ hm).2), ih h.2 hm]

theorem swaps_names (pairs : List (Path × Path)) (h : disjoint pairs = true) (h' : ∀ e ∈ pairs, ∀ e' ∈ pairs, apart e.1 e'.2 = true) :
    Names pairs (swaps pairs) where
  pair := by
    rintro ⟨a, b⟩ he s
    rw [swaps_first pairs a s (h' _ he), swaps_second pairs h a b s he]
  same := swaps_same pairs pairs (fun _ h => h)

/-- The assignments made at once. -/
def spread (f : Path → Path) (p : Path) (x : Val) : Done := fun q =>
  if q ≠ [] ∧ p ≠ [] ∧ q.getLast? = p.getLast? ∧ f q.dropLast = f p.dropLast then some x else none

theorem spread_iff {pairs : List (Path × Path)} {f : Path → Path} (h : Names pairs f) (p : Path) (x : Val) (q : Path) (y : Val) :
    spread f p x q = some y ↔ SameAttr pairs p q ∧ y = x := by
  have : (q ≠ [] ∧ p ≠ [] ∧ q.getLast? = p.getLast? ∧ f q.dropLast = f p.dropLast) ↔ SameAttr pairs p q := by
    constructor
    · rintro ⟨h1, h2, h3, h4⟩
      rcases List.eq_nil_or_concat p with rfl | ⟨a, i, rfl⟩
      · exact absurd rfl h2
      rcases List.eq_nil_or_concat q with rfl | ⟨b, j, rfl⟩
      · exact absurd rfl h1
      simp at h3 h4
      exact ⟨a, b, i, by simp, by simp [h3], h.iff.2 h4.symm⟩
    · rintro ⟨a, b, i, rfl, rfl, hs⟩
      simp [h.iff.1 hs]
  simp only [spread]
  by_cases hc : SameAttr pairs p q
  · rw [if_pos (this.2 hc)]; simp [hc, eq_comm]
  · rw [if_neg (fun h => hc (this.1 h))]; simp [hc]

/-- Thread `i` takes a step. -/
def sturn {α : Type} (f : Path → Path) (i : Nat) (c : List (Prog α) × Val) : List (Prog α) × Val :=
  match c.1[i]? with
  | some (.get p k) => (match at? c.2 p with | some u => (c.1.set i (k u), c.2) | none => c)
  | some (.set p x k) => (c.1.set i k, over c.2 (spread f p x))
  | _ => c

/-- The threads take turns. -/
def sturns {α : Type} (f : Path → Path) : List Nat → List (Prog α) × Val → List (Prog α) × Val
  | [], c => c
  | i :: is, c => sturns f is (sturn f i c)

theorem sturn_runs {α : Type} {pairs : List (Path × Path)} {f : Path → Path} (h : Names pairs f) (i : Nat) (c : List (Prog α) × Val) :
    SRuns pairs c (sturn f i c) := by
  obtain ⟨ts, w⟩ := c
  simp only [sturn]
  cases hi : ts[i]? with
  | none => exact .refl _
  | some t =>
    cases t with
    | ret a => exact .refl _
    | set p x k => exact .step (.refl _) (.mk hi (.set (spread_iff h p x)))
    | get p k =>
      simp only
      cases hu : at? w p with
      | none => exact .refl _
      | some u => exact .step (.refl _) (.mk hi (.get hu))

theorem sturns_runs {α : Type} {pairs : List (Path × Path)} {f : Path → Path} (h : Names pairs f) : ∀ (is : List Nat) (c : List (Prog α) × Val),
    SRuns pairs c (sturns f is c)
  | [], _ => .refl _
  | i :: is, c => (sturn_runs h i c).trans (sturns_runs h is _)

theorem srun_find {α : Type} {pairs : List (Path × Path)} {f : Path → Path} (h : Names pairs f) (is : List Nat) (c : List (Prog α) × Val)
    (P : List (Prog α) × Val → Prop) (hP : P (sturns f is c)) : ∃ ts w, SRuns pairs c (ts, w) ∧ P (ts, w) := by
  have := sturns_runs h is c
  generalize sturns f is c = c' at hP this
  exact ⟨c'.1, c'.2, this, hP⟩
end Pyof.Threads
