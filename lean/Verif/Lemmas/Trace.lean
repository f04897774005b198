import Verif.Lemmas.Slack
import Verif.Lemmas.KeepsV01
import Verif.Lemmas.AgainV04
/-!
# What `pack()` leaves in the objects of a multipart body does not matter, whatever is changed later
-/
namespace Pyof.Threads

/-- The law: an object that was packed is as good as one that was not. -/
def Trace (a : Attr) : Prop := ∀ v, Eqv a v (a.post v)

theorem trace_id {a : Attr} (h : a.post = id) : Trace a := fun v => by rw [h]; exact Eqv.refl _

theorem trace_same {a : Attr} (h : ∀ v, a.post v = v) : Trace a := fun v => by rw [h]; exact Eqv.refl _

theorem trace_cut {a : Attr} (k : Nat) (h : Trace a) : Trace (lengthCut k a) := h

/-- Objects of one class whose attributes are related. -/
theorem eqv_obj {a : Attr} {c : String} {S : List Val → List Val → Prop}
    (obs : ∀ vs ws, S vs ws → a.pack (.obj c vs) = a.pack (.obj c ws) ∧ a.size (.obj c vs) = a.size (.obj c ws))
    (step : ∀ vs ws i p k, S vs ws → S (vs.modify i fun v => alter v p k) (ws.modify i fun v => alter v p k)) {vs ws : List Val} (h : S vs ws) :
    Eqv a (.obj c vs) (.obj c ws) := by
  refine bisim (S := fun v w => ∃ vs ws, v = .obj c vs ∧ w = .obj c ws ∧ S vs ws) ?_ ?_ ⟨_, _, rfl, rfl, h⟩
  · rintro _ _ ⟨vs, ws, rfl, rfl, h⟩
    exact ⟨(obs vs ws h).1, (obs vs ws h).2, Or.inr (Or.inl ⟨_, _, _, rfl, rfl⟩)⟩
  · rintro _ _ p k ⟨vs, ws, rfl, rfl, h⟩
    cases p with
    | nil =>
      cases k with
      | assign x => exact Or.inr rfl
      | items t => exact Or.inl ⟨_, _, rfl, rfl, h⟩
    | cons i p => exact Or.inl ⟨_, _, rfl, rfl, step _ _ i p k h⟩

theorem postAttrs_getElem? : ∀ (fs : Fields) (vs : List Val) (j : Nat),
    (postAttrs fs vs)[j]? = (match fs[j]? with | some f => vs[j]?.map f.2.post | none => vs[j]?)
  | [], vs, j => by cases vs <;> simp [postAttrs]
  | (n, c) :: fs, [], j => by
    simp only [postAttrs, List.getElem?_nil, Option.map_none]
    cases ((n, c) :: fs)[j]? <;> rfl
  | (n, c) :: fs, v :: vs, 0 => by simp [postAttrs]
  | (n, c) :: fs, v :: vs, j + 1 => by
    simp only [postAttrs, List.getElem?_cons_succ]
    exact postAttrs_getElem? fs vs j

theorem postAttrs_length : ∀ (fs : Fields) (vs : List Val), (postAttrs fs vs).length = vs.length
  | [], vs => by cases vs <;> rfl
  | (n, c) :: fs, [] => rfl
  | (n, c) :: fs, v :: vs => by simp [postAttrs, postAttrs_length fs vs]

theorem agree_post {fs : Fields} (h : ∀ f ∈ fs, Trace f.2) (slots : Nat → Prop) (vs : List Val) : Agree (leaves fs) slots vs (postAttrs fs vs) := by
  refine ⟨(postAttrs_length _ _).symm, ?_⟩
  intro j v w hv hw _
  rw [postAttrs_getElem?, hv] at hw
  cases hf : fs[j]? with
  | none =>
    rw [hf] at hw; cases hw; exact Or.inl rfl
  | some f =>
    rw [hf] at hw
    simp only [Option.map_some, Option.some.injEq] at hw
    have hl : (leaves fs)[j]? = some (f.1, leafP f.2) := by simp [leaves, hf]
    by_cases hi : f.2.post = id
    · left; rw [← hw, hi]; rfl
    · right
      refine ⟨_, hl, fun h => hi h.2, ?_⟩
      rw [← hw]
      exact h f (List.mem_of_getElem? hf) v

theorem agree_set {fs : PFields} (i : Nat) (x : Val) (vs : List Val) : Agree fs (· = i) vs (vs.set i x) := by
  refine ⟨by simp, ?_⟩
  intro j v w hv hw hj
  rw [List.getElem?_set_ne (fun e => hj e.symm), hv] at hw
  cases hw; exact Or.inl rfl

theorem agree_autoPost {fs : Fields} (h : ∀ f ∈ fs, Trace f.2) (i : Nat) (vs : List Val) : Agree (leaves fs) (· = i) vs (autoPost fs i vs) := by
  unfold autoPost
  cases hw : withLength fs i vs with
  | error e => exact .refl _
  | ok ws =>
    have : ∃ x, ws = vs.set i x := by
      unfold withLength at hw
      split at hw
      · cases hw
      · cases hw; exact ⟨_, rfl⟩
    obtain ⟨x, rfl⟩ := this
    exact (agree_set i x vs).trans (agree_post h _ _)

theorem trace_struct {cls : String} {fs : Fields} {init : List Val} (h : ∀ f ∈ fs, Trace f.2) : Trace (structAttr cls fs init) := by
  intro v
  cases v <;> try exact Eqv.refl _
  case obj c vs =>
    by_cases hc : c = cls
    · subst hc
      have e : (structAttr c fs init).post (.obj c vs) = .obj c (postAttrs fs vs) := by simp [structAttr]
      rw [e]
      refine eqv_obj (S := Agree (leaves fs) (fun _ => False)) ?_ (fun _ _ _ _ _ h => h.modify _ _ _) (agree_post h _ _)
      intro vs ws h
      have h1 := h.pack (fun _ h => h)
      have h2 := h.size (fun _ h => h.elim)
      rw [leaves_fields] at h1 h2
      exact ⟨by simp [structAttr, h1], by simp [structAttr, h2]⟩
    · have e : (structAttr cls fs init).post (.obj c vs) = .obj c vs := by simp [structAttr, hc]
      rw [e]; exact Eqv.refl _

theorem trace_auto {cls : String} {fs : Fields} {i : Nat} {init : List Val} (h : ∀ f ∈ fs, Trace f.2) (hi : Slot (leaves fs) i) :
    Trace (autoStruct cls fs i init) := by
  intro v
  cases v <;> try exact Eqv.refl _
  case obj c vs =>
    by_cases hc : c = cls
    · subst hc
      have e : (autoStruct c fs i init).post (.obj c vs) = .obj c (autoPost fs i vs) := by simp [autoStruct]
      rw [e]
      refine eqv_obj (S := Agree (leaves fs) (· = i)) ?_ (fun _ _ _ _ _ h => h.modify _ _ _) (agree_autoPost h _ _)
      intro vs ws h
      have h1 := h.auto hi
      rw [leaves_fields] at h1
      exact ⟨by simp [autoStruct, h1.1], by simp [autoStruct, structAttr, h1.2]⟩
    · have e : (autoStruct cls fs i init).post (.obj c vs) = .obj c vs := by simp [autoStruct, hc]
      rw [e]; exact Eqv.refl _

/-! ## Lists -/

theorem trace_lr {it : Attr} (h : Trace it) (hl : ∀ f xs, it.post (.list f xs) = .list f xs) (v : Val) : LR it v (it.post v) := by
  by_cases hv : ∃ f xs, v = .list f xs
  · obtain ⟨f, xs, rfl⟩ := hv
    rw [hl]; exact .eq _
  · have hn : ∀ f xs, v ≠ .list f xs := fun f xs e => hv ⟨f, xs, e⟩
    refine .item hn ?_ (h v)
    intro f xs e
    rcases (h v).obs.2.2 with h1 | ⟨_, _, _, _, h1⟩ | ⟨_, _, _, h1, _⟩
    · exact hn f xs (h1.trans e)
    · rw [e] at h1; cases h1
    · exact hn _ _ h1

theorem trace_list {isItem : Val → Bool} (hc : ClassOnly isItem) {it : Attr} (h : Trace it) (hl : ∀ f xs, it.post (.list f xs) = .list f xs)
    (hu : ∀ c vs, it.usize (.obj c vs) = it.size (.obj c vs)) : Trace (listAttr isItem it) := by
  intro v
  cases v <;> try exact Eqv.refl _
  case list f xs =>
    refine bisim (S := LR it) (fun _ _ h => h.obs hc hu) (fun _ _ p c h => Or.inl (h.alter p c)) ?_
    refine .list (by simp) ?_
    intro j x y hx hy
    rw [List.getElem?_map, hx] at hy
    cases hy
    exact trace_lr h hl x

theorem trace_bare {isItem : Val → Bool} {it : Attr} (h : Trace it) : Trace (bareListAttr isItem it) := by
  intro v
  cases v <;> try exact Eqv.refl _
  case list f xs =>
    refine bisim (S := BR it) ?_ ?_ ?_
    · rintro v w (rfl | ⟨f, xs, ys, rfl, rfl, hl, h⟩)
      · exact Obs.refl _
      · refine ⟨?_, rfl, Or.inr (Or.inr ⟨_, _, _, rfl, rfl⟩)⟩
        cases f with
        | false => rfl
        | true => exact packItems_same hl fun j x y hx hy => (h j x y hx hy).obs.1
    · rintro v w p c (rfl | ⟨f, xs, ys, rfl, rfl, hl, h⟩)
      · exact Or.inr rfl
      · cases p with
        | nil =>
          cases c with
          | assign x => exact Or.inr rfl
          | items t =>
            obtain ⟨h1, h2⟩ := rearrange_rel (R := Eqv it) Eqv.refl hl h t
            exact Or.inl (Or.inr ⟨f, _, _, rfl, rfl, h1, h2⟩)
        | cons i p =>
          exact Or.inl (Or.inr ⟨f, _, _, rfl, rfl, by simp [hl], modify_rel fun j x y hx hy => ⟨h j x y hx hy, (h j x y hx hy).alter p c⟩⟩)
    · refine Or.inr ⟨f, xs, xs.map it.post, rfl, rfl, by simp, ?_⟩
      intro j x y hx hy
      rw [List.getElem?_map, hx] at hy
      cases hy
      exact h x

/-! ## Families of classes -/

def TraceSub (s : Sub) : Prop := ∃ S : List Val → List Val → Prop,
  (∀ vs ws, S vs ws → s.pack vs = s.pack ws ∧ s.size vs = s.size ws) ∧
  (∀ vs ws i p c, S vs ws → S (vs.modify i fun v => alter v p c) (ws.modify i fun v => alter v p c)) ∧
  ∀ vs, S vs (s.post vs)

theorem trace_variant {proto : Val} {ref : Ref} {trunc : Bool} {pick : Nat → Res Sub} {subs : List Sub} (h : ∀ s ∈ subs, TraceSub s) :
    Trace (variantAttr proto ref trunc pick subs) := by
  intro v
  cases v <;> try exact Eqv.refl _
  case obj c vs =>
    cases hs : subOf subs c with
    | none =>
      have e : (variantAttr proto ref trunc pick subs).post (.obj c vs) = .obj c vs := by simp only [variantAttr, hs]
      rw [e]; exact Eqv.refl _
    | some s =>
      obtain ⟨S, h1, h2, h3⟩ := h s (subOf_mem hs).1
      have e : (variantAttr proto ref trunc pick subs).post (.obj c vs) = .obj c (s.post vs) := by simp only [variantAttr, hs]
      rw [e]
      refine eqv_obj (S := S) ?_ h2 (h3 vs)
      intro vs ws h
      exact ⟨by simp only [variantAttr, hs, (h1 vs ws h).1], by simp only [variantAttr, hs, (h1 vs ws h).2]⟩

theorem traceSub_same {s : Sub} (h : ∀ vs, s.post vs = vs) : TraceSub s :=
  ⟨(· = ·), fun _ _ h => by subst h; exact ⟨rfl, rfl⟩, fun _ _ _ _ _ h => by subst h; rfl, fun vs => (h vs).symm⟩

theorem traceSub_auto {name : String} {fs : Fields} {i : Nat} (h : ∀ f ∈ fs, Trace f.2) (hi : Slot (leaves fs) i) : TraceSub (autoSub name fs i) := by
  refine ⟨Agree (leaves fs) (· = i), ?_, fun _ _ _ _ _ h => h.modify _ _ _, fun vs => agree_autoPost h _ _⟩
  intro vs ws h
  have h1 := h.auto hi
  rw [leaves_fields] at h1
  exact h1

/-! ## The classes of v0x04 -/

theorem tr_nil : ∀ f ∈ ([] : Fields), Trace f.2 := by intro f hf; cases hf
theorem tr_cons {n : String} {c : Attr} {fs : Fields} (h : Trace c) (hs : ∀ f ∈ fs, Trace f.2) : ∀ f ∈ (n, c) :: fs, Trace f.2 := by
  intro f hf
  rcases List.mem_cons.1 hf with rfl | hf
  · exact h
  · exact hs f hf

/-- Proves the law for the attributes of a declaration. -/
macro "trace_fields" : tactic => `(tactic| (repeat' first | exact tr_nil | refine tr_cons (trace_id rfl) ?_ | refine tr_cons (by assumption) ?_))
macro "slot_here" : tactic => `(tactic| exact ⟨by intro f hf; cases hf; exact ⟨2, _, rfl, fun _ => rfl⟩⟩)

theorem trace_oxm : Trace V04.oxm := by
  intro v
  cases v <;> try exact Eqv.refl _
  case obj c vs =>
    by_cases hc : c = "04.OxmTLV"
    · subst hc
      cases hp : V04.oxmPrep vs with
      | error e =>
        have e : V04.oxm.post (.obj "04.OxmTLV" vs) = .obj "04.OxmTLV" vs := by simp [V04.oxm, hp]
        rw [e]; exact Eqv.refl _
      | ok ws =>
        have e : V04.oxm.post (.obj "04.OxmTLV" vs) = .obj "04.OxmTLV" ws := by simp [V04.oxm, hp]
        rw [e]
        refine eqv_obj (S := Agree (leaves V04.oxmFields) (fun j => j = 1 ∨ j = 2)) ?_ (fun _ _ _ _ _ h => h.modify _ _ _) ?_
        · intro vs ws h
          have h1 := oxm_obs h
          exact ⟨by simp [V04.oxm, h1.1], by simp [V04.oxm, h1.2]⟩
        · obtain ⟨x, y, rfl⟩ : ∃ x y, ws = (vs.set 1 x).set 2 y := by
            unfold V04.oxmPrep at hp
            split at hp
            · repeat' split at hp
              all_goals first | (cases hp; done) | (cases hp; exact ⟨_, _, rfl⟩)
            · cases hp
          refine ((agree_set (fs := leaves V04.oxmFields) 1 x vs).mono ?_).trans ((agree_set 2 y _).mono ?_)
          · intro j _ h; exact Or.inl h
          · intro j _ h; exact Or.inr h
    · have e : V04.oxm.post (.obj c vs) = .obj c vs := by simp [V04.oxm, hc]
      rw [e]; exact Eqv.refl _

theorem trace_oxms : Trace V04.oxms := trace_list (classOnly_obj _) trace_oxm (fun _ _ => rfl) (fun _ _ => rfl)

theorem trace_match : Trace V04.match := by
  have hO := trace_oxms
  have hF : ∀ f ∈ V04.matchFields, Trace f.2 := by unfold V04.matchFields; trace_fields
  have hi : Slot (leaves V04.matchFields) 1 := by slot_here
  intro v
  cases v <;> try exact Eqv.refl _
  case obj c vs =>
    by_cases hc : c = "04.Match"
    · subst hc
      have e : V04.match.post (.obj "04.Match" vs) = .obj "04.Match" (autoPost V04.matchFields 1 vs) := by simp [V04.match]
      rw [e]
      refine eqv_obj (S := Agree (leaves V04.matchFields) (· = 1)) ?_ (fun _ _ _ _ _ h => h.modify _ _ _) (agree_autoPost hF _ _)
      intro vs ws h
      have h1 := match_obs (leaves_fields _) hi h
      exact ⟨by simp [V04.match, h1.1], by simp [V04.match, h1.2]⟩
    · have e : V04.match.post (.obj c vs) = .obj c vs := by simp [V04.match, hc]
      rw [e]; exact Eqv.refl _

theorem traceSub_setField : TraceSub V04.actionSetField := by
  have hO := trace_oxm
  have hF : ∀ f ∈ V04.setFieldFields, Trace f.2 := by unfold V04.setFieldFields V04.actionHead; simp only [List.cons_append, List.nil_append]; trace_fields
  refine ⟨Agree (leaves V04.setFieldFields) (· = 1), ?_, fun _ _ _ _ _ h => h.modify _ _ _, ?_⟩
  · exact fun vs ws h => setField_obs (leaves_fields _) (by slot_here) h
  · intro vs
    show Agree _ _ vs (match V04.setFieldPrep vs with | .ok ws => postAttrs V04.setFieldFields ws | .error _ => vs)
    cases hp : V04.setFieldPrep vs with
    | error e => exact .refl _
    | ok ws =>
      obtain ⟨x, rfl⟩ : ∃ x, ws = vs.set 1 x := by
        unfold V04.setFieldPrep at hp
        repeat' split at hp
        all_goals first | (cases hp; done) | (cases hp; exact ⟨_, rfl⟩)
      exact (agree_set 1 x vs).trans (agree_post hF _ _)

theorem trace_action : Trace V04.action := by
  refine trace_variant ?_
  intro s hs
  simp only [V04.actionSubs, V04.actionClasses, List.map_cons, List.map_nil] at hs
  repeat (rcases List.mem_cons.1 hs with rfl | hs; · first | exact traceSub_setField | exact traceSub_same fun vs => postAttrs_id (by same_fields) vs)
  cases hs

theorem trace_actions : Trace V04.actions := trace_list (classOnly_sub _) trace_action (fun _ _ => rfl) (fun _ _ => rfl)

theorem trace_instruction : Trace V04.instruction := by
  have hA := trace_actions
  refine trace_variant ?_
  intro s hs
  simp only [V04.instructionSubs] at hs
  repeat (rcases List.mem_cons.1 hs with rfl | hs; · refine traceSub_auto ?_ (by slot_here); (repeat' first | exact tr_nil | refine tr_cons (trace_id rfl) ?_ | refine tr_cons hA ?_))
  cases hs

theorem trace_instructions : Trace V04.instructions := trace_list (classOnly_sub _) trace_instruction (fun _ _ => rfl) (fun _ _ => rfl)

theorem trace_property : Trace V04.property := by
  have hA := trace_actions
  have hI := trace_instructions
  have hO := trace_oxms
  refine trace_variant ?_
  intro s hs
  simp only [V04.propertySubs] at hs
  repeat (rcases List.mem_cons.1 hs with rfl | hs
          · refine traceSub_auto ?_ (by slot_here)
            (repeat' first | exact tr_nil | refine tr_cons (trace_id rfl) ?_ | refine tr_cons hA ?_ | refine tr_cons hI ?_ | refine tr_cons hO ?_))
  cases hs

theorem trace_properties : Trace V04.properties := trace_list (classOnly_sub _) trace_property (fun _ _ => rfl) (fun _ _ => rfl)

theorem trace_bucket : Trace V04.bucket := by
  have hA : Trace (bareListAttr (isSub V04.actionSubs) V04.action) := trace_bare trace_action
  have hF : ∀ f ∈ V04.bucketFields, Trace f.2 := by unfold V04.bucketFields; trace_fields
  intro v
  cases v <;> try exact Eqv.refl _
  case obj c vs =>
    by_cases hc : c = "04.Bucket"
    · subst hc
      have e : V04.bucket.post (.obj "04.Bucket" vs) = .obj "04.Bucket" (postAttrs V04.bucketFields vs) := by simp [V04.bucket, lengthCut, structAttr]
      rw [e]
      refine eqv_obj (S := Agree (leaves V04.bucketFields) (fun _ => False)) ?_ (fun _ _ _ _ _ h => h.modify _ _ _) (agree_post hF _ _)
      intro vs ws h
      have h1 := bucket_obs (leaves_fields _) (by intro f hf; cases hf; exact ⟨⟨_, rfl⟩, rfl⟩) h
      exact ⟨by simp [V04.bucket, lengthCut, structAttr, h1.1], by simp [V04.bucket, lengthCut, h1.2]⟩
    · have e : V04.bucket.post (.obj c vs) = .obj c vs := by simp [V04.bucket, lengthCut, structAttr, hc]
      rw [e]; exact Eqv.refl _

theorem trace_bodies : ∀ p ∈ V04.bodyClasses, Trace p.2 := by
  have hM := trace_match
  have hI := trace_instructions
  have hP := trace_properties
  have hB : Trace (bareListAttr (isObj "04.Bucket") V04.bucket) := trace_bare trace_bucket
  have hC : Trace V04.bucketCounters := trace_list (classOnly_obj _) (trace_struct (by trace_fields)) (fun _ _ => rfl) (fun _ _ => rfl)
  have hS : Trace V04.bandStatsList := trace_list (classOnly_obj _) (trace_struct (by trace_fields)) (fun _ _ => rfl) (fun _ _ => rfl)
  have hK : Trace V04.bands := by
    refine trace_list (classOnly_sub _) (trace_variant ?_) (fun _ _ => rfl) (fun _ _ => rfl)
    intro s hs
    simp only [V04.bandSubs] at hs
    repeat (rcases List.mem_cons.1 hs with rfl | hs; · exact traceSub_same fun vs => postAttrs_id (by same_fields) vs)
    cases hs
  intro p hp
  unfold V04.bodyClasses at hp
  repeat (
    rcases List.mem_cons.1 hp with rfl | hp
    · first
      | exact trace_struct (by trace_fields)
      | exact trace_cut _ (trace_struct (by trace_fields))
      | exact trace_cut _ (trace_auto (by trace_fields) (by slot_here)))
  cases hp

/-! ## Multipart messages -/

/-- What may be an object in the body of a multipart message. -/
def anyBody : Attr where
  proto := .none
  pack := fun v => match v with | .obj c vs => (match V04.bodyClasses.lookup c with | some a => a.pack (.obj c vs) | none => .error .unmodelled) | _ => .error .unmodelled
  size := fun v => match v with | .obj c vs => (match V04.bodyClasses.lookup c with | some a => a.size (.obj c vs) | none => .error .unmodelled) | _ => .error .unmodelled
  unpack := fun _ _ => .error .unmodelled
  usize := fun v => match v with | .obj c vs => (match V04.bodyClasses.lookup c with | some a => a.size (.obj c vs) | none => .error .unmodelled) | _ => .error .unmodelled
  post := V04.bodyPost

theorem anyBody_of {c : String} {a : Attr} (h : V04.bodyClasses.lookup c = some a) (vs : List Val) :
    anyBody.pack (.obj c vs) = a.pack (.obj c vs) ∧ anyBody.size (.obj c vs) = a.size (.obj c vs) := by
  simp only [anyBody, h, and_self]

theorem trace_anyBody : Trace anyBody := by
  intro v
  cases v <;> try exact Eqv.refl _
  case obj c vs =>
    show Eqv anyBody (.obj c vs) (V04.bodyPost (.obj c vs))
    cases hl : V04.bodyClasses.lookup c with
    | none =>
      simp only [V04.bodyPost, hl]; exact Eqv.refl _
    | some a =>
      simp only [V04.bodyPost, hl]
      have ht := trace_bodies _ (V04.lookup_mem hl) (.obj c vs)
      have hs : ∃ us ws, Val.obj c vs = .obj c us ∧ a.post (.obj c vs) = .obj c ws := by
        rcases ht.obs.2.2 with h | ⟨c', us, ws, h, h'⟩ | ⟨_, _, _, h, _⟩
        · exact ⟨vs, vs, rfl, h.symm⟩
        · cases h; exact ⟨vs, ws, rfl, h'⟩
        · cases h
      refine bisim (S := fun v w => (∃ us ws, v = .obj c us ∧ w = .obj c ws) ∧ Eqv a v w) ?_ ?_ ⟨hs, ht⟩
      · rintro _ _ ⟨⟨us, ws, rfl, rfl⟩, h⟩
        refine ⟨?_, ?_, h.obs.2.2⟩
        · rw [(anyBody_of hl us).1, (anyBody_of hl ws).1]; exact h.obs.1
        · rw [(anyBody_of hl us).2, (anyBody_of hl ws).2]; exact h.obs.2.1
      · rintro _ _ p k ⟨⟨us, ws, rfl, rfl⟩, h⟩
        cases p with
        | nil =>
          cases k with
          | assign x => exact Or.inr rfl
          | items t => exact Or.inl ⟨⟨_, _, rfl, rfl⟩, h⟩
        | cons i p => exact Or.inl ⟨⟨_, _, rfl, rfl⟩, h.alter _ _⟩

/-- The type as it was decoded or as it is after packing. -/
def SameType (t t' : Val) : Prop := t = t' ∨ ∃ w i, t = .ub w (.enum i) ∧ t' = .enum i

theorem SameType.alter {t t' : Val} (h : SameType t t') (p : Path) (c : Change) : SameType (alter t p c) (alter t' p c) := by
  rcases h with rfl | ⟨w, i, rfl, rfl⟩
  · exact Or.inl rfl
  · cases p with
    | nil =>
      cases c with
      | assign x => exact Or.inl rfl
      | items s => exact Or.inr ⟨w, i, rfl, rfl⟩
    | cons j p => exact Or.inr ⟨w, i, rfl, rfl⟩

theorem SameType.pack {t t' : Val} (h : SameType t t') (rt : Ref) : V04.bodyKey t = V04.bodyKey t' ∧ (ubint 2 rt).pack t = (ubint 2 rt).pack t' := by
  rcases h with rfl | ⟨w, i, rfl, rfl⟩ <;> exact ⟨rfl, rfl⟩

theorem anyBody_items {c : String} {a : Attr} (h : V04.bodyClasses.lookup c = some a) : ∀ {ys : List Val}, (∀ y ∈ ys, isObj c y = true) →
    packItems anyBody ys = packItems a ys
  | [], _ => rfl
  | y :: ys, hy => by
    obtain ⟨vs, rfl⟩ := isObj_iff.1 (hy y List.mem_cons_self)
    simp only [packItems, (anyBody_of h vs).1, anyBody_items h fun y h => hy y (List.mem_cons_of_mem _ h)]

/-- The body to be sent, from related bodies. -/
theorem prep_same {simple : Nat → Option Attr} {array : Nat → Option (String × Attr)} (hk : ∀ k c a, array k = some (c, a) → V04.bodyClasses.lookup c = some a)
    {t t' f p b b' : Val} (ht : SameType t t') (hb : LR anyBody b b') :
    (∃ e, V04.multipartPrep simple array [t, f, p, b] = .error e ∧ V04.multipartPrep simple array [t', f, p, b'] = .error e) ∨
    ∃ x, V04.multipartPrep simple array [t, f, p, b] = .ok [t, f, p, x] ∧ V04.multipartPrep simple array [t', f, p, b'] = .ok [t', f, p, x] := by
  have hkey := (ht.pack .none).1
  have other : ∀ {b b' : Val}, (∀ g xs, b ≠ .list g xs) → (∀ g xs, b' ≠ .list g xs) → pyTrue b = pyTrue b' →
      selfPack V04.bodyClasses b = selfPack V04.bodyClasses b' → (pyTrue b = false → b = b') →
      (∃ e, V04.multipartPrep simple array [t, f, p, b] = .error e ∧ V04.multipartPrep simple array [t', f, p, b'] = .error e) ∨
      ∃ x, V04.multipartPrep simple array [t, f, p, b] = .ok [t, f, p, x] ∧ V04.multipartPrep simple array [t', f, p, b'] = .ok [t', f, p, x] := by
    intro b b' h1 h2 h3 h4 h5
    have e : ∀ {t b : Val}, (∀ g xs, b ≠ .list g xs) → V04.multipartPrep simple array [t, f, p, b] =
        if pyTrue b then (match selfPack V04.bodyClasses b with
          | none => .error .unboundLocal
          | some (.error e) => .error e
          | some (.ok x) => .ok [t, f, p, .bytes x]) else .ok [t, f, p, b] := by
      intro t b hb
      cases b <;> first | exact absurd rfl (hb _ _) | rfl
    rw [e h1, e h2, ← h3, ← h4]
    cases hp : pyTrue b with
    | false => exact Or.inr ⟨b, rfl, by rw [h5 hp]; rfl⟩
    | true =>
      simp only [if_true]
      cases selfPack V04.bodyClasses b with
      | none => exact Or.inl ⟨_, rfl, rfl⟩
      | some r =>
        cases r with
        | error e => exact Or.inl ⟨_, rfl, rfl⟩
        | ok x => exact Or.inr ⟨_, rfl, rfl⟩
  have lists : ∀ {g : Bool} {xs ys : List Val}, LR anyBody (.list g xs) (.list g ys) → pyTrue (.list g xs) = pyTrue (.list g ys) →
      (pyTrue (.list g xs) = false → Val.list g xs = .list g ys) →
      (∃ e, V04.multipartPrep simple array [t, f, p, .list g xs] = .error e ∧ V04.multipartPrep simple array [t', f, p, .list g ys] = .error e) ∨
      ∃ x, V04.multipartPrep simple array [t, f, p, .list g xs] = .ok [t, f, p, x] ∧ V04.multipartPrep simple array [t', f, p, .list g ys] = .ok [t', f, p, x] := by
    intro g xs ys h h3 h5
    simp only [V04.multipartPrep, ← h3, ← hkey]
    cases hp : pyTrue (.list g xs) with
    | false => exact Or.inr ⟨.list g xs, rfl, by rw [h5 hp]; rfl⟩
    | true =>
      simp only [if_true]
      cases V04.bodyKey t with
      | error e => exact Or.inl ⟨_, rfl, rfl⟩
      | ok k =>
        simp only
        cases harr : (if 0 ≤ k ∧ (simple k.toNat).isNone then array k.toNat else none) with
        | none => exact Or.inl ⟨_, rfl, rfl⟩
        | some q =>
          obtain ⟨c, a⟩ := q
          simp only
          have hlook : V04.bodyClasses.lookup c = some a := by
            split at harr
            · exact hk _ _ _ harr
            · cases harr
          have hs := LR.add (classOnly_obj c) (fun _ _ => rfl) h
          simp only [addItem] at hs
          rcases hs with ⟨e, h1, h2⟩ | ⟨us, vs, h1, h2, h6⟩
          · rw [h1, h2]; exact Or.inl ⟨e, rfl, rfl⟩
          · rw [h1, h2]
            have h7 := h6.pack.1
            rw [anyBody_items hlook (addItems_items _ _ h1), anyBody_items hlook (addItems_items _ _ h2)] at h7
            simp only [h7]
            cases packItems a vs with
            | error e => exact Or.inl ⟨_, rfl, rfl⟩
            | ok x => exact Or.inr ⟨_, rfl, rfl⟩
  cases hb with
  | eq b =>
    by_cases hl : ∃ g xs, b = .list g xs
    · obtain ⟨g, xs, rfl⟩ := hl
      exact lists (.eq _) rfl (fun _ => rfl)
    · have hn : ∀ g xs, b ≠ .list g xs := fun g xs e => hl ⟨g, xs, e⟩
      exact other hn hn rfl rfl (fun _ => rfl)
  | item h1 h2 h3 =>
    rcases h3.obs.2.2 with rfl | ⟨c, us, vs, rfl, rfl⟩ | ⟨g, xs, ys, rfl, _⟩
    · exact other h1 h1 rfl rfl (fun _ => rfl)
    · refine other h1 h2 rfl ?_ (fun h => by simp [pyTrue] at h)
      have := h3.obs.1
      simp only [anyBody] at this
      simp only [selfPack]
      cases hl : V04.bodyClasses.lookup c with
      | none => rfl
      | some a =>
        simp only [hl] at this
        simp only [this]
    · exact absurd rfl (h1 _ _)
  | @list g xs ys hl h =>
    have h3 : pyTrue (.list g xs) = pyTrue (.list g ys) := by
      cases xs <;> cases ys <;> first | rfl | (simp at hl)
    refine lists (.list hl h) h3 ?_
    intro hp
    cases xs with
    | nil =>
      cases ys with
      | nil => rfl
      | cons y ys => simp at hl
    | cons x xs => simp [pyTrue] at hp

/-- Multipart messages that differ only in what packing assigns. -/
def SameMulti (c : String) (v w : Val) : Prop := v = w ∨ ∃ h h' t t' f p b b', v = .obj c [h, t, f, p, b] ∧ w = .obj c [h', t', f, p, b'] ∧
  SameHeader h h' ∧ SameType t t' ∧ LR anyBody b b'

theorem SameMulti.alter {c : String} {v w : Val} (h : SameMulti c v w) (i : Nat) (q : Path) (k : Change) :
    SameMulti c (Threads.alter v (i :: q) k) (Threads.alter w (i :: q) k) := by
  rcases h with rfl | ⟨h, h', t, t', f, p, b, b', rfl, rfl, h1, h2, h3⟩
  · exact Or.inl rfl
  · right
    match i with
    | 0 => exact ⟨_, _, _, _, _, _, _, _, rfl, rfl, h1.alter q k, h2, h3⟩
    | 1 => exact ⟨_, _, _, _, _, _, _, _, rfl, rfl, h1, h2.alter q k, h3⟩
    | 2 => exact ⟨_, _, _, _, _, _, _, _, rfl, rfl, h1, h2, h3⟩
    | 3 => exact ⟨_, _, _, _, _, _, _, _, rfl, rfl, h1, h2, h3⟩
    | 4 => exact ⟨_, _, _, _, _, _, _, _, rfl, rfl, h1, h2, h3.alter q k⟩
    | n + 5 => exact ⟨h, h', t, t', f, p, b, b', by simp [Threads.alter], by simp [Threads.alter], h1, h2, h3⟩

theorem SameMulti.pack {m : MsgCls} {simple : Nat → Option Attr} {array : Nat → Option (String × Attr)} {rt : Ref} {rest : Fields}
    (hm : m.body = ("multipart_type", ubint 2 rt) :: rest) (hp : m.prep = V04.multipartPrep simple array) (hv : m.valid = fun _ => .ok ())
    (hk : ∀ k c a, array k = some (c, a) → V04.bodyClasses.lookup c = some a) {c : String} {v w : Val} (h : SameMulti c v w) : m.pack v = m.pack w := by
  rcases h with rfl | ⟨h, h', t, t', f, p, b, b', rfl, rfl, h1, h2, h3⟩
  · rfl
  · simp only [MsgCls.pack, hp]
    rcases prep_same (simple := simple) (f := f) (p := p) hk h2 h3 with ⟨e, h4, h5⟩ | ⟨x, h4, h5⟩
    · rw [h4, h5]
    · rw [h4, h5]
      have hz : sizeAttrs m.fields (h :: [t, f, p, x]) = sizeAttrs m.fields (h' :: [t', f, p, x]) := by
        simp only [MsgCls.fields, hm, sizeAttrs, h1.size]; rfl
      have hq : ∀ k, packAttrs m.fields (k :: [t, f, p, x]) = packAttrs m.fields (k :: [t', f, p, x]) := fun k => by
        simp only [MsgCls.fields, hm, packAttrs, (h2.pack rt).2]
      simp only [genericPack, hz, h1.set, hv, hq]

/-- A message after `pack()`: the length in the header, and the other attributes as `after` says. -/
theorem post_shape (m : MsgCls) (c : String) (hdr : Val) (vs : List Val) :
    ∃ h' vs', m.post (.obj c (hdr :: vs)) = .obj c (h' :: vs') ∧ SameHeader hdr h' ∧ (vs' = vs ∨ vs' = m.after vs) := by
  simp only [MsgCls.post]
  cases m.prep vs with
  | error e => exact ⟨hdr, vs, rfl, Or.inl rfl, Or.inl rfl⟩
  | ok us =>
    simp only
    cases sizeAttrs m.fields (hdr :: us) with
    | error e => exact ⟨hdr, vs, rfl, Or.inl rfl, Or.inl rfl⟩
    | ok n =>
      simp only
      cases hs : setLength n hdr with
      | error e => exact ⟨hdr, vs, rfl, Or.inl rfl, Or.inl rfl⟩
      | ok h' =>
        refine ⟨h', _, rfl, ?_, Or.inr rfl⟩
        unfold setLength at hs
        split at hs
        · cases hs
          refine Or.inr ⟨_, _, _, rfl, rfl, rfl, ?_⟩
          intro j v w hv hw hj
          match j, hv, hw with
          | 0, hv, hw => cases hv; cases hw; exact Or.inl rfl
          | 1, hv, hw => cases hv; cases hw; exact Or.inl rfl
          | 2, _, _ => exact absurd rfl hj
          | 3, hv, hw => cases hv; cases hw; exact Or.inl rfl
          | n + 4, hv, _ => simp at hv
        · cases hs

theorem sameMulti_post {m : MsgCls} {simple : Nat → Option Attr} {array : Nat → Option (String × Attr)} (hp : m.prep = V04.multipartPrep simple array) (ha : m.after = V04.multipartAfter) (c : String) (v : List Val) : SameMulti c (.obj c v) (m.post (.obj c v)) := by
  cases v with
  | nil => exact Or.inl rfl
  | cons hdr vs =>
    by_cases hl : ∃ t f p b, vs = [t, f, p, b]
    · obtain ⟨t, f, p, b, rfl⟩ := hl
      obtain ⟨h', vs', h1, h2, h3⟩ := post_shape m c hdr [t, f, p, b]
      rw [h1]
      have : ∃ t' b', vs' = [t', f, p, b'] ∧ SameType t t' ∧ LR anyBody b b' := by
        rcases h3 with rfl | rfl
        · exact ⟨t, b, rfl, Or.inl rfl, .eq _⟩
        · rw [ha]
          by_cases hp : pyTrue b
          · by_cases hb : ∃ g xs, b = .list g xs
            · obtain ⟨g, xs, rfl⟩ := hb
              simp only [V04.multipartAfter, if_pos hp]
              refine ⟨_, _, rfl, ?_, ?_⟩
              · split
                · exact Or.inr ⟨_, _, rfl, rfl⟩
                · exact Or.inl rfl
              · refine .list (by simp) ?_
                intro j x y hx hy
                rw [List.getElem?_map, hx] at hy
                cases hy
                exact trace_lr trace_anyBody (fun _ _ => rfl) x
            · refine ⟨t, V04.bodyPost b, ?_, Or.inl rfl, trace_lr trace_anyBody (fun _ _ => rfl) b⟩
              simp only [V04.multipartAfter, if_pos hp]
              cases b <;> first | exact absurd ⟨_, _, rfl⟩ hb | rfl
          · exact ⟨t, b, by simp only [V04.multipartAfter, if_neg hp], Or.inl rfl, .eq _⟩
      obtain ⟨t', b', rfl, h4, h5⟩ := this
      exact Or.inr ⟨_, _, _, _, _, _, _, _, rfl, rfl, h2, h4, h5⟩
    · left
      have : m.prep vs = .error .unmodelled := by
        rw [hp]
        unfold V04.multipartPrep
        split
        · exact absurd ⟨_, _, _, _, rfl⟩ hl
        · rfl
      simp only [MsgCls.post, this]

/-! ## All messages -/

/-- The law for messages. -/
def TraceMsg (m : MsgCls) : Prop := ∃ S : Val → Val → Prop, (∀ v w, S v w → m.pack v = m.pack w) ∧
  (∀ v w i q k, S v w → S (alter v (i :: q) k) (alter w (i :: q) k)) ∧ ∀ vs, S (.obj m.name vs) (m.post (.obj m.name vs))

/-- Messages with related headers and attributes. -/
def Alike (c : String) (R : List Val → List Val → Prop) (v w : Val) : Prop :=
  v = w ∨ ∃ h h' vs ws, v = .obj c (h :: vs) ∧ w = .obj c (h' :: ws) ∧ SameHeader h h' ∧ R vs ws

theorem traceMsg_of {m : MsgCls} {R : List Val → List Val → Prop}
    (obs : ∀ h h' vs ws, SameHeader h h' → R vs ws → m.pack (.obj m.name (h :: vs)) = m.pack (.obj m.name (h' :: ws)))
    (step : ∀ vs ws i q k, R vs ws → R (vs.modify i fun v => alter v q k) (ws.modify i fun v => alter v q k))
    (refl : ∀ vs, R vs vs) (post : ∀ vs, R vs (m.after vs)) : TraceMsg m := by
  refine ⟨Alike m.name R, ?_, ?_, ?_⟩
  · rintro v w (rfl | ⟨h, h', vs, ws, rfl, rfl, h1, h2⟩)
    · rfl
    · exact obs _ _ _ _ h1 h2
  · rintro v w i q k (rfl | ⟨h, h', vs, ws, rfl, rfl, h1, h2⟩)
    · exact Or.inl rfl
    · cases i with
      | zero => exact Or.inr ⟨_, _, vs, ws, rfl, rfl, h1.alter q k, h2⟩
      | succ i => exact Or.inr ⟨h, h', _, _, rfl, rfl, h1, step _ _ i q k h2⟩
  · intro vs
    cases vs with
    | nil => exact Or.inl rfl
    | cons h vs =>
      obtain ⟨h', vs', h1, h2, h3⟩ := post_shape m m.name h vs
      rw [h1]
      refine Or.inr ⟨_, _, _, _, rfl, rfl, h2, ?_⟩
      rcases h3 with rfl | rfl
      · exact refl _
      · exact post _

/-- Messages whose attributes packing does not touch. -/
theorem traceMsg_id {m : MsgCls} (ha : m.after = id) (hv : m.valid = fun _ => .ok ()) : TraceMsg m := by
  refine traceMsg_of (R := (· = ·)) ?_ (fun _ _ _ _ _ h => by subst h; rfl) (fun _ => rfl) (fun vs => by rw [ha]; rfl)
  rintro h h' vs _ hh rfl
  simp only [MsgCls.pack]
  cases m.prep vs with
  | error e => rfl
  | ok us => exact generic_same (leaves_fields m.body) hh (.refl us) (by rw [hv])

theorem traceMsg_plain {m : MsgCls} (hf : ∀ f ∈ m.body, Trace f.2) (hp : m.prep = fun vs => .ok vs) (ha : m.after = fun vs => postAttrs m.body vs)
    (hv : m.valid = fun _ => .ok ()) : TraceMsg m := by
  refine traceMsg_of (R := Agree (leaves m.body) (fun _ => False)) ?_ (fun _ _ _ _ _ h => h.modify _ _ _) .refl (fun vs => by rw [ha]; exact agree_post hf _ _)
  intro h h' vs ws hh hA
  simp only [MsgCls.pack, hp]
  exact generic_same (leaves_fields m.body) hh hA (by rw [hv])

theorem traceMsg_packetOut {m : MsgCls} {acts : Attr} {i n : Nat} (hf : ∀ f ∈ m.body, Trace f.2)
    (hport : ∀ f, (leaves m.body)[1]? = some f → IsLeaf f.2) (hi : ∃ g, (leaves m.body)[i]? = some g ∧ g.2.attr = acts) (hin : i < n) (hi2 : 2 < i)
    (hp : ∀ vs, m.prep vs = if h : vs.length = n then
      (match acts.size (vs[i]'(by omega)) with | .ok k => .ok (vs.set 2 (.int k)) | .error e => .error e) else .error .unmodelled)
    (hv : ∀ b p vs, m.valid (b :: p :: vs) = m.valid [.none, p])
    (ha : m.after = fun vs => match m.prep vs with | .ok ws => postAttrs m.body ws | .error _ => vs) : TraceMsg m := by
  refine traceMsg_of (R := Agree (leaves m.body) (· = 2)) (fun h h' vs ws hh hA => packetOut_obs (leaves_fields m.body) hport hi hin hi2 hp hv hh hA)
    (fun _ _ _ _ _ h => h.modify _ _ _) .refl ?_
  intro vs
  rw [ha]
  show Agree _ _ vs (match m.prep vs with | .ok ws => postAttrs m.body ws | .error _ => vs)
  cases hq : m.prep vs with
  | error e => exact .refl _
  | ok ws =>
    obtain ⟨x, rfl⟩ : ∃ x, ws = vs.set 2 x := by
      rw [hp] at hq
      split at hq
      · split at hq
        · cases hq; exact ⟨_, rfl⟩
        · cases hq
      · cases hq
    exact (agree_set 2 x vs).trans (agree_post hf _ _)

theorem traceMsg_multipart {m : MsgCls} {simple : Nat → Option Attr} {array : Nat → Option (String × Attr)} {rt : Ref} {rest : Fields}
    (hm : m.body = ("multipart_type", ubint 2 rt) :: rest) (hp : m.prep = V04.multipartPrep simple array) (ha : m.after = V04.multipartAfter)
    (hv : m.valid = fun _ => .ok ()) (hk : ∀ k c a, array k = some (c, a) → V04.bodyClasses.lookup c = some a) : TraceMsg m :=
  ⟨SameMulti m.name, fun _ _ h => h.pack hm hp hv hk, fun _ _ i q k h => h.alter i q k, fun vs => sameMulti_post hp ha m.name vs⟩

theorem trace_messages01 : ∀ p ∈ V01.lib.classes, TraceMsg p.2 := by
  have hA : Trace V01.actions := by
    refine trace_list (classOnly_sub _) (trace_variant ?_) (fun _ _ => rfl) (fun _ _ => rfl)
    intro s hs
    exact traceSub_same (V01.actionSub_same s hs)
  have hM : Trace V01.match := trace_struct (init := V01.matchInit) (cls := "01.Match") (fs := V01.matchFields) (by unfold V01.matchFields; trace_fields)
  have hP : Trace V01.phyPort := trace_struct (by unfold V01.phyPortFields; trace_fields)
  have hL : Trace V01.phyPorts := trace_list (classOnly_obj _) hP (fun _ _ => rfl) (fun _ _ => rfl)
  have hB : Trace V01.queueProps := trace_list (classOnly_obj _) (trace_struct (by unfold V01.queuePropHeaderFields; trace_fields)) (fun _ _ => rfl) (fun _ _ => rfl)
  have hQ : Trace V01.queues := trace_list (classOnly_obj _) (trace_struct (by unfold V01.packetQueueFields; trace_fields)) (fun _ _ => rfl) (fun _ _ => rfl)
  have hO : TraceMsg V01.packetOut := traceMsg_packetOut (acts := V01.actions) (i := 3) (n := 5)
    (by show ∀ f ∈ V01.packetOutFields, Trace f.2; unfold V01.packetOutFields; trace_fields)
    (by intro f hf; cases hf; exact ⟨⟨_, rfl⟩, rfl⟩) ⟨_, rfl, rfl⟩ (by decide) (by decide) prep_out01 (fun _ _ _ => rfl) rfl
  intro p hp
  unfold V01.lib at hp
  simp only at hp
  repeat (
    rcases List.mem_cons.1 hp with rfl | hp
    · first
      | exact hO
      | exact traceMsg_id rfl rfl
      | exact traceMsg_plain (by trace_fields) rfl rfl rfl)
  cases hp

theorem trace_messages04 : ∀ p ∈ V04.lib.classes, TraceMsg p.2 := by
  have hA := trace_actions
  have hM := trace_match
  have hI := trace_instructions
  have hK : Trace V04.buckets := trace_list (classOnly_obj _) trace_bucket (fun _ _ => rfl) (fun _ _ => rfl)
  have hH : Trace V04.helloElems := trace_list (classOnly_obj _) (trace_cut _ (trace_auto (by unfold V04.helloElemFields; trace_fields) (by slot_here))) (fun _ _ => rfl) (fun _ _ => rfl)
  have hP : Trace V04.port := trace_struct (by unfold V04.portFields; trace_fields)
  have hB : Trace V04.queueProps := trace_list (classOnly_obj _) (trace_struct (by unfold V04.queuePropHeaderFields; trace_fields)) (fun _ _ => rfl) (fun _ _ => rfl)
  have hQ : Trace V04.queues := trace_list (classOnly_obj _) (trace_struct (by unfold V04.packetQueueFields; trace_fields)) (fun _ _ => rfl) (fun _ _ => rfl)
  have hN : Trace (bareListAttr (isSub V04.bandSubs) V04.band) := by
    refine trace_bare (trace_variant ?_)
    intro s hs
    simp only [V04.bandSubs] at hs
    repeat (rcases List.mem_cons.1 hs with rfl | hs; · exact traceSub_same fun vs => postAttrs_id (by same_fields) vs)
    cases hs
  have hO : TraceMsg V04.packetOut := traceMsg_packetOut (acts := V04.actions) (i := 4) (n := 6)
    (by show ∀ f ∈ V04.packetOutFields, Trace f.2; unfold V04.packetOutFields; trace_fields)
    (by intro f hf; cases hf; exact ⟨⟨_, rfl⟩, rfl⟩) ⟨_, rfl, rfl⟩ (by decide) (by decide) prep_out04 (fun _ _ _ => rfl) rfl
  have hQ1 : TraceMsg V04.multipartRequest :=
    traceMsg_multipart (rest := V04.multipartRequestFields.drop 1) (rt := .enum V04.multipartTypes) rfl rfl rfl rfl (by
      intro k c a h
      unfold V04.requestArray at h
      split at h
      · cases h; rfl
      · cases h)
  have hQ2 : TraceMsg V04.multipartReply :=
    traceMsg_multipart (rest := V04.multipartReplyFields.drop 1) (rt := .enum V04.multipartTypes) rfl rfl rfl rfl (by
      intro k c a h
      unfold V04.replyArray at h
      split at h <;> first | (cases h; rfl) | cases h)
  intro p hp
  unfold V04.lib at hp
  simp only at hp
  repeat (
    rcases List.mem_cons.1 hp with rfl | hp
    · first
      | exact hO
      | exact hQ1
      | exact hQ2
      | exact traceMsg_plain (by trace_fields) rfl rfl rfl)
  cases hp

end Pyof.Threads
