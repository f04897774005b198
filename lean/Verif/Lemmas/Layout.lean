import Verif.Spec.Layout
import Verif.Model.AutoLen
import Verif.Lemmas.Body
/-! The constructions of OpenFlow 1.3 implement their layouts. -/
namespace Pyof
open Spec

/-! ## appending field lists -/

theorem denAll_length {fs vs ds} (h : denAll fs vs = some ds) : vs.length = fs.length ∧ ds.length = fs.length := by
  induction fs generalizing vs ds with
  | nil => obtain ⟨rfl, rfl⟩ := denAll_nil_inv h; simp
  | cons p fs ih =>
    obtain ⟨n, f⟩ := p
    obtain ⟨v, r, d, e, rfl, h1, h2, rfl⟩ := denAll_cons_inv h
    have := ih h2
    simp [this]

theorem encAll_length {fs ds b} (h : encAll fs ds = some b) : ds.length = fs.length := by
  induction fs generalizing ds b with
  | nil => obtain ⟨rfl, rfl⟩ := encAll_nil_inv h; simp
  | cons p fs ih =>
    obtain ⟨n, f⟩ := p
    obtain ⟨d, r, x, y, rfl, h1, h2, rfl⟩ := encAll_cons_inv h
    simp [ih h2]

theorem denAll_append {fs gs vs ws ds es} (h1 : denAll fs vs = some ds) (h2 : denAll gs ws = some es) :
    denAll (fs ++ gs) (vs ++ ws) = some (ds ++ es) := by
  induction fs generalizing vs ds with
  | nil => obtain ⟨rfl, rfl⟩ := denAll_nil_inv h1; simpa using h2
  | cons p fs ih =>
    obtain ⟨n, f⟩ := p
    obtain ⟨v, r, d, e, rfl, h3, h4, rfl⟩ := denAll_cons_inv h1
    exact denAll_cons.mpr ⟨d, _, h3, ih h4, rfl⟩

theorem denAll_append_inv {fs gs vs ds} (h : denAll (fs ++ gs) vs = some ds) :
    ∃ vs₁ vs₂ ds₁ ds₂, vs = vs₁ ++ vs₂ ∧ ds = ds₁ ++ ds₂ ∧ denAll fs vs₁ = some ds₁ ∧ denAll gs vs₂ = some ds₂ := by
  induction fs generalizing vs ds with
  | nil => exact ⟨[], vs, [], ds, rfl, rfl, rfl, by simpa using h⟩
  | cons p fs ih =>
    obtain ⟨n, f⟩ := p
    obtain ⟨v, r, d, e, rfl, h3, h4, rfl⟩ := denAll_cons_inv h
    obtain ⟨a, b, c, e, rfl, rfl, h5, h6⟩ := ih h4
    exact ⟨v :: a, b, d :: c, e, rfl, rfl, denAll_cons.mpr ⟨_, _, h3, h5, rfl⟩, h6⟩

theorem encAll_append {fs gs ds es b c} (h1 : encAll fs ds = some b) (h2 : encAll gs es = some c) :
    encAll (fs ++ gs) (ds ++ es) = some (b ++ c) := by
  induction fs generalizing ds b with
  | nil => obtain ⟨rfl, rfl⟩ := encAll_nil_inv h1; simpa using h2
  | cons p fs ih =>
    obtain ⟨n, f⟩ := p
    obtain ⟨d, r, x, y, rfl, h3, h4, rfl⟩ := encAll_cons_inv h1
    exact encAll_cons.mpr ⟨x, _, h3, ih h4, by simp⟩

theorem encAll_append_inv {fs gs ds b} (h : encAll (fs ++ gs) ds = some b) :
    ∃ ds₁ ds₂ b₁ b₂, ds = ds₁ ++ ds₂ ∧ b = b₁ ++ b₂ ∧ encAll fs ds₁ = some b₁ ∧ encAll gs ds₂ = some b₂ := by
  induction fs generalizing ds b with
  | nil => exact ⟨[], ds, [], b, rfl, rfl, rfl, by simpa using h⟩
  | cons p fs ih =>
    obtain ⟨n, f⟩ := p
    obtain ⟨d, r, x, y, rfl, h3, h4, rfl⟩ := encAll_cons_inv h
    obtain ⟨a, b, c, e, rfl, rfl, h5, h6⟩ := ih h4
    exact ⟨d :: a, b, x ++ c, e, rfl, by simp, encAll_cons.mpr ⟨_, _, h3, h5, rfl⟩, h6⟩

theorem okAll_append {fs gs ds es} (hl : ds.length = fs.length) (h1 : okAll fs ds) (h2 : okAll gs es) :
    okAll (fs ++ gs) (ds ++ es) := by
  induction fs generalizing ds with
  | nil => cases ds <;> simp_all
  | cons p fs ih =>
    obtain ⟨n, f⟩ := p
    cases ds with
    | nil => simp at hl
    | cons d r => exact ⟨h1.1, ih (by simpa using hl) h1.2⟩

theorem sizeAttrs_set {cs : Fields} {i vs x k} (h : ∀ c, cs[i]? = some c → ∀ v, c.2.size v = .ok k) :
    sizeAttrs cs (vs.set i x) = sizeAttrs cs vs := by
  induction cs generalizing i vs with
  | nil => cases vs <;> cases i <;> simp [sizeAttrs]
  | cons p cs ih =>
    obtain ⟨n, c⟩ := p
    cases vs with
    | nil => simp
    | cons v vs =>
      cases i with
      | zero =>
        have : ∀ v, c.size v = .ok k := h (n, c) rfl
        simp only [List.set, sizeAttrs, this]
      | succ i =>
        simp only [List.set, sizeAttrs]
        rw [ih (i := i)]
        intro c' hc'
        exact h c' (by simpa using hc')

/-! ## structures that carry their own length -/

theorem ownLen_den_inv {cls fs₁ fs₂ v d} (h : (ownLen cls fs₁ fs₂).den v = some d) :
    ∃ vs₁ l vs₂ ds₁ ds₂, v = .obj cls (vs₁ ++ l :: vs₂) ∧ d = .record (ds₁ ++ ds₂) ∧ denAll fs₁ vs₁ = some ds₁ ∧
      denAll fs₂ vs₂ = some ds₂ := by
  cases v with
  | obj c vs =>
    simp only [ownLen] at h
    split at h
    · rename_i hc
      obtain ⟨rfl, hl⟩ := hc
      split at h
      · rename_i ds es h1 h2
        cases h
        refine ⟨_, vs[fs₁.length], _, ds, es, ?_, rfl, h1, h2⟩
        congr
        rw [List.getElem_cons_drop, List.take_append_drop]
      · cases h
    · cases h
  | _ => simp [ownLen] at h

theorem ownLen_den {cls fs₁ fs₂ vs₁ l vs₂ ds₁ ds₂} (h1 : denAll fs₁ vs₁ = some ds₁) (h2 : denAll fs₂ vs₂ = some ds₂) :
    (ownLen cls fs₁ fs₂).den (.obj cls (vs₁ ++ l :: vs₂)) = some (.record (ds₁ ++ ds₂)) := by
  have hl := (denAll_length h1).1
  simp only [ownLen]
  rw [if_pos ⟨trivial, by simp; omega⟩, ← hl, List.take_left]
  have : List.drop (vs₁.length + 1) (vs₁ ++ l :: vs₂) = vs₂ := by
    rw [show vs₁ ++ l :: vs₂ = (vs₁ ++ [l]) ++ vs₂ by simp]
    exact List.drop_left' (by simp)
  rw [this, h1, h2]

theorem ownLen_enc_inv {cls fs₁ fs₂ d b} (h : (ownLen cls fs₁ fs₂).enc d = some b) :
    ∃ ds₁ ds₂ b₁ b₂, d = .record (ds₁ ++ ds₂) ∧ encAll fs₁ ds₁ = some b₁ ∧ encAll fs₂ ds₂ = some b₂ ∧
      b₁.length + 2 + b₂.length < 65536 ∧ b = b₁ ++ be 2 (b₁.length + 2 + b₂.length) ++ b₂ := by
  cases d with
  | record ds =>
    simp only [ownLen] at h
    split at h
    · rename_i b₁ b₂ h1 h2
      split at h
      · rename_i hl
        cases h
        exact ⟨_, _, b₁, b₂, by rw [List.take_append_drop], h1, h2, hl, rfl⟩
      · cases h
    · cases h
  | _ => simp [ownLen] at h

theorem ownLen_enc {cls fs₁ fs₂ ds₁ ds₂} (hl : ds₁.length = fs₁.length) :
    (ownLen cls fs₁ fs₂).enc (.record (ds₁ ++ ds₂)) =
      match encAll fs₁ ds₁, encAll fs₂ ds₂ with
      | some b₁, some b₂ =>
        if b₁.length + 2 + b₂.length < 65536 then some (b₁ ++ be 2 (b₁.length + 2 + b₂.length) ++ b₂) else none
      | _, _ => none := by
  simp only [ownLen]
  rw [← hl, List.take_left, List.drop_left]
  cases encAll fs₁ ds₁ <;> cases encAll fs₂ ds₂ <;> rfl

theorem ownLen_ok {cls fs₁ fs₂ ds₁ ds₂} (hl : ds₁.length = fs₁.length) (h : (ownLen cls fs₁ fs₂).ok (.record (ds₁ ++ ds₂))) :
    okAll fs₁ ds₁ ∧ okAll fs₂ ds₂ := by
  simp only [ownLen] at h
  rwa [← hl, List.take_left, List.drop_left] at h

theorem nonEmpty_ownLen {cls fs₁ fs₂} : NonEmpty (ownLen cls fs₁ fs₂) := by
  intro d h
  obtain ⟨ds₁, ds₂, b₁, b₂, _, _, _, _, hb⟩ := ownLen_enc_inv h
  have := congrArg List.length hb
  simp at this
  omega

/-- What a class declaration must look like. -/
structure LenImpl (t : Bool) (cs : Fields) (i : Nat) (fs₁ fs₂ : FieldFmts) : Prop where
  split : ∃ n dflt, Impl t cs (fs₁ ++ (n, uint 2 none dflt) :: fs₂)
  size : ∀ c, cs[i]? = some c → ∀ v, c.2.size v = .ok 2
  idx : i = fs₁.length

theorem LenImpl.set {t cs i fs₁ fs₂ cls vs d} (h : LenImpl t cs i fs₁ fs₂)
    (hd : (ownLen cls fs₁ fs₂).den (.obj cls vs) = some d) :
    ∃ ds₁ ds₂ n dflt, Impl t cs (fs₁ ++ (n, uint 2 none dflt) :: fs₂) ∧ d = .record (ds₁ ++ ds₂) ∧ ds₁.length = fs₁.length ∧
      ∀ k : Nat, denAll (fs₁ ++ (n, uint 2 none dflt) :: fs₂) (vs.set i (.int k)) = some (ds₁ ++ .num k :: ds₂) := by
  obtain ⟨n, dflt, hi⟩ := h.split
  obtain ⟨vs₁, l, vs₂, ds₁, ds₂, hv, rfl, h1, h2⟩ := ownLen_den_inv hd
  cases hv
  refine ⟨ds₁, ds₂, n, dflt, hi, rfl, (denAll_length h1).2, fun k => ?_⟩
  have hl := (denAll_length h1).1
  have : (vs₁ ++ l :: vs₂).set i (.int k) = vs₁ ++ .int k :: vs₂ := by
    rw [h.idx, ← hl, List.set_append_right _ _ (by omega)]
    simp
  rw [this]
  refine denAll_append h1 (denAll_cons.mpr ⟨_, _, ?_, h2, rfl⟩)
  simp [uint, numOf]

theorem encAll_len {fs₁ fs₂ n dflt ds₁ ds₂} {k : Nat} (hl : ds₁.length = fs₁.length) {b} :
    encAll (fs₁ ++ (n, uint 2 none dflt) :: fs₂) (ds₁ ++ .num k :: ds₂) = some b ↔
      ∃ b₁ b₂, encAll fs₁ ds₁ = some b₁ ∧ encAll fs₂ ds₂ = some b₂ ∧ k < 65536 ∧ b = b₁ ++ be 2 k ++ b₂ := by
  constructor
  · intro h
    obtain ⟨es₁, es₂, b₁, b₂, h1, rfl, h2, h3⟩ := encAll_append_inv h
    have hl2 := encAll_length h2
    obtain ⟨rfl, rfl⟩ := List.append_inj h1 (by omega)
    obtain ⟨x, y, h4, h5, rfl⟩ := encAll_cons.mp h3
    obtain ⟨m, h6, h7, rfl⟩ := uint_enc_inv h4
    cases h6
    exact ⟨b₁, y, h2, h5, by simpa using h7, by simp⟩
  · rintro ⟨b₁, b₂, h1, h2, hk, rfl⟩
    rw [List.append_assoc]
    refine encAll_append h1 (encAll_cons.mpr ⟨be 2 k, b₂, ?_, h2, rfl⟩)
    have p2 : (256 : Nat) ^ 2 = 65536 := by decide
    simp [uint, hk]

theorem LenImpl.sizes {t cs i fs₁ fs₂ cls vs d b} (h : LenImpl t cs i fs₁ fs₂)
    (hd : (ownLen cls fs₁ fs₂).den (.obj cls vs) = some d) (he : (ownLen cls fs₁ fs₂).enc d = some b) :
    sizeAttrs cs vs = .ok b.length := by
  obtain ⟨ds₁, ds₂, n, dflt, hi, rfl, hl, hs⟩ := h.set hd
  obtain ⟨es₁, es₂, b₁, b₂, h1, h2, h3, h4, rfl⟩ := ownLen_enc_inv he
  have hl2 := encAll_length h2
  obtain ⟨rfl, rfl⟩ := List.append_inj (Data.record.inj h1) (by omega)
  rw [← sizeAttrs_set h.size (x := .int (0 : Nat))]
  rw [(hi.encs _ _ (hs 0)).2 (b₁ ++ be 2 0 ++ b₂) ((encAll_len hl).mpr ⟨b₁, b₂, h2, h3, by omega, rfl⟩)]
  simp

theorem LenImpl.packs {t cs i fs₁ fs₂ cls vs d} (h : LenImpl t cs i fs₁ fs₂)
    (hd : (ownLen cls fs₁ fs₂).den (.obj cls vs) = some d) (b : Bytes) :
    autoPack cs i vs = .ok b ↔ (ownLen cls fs₁ fs₂).enc d = some b := by
  constructor
  · intro hp
    obtain ⟨ds₁, ds₂, n, dflt, hi, rfl, hl, hs⟩ := h.set hd
    simp only [autoPack, withLength] at hp
    cases hz : sizeAttrs cs vs with
    | error e => simp [hz] at hp
    | ok k =>
      simp only [hz] at hp
      obtain ⟨b₁, b₂, h1, h2, hk, rfl⟩ := (encAll_len hl).mp (((hi.encs _ _ (hs k)).1 b).mp hp)
      rw [← sizeAttrs_set h.size (x := .int (0 : Nat))] at hz
      rw [(hi.encs _ _ (hs 0)).2 (b₁ ++ be 2 0 ++ b₂) ((encAll_len hl).mpr ⟨b₁, b₂, h1, h2, by omega, rfl⟩)] at hz
      simp at hz
      have hz : k = b₁.length + 2 + b₂.length := by omega
      subst hz
      rw [ownLen_enc hl, h1, h2]
      simp [hk]
  · intro he
    have hz := h.sizes hd he
    obtain ⟨ds₁, ds₂, n, dflt, hi, rfl, hl, hs⟩ := h.set hd
    obtain ⟨es₁, es₂, b₁, b₂, h1, h2, h3, h4, rfl⟩ := ownLen_enc_inv he
    have hl2 := encAll_length h2
    obtain ⟨rfl, rfl⟩ := List.append_inj (Data.record.inj h1) (by omega)
    simp only [autoPack, withLength, hz]
    refine ((hi.encs _ _ (hs _)).1 _).mpr ((encAll_len hl).mpr ⟨b₁, b₂, h2, h3, ?_, ?_⟩)
    · simp; omega
    · congr 3; simp; omega

theorem LenImpl.unpacks {t cs i fs₁ fs₂ cls} (h : LenImpl t cs i fs₁ fs₂) {d b} (pre post : Bytes)
    (he : (ownLen cls fs₁ fs₂).enc d = some b) (ho : (ownLen cls fs₁ fs₂).ok d) (ht : t = true → post = [])
    (hne : pre ++ b ++ post ≠ []) :
    ∃ vs, unpackAttrs cs (pre ++ b ++ post) pre.length = .ok (vs, pre.length + b.length) ∧
      (ownLen cls fs₁ fs₂).den (.obj cls vs) = some d := by
  obtain ⟨ds₁, ds₂, b₁, b₂, rfl, h2, h3, h4, rfl⟩ := ownLen_enc_inv he
  have hl := encAll_length h2
  obtain ⟨ho1, ho2⟩ := ownLen_ok hl ho
  obtain ⟨n, dflt, hi⟩ := h.split
  obtain ⟨vs, hvs, hden⟩ := hi.decs (ds₁ ++ .num (b₁.length + 2 + b₂.length) :: ds₂) _ pre post
    ((encAll_len hl).mpr ⟨b₁, b₂, h2, h3, h4, rfl⟩)
    (okAll_append hl ho1 ⟨(by intro ms hm; cases hm), ho2⟩) ht hne
  refine ⟨vs, hvs, ?_⟩
  obtain ⟨vs₁, vs₂, es₁, es₂, rfl, he1, h5, h6⟩ := denAll_append_inv hden
  have hl2 := (denAll_length h5).2
  obtain ⟨rfl, rfl⟩ := List.append_inj he1 (by omega)
  obtain ⟨v, r, d, e, rfl, h7, h8, h9⟩ := denAll_cons_inv h6
  cases h9
  exact ownLen_den h5 h8

theorem LenImpl.enc {t cs i fs₁ fs₂} (h : LenImpl t cs i fs₁ fs₂) (cls : String) (init : List Val) :
    Enc (autoStruct cls cs i init) (ownLen cls fs₁ fs₂) where
  pack := by
    intro v d hv b
    obtain ⟨vs₁, l, vs₂, ds₁, ds₂, rfl, _⟩ := ownLen_den_inv hv
    simp only [autoStruct, if_true]
    exact h.packs hv b
  size := by
    intro v d b hv he
    obtain ⟨vs₁, l, vs₂, ds₁, ds₂, rfl, _⟩ := ownLen_den_inv hv
    simp only [autoStruct, structAttr, if_true]
    exact h.sizes hv he
  usize := by
    intro v d b _ hv he
    obtain ⟨vs₁, l, vs₂, ds₁, ds₂, rfl, _⟩ := ownLen_den_inv hv
    simp only [autoStruct, structAttr, if_true]
    exact h.sizes hv he

theorem LenImpl.dec {t cs i fs₁ fs₂} (h : LenImpl t cs i fs₁ fs₂) (cls : String) (init : List Val) :
    Dec (autoStruct cls cs i init) (ownLen cls fs₁ fs₂) t where
  unpack := by
    intro d b pre post he ho ht hne
    obtain ⟨vs, hvs, hden⟩ := h.unpacks pre post he ho ht hne
    exact ⟨.obj cls vs, by simp only [autoStruct, structAttr, hvs], hden, by simp⟩
  empty := fun d he => absurd he (nonEmpty_ownLen d)

/-- As a class of a family selected by the first field. -/
theorem LenImpl.sub {t cs i fs₁ fs₂} (h : LenImpl t cs i fs₁ fs₂) (name : String) {ms dflt}
    (h0 : ∃ n, fs₁ = [(n, uint 2 ms dflt)]) : SubOk (autoSub name cs i) (ownLen name fs₁ fs₂) t where
  pack := fun vs d hd b => h.packs hd b
  size := fun vs d b hd he => h.sizes hd he
  unpack := by
    intro d b pre post he ho ht hb
    obtain ⟨vs, hvs, hden⟩ := h.unpacks pre post he ho ht hb
    exact ⟨vs, _, hvs, hden⟩
  type := by
    intro t' ds b he
    obtain ⟨ds₁, ds₂, b₁, b₂, h1, h2, h3, h4, rfl⟩ := ownLen_enc_inv he
    obtain ⟨n, rfl⟩ := h0
    obtain ⟨d, r, x, y, rfl, h5, h6, rfl⟩ := encAll_cons_inv h2
    obtain ⟨rfl, rfl⟩ := encAll_nil_inv h6
    obtain ⟨k, rfl, hk, rfl⟩ := uint_enc_inv h5
    cases h1
    exact ⟨by simpa using hk, be 2 _ ++ b₂, by rw [List.append_nil, List.append_assoc]⟩

/-- Every encoding announces its own length. -/
def SelfSized (k : Nat) (f : Fmt) : Prop := ∀ d b, f.enc d = some b → Sized k b

theorem slice_between {a b c : Bytes} : slice (a ++ b ++ c) a.length (a.length + b.length) = b := by
  simp [slice, List.drop_take]

theorem selfSized_ownLen {cls fs₁ fs₂ k} (h : ∀ ds b, encAll fs₁ ds = some b → b.length = k) :
    SelfSized k (ownLen cls fs₁ fs₂) := by
  intro d b he
  obtain ⟨ds₁, ds₂, b₁, b₂, h1, h2, h3, h4, rfl⟩ := ownLen_enc_inv he
  have hk := h _ _ h2
  constructor
  · have := slice_between (a := b₁) (b := be 2 (b₁.length + 2 + b₂.length)) (c := b₂)
    rw [hk] at this ⊢
    simp only [be_length'] at this
    rw [this]
    simp [hk]
    congr 1
    omega
  · simp; omega

theorem selfSized_union {k sel lay} (h : ∀ t c, sel t = some c → SelfSized k (lay c)) : SelfSized k (union sel lay) := by
  intro d b he
  obtain ⟨c, t, ds, rfl, hc, he⟩ := union_enc_inv he
  exact h t c hc _ _ he

theorem dec_undelimit {c f k t} (h : Dec c (delimited k f) t) (hs : SelfSized k f) : Dec c f t where
  unpack := by
    intro d b pre post he ho ht hne
    refine h.unpack d b pre post he ⟨ho, fun b' he' => ?_⟩ ht hne
    exact hs d b' he'
  empty := h.empty

theorem itemOk_ownLen {cls fs₁ fs₂} : ItemOk (isObj cls) (ownLen cls fs₁ fs₂) where
  isItem := by
    intro x d hx
    obtain ⟨_, _, _, _, _, rfl, _⟩ := ownLen_den_inv hx
    simp [isObj]
  notList := by
    intro x d hx
    obtain ⟨_, _, _, _, _, rfl, _⟩ := ownLen_den_inv hx
    simp

/-! ## lengths of encodings -/

def FixedLen (f : Fmt) (n : Nat) : Prop := ∀ d b, f.enc d = some b → b.length = n
def FixedLens (fs : FieldFmts) (n : Nat) : Prop := ∀ ds b, encAll fs ds = some b → b.length = n

theorem fixed_uint {w ms dflt} : FixedLen (uint w ms dflt) w := by
  intro d b h
  obtain ⟨n, _, _, rfl⟩ := uint_enc_inv h
  simp
theorem fixed_pad {n} : FixedLen (pad n) n := by
  intro d b h
  cases d <;> simp [pad] at h
  subst h; simp
theorem fixed_nil : FixedLens [] 0 := by
  intro ds b h
  obtain ⟨_, rfl⟩ := encAll_nil_inv h
  rfl
theorem fixed_cons {n f fs k m j} (h1 : FixedLen f k) (h2 : FixedLens fs m) (hj : k + m = j) : FixedLens ((n, f) :: fs) j := by
  intro ds b h
  obtain ⟨d, r, x, y, rfl, h3, h4, rfl⟩ := encAll_cons_inv h
  simp [h1 _ _ h3, h2 _ _ h4, hj]

theorem fixed_sub {n f fs k j} (h1 : FixedLen f k) (h2 : FixedLens fs (j - k)) (hj : k ≤ j) : FixedLens ((n, f) :: fs) j :=
  fixed_cons h1 h2 (by omega)

/-- Prove `FixedLens fs n` for a literal `n`. -/
macro "fixed_len" : tactic => `(tactic| repeat' first
  | exact fixed_nil
  | refine fixed_sub (by first | exact fixed_uint | exact fixed_pad) ?_ (by decide))

/-! ## contents with a side condition -/

theorem enc_orDefault {c f d} (h : Enc c f) (hp : ∀ b, c.pack .none = .ok b ↔ f.enc d = some b)
    (hs : ∀ b, f.enc d = some b → c.size .none = .ok b.length) : Enc c (orDefault d f) where
  pack := by
    intro v d' hv b
    by_cases hvn : v = .none
    · subst hvn; simp only [orDefault] at hv; cases hv; exact hp b
    · have : f.den v = some d' := by cases v <;> simp_all [orDefault]
      exact h.pack v d' this b
  size := by
    intro v d' b hv he
    by_cases hvn : v = .none
    · subst hvn; simp only [orDefault] at hv; cases hv; exact hs b he
    · have : f.den v = some d' := by cases v <;> simp_all [orDefault]
      exact h.size v d' b this he
  usize := by
    intro v d' b hvn hv he
    have : f.den v = some d' := by cases v <;> simp_all [orDefault]
    exact h.usize v d' b hvn this he

theorem dec_orDefault {c f d t} (h : Dec c f t) (hn : f.den .none = none) : Dec c (orDefault d f) t where
  unpack := by
    intro d' b pre post he ho ht hne
    obtain ⟨u, h1, h2, h3⟩ := h.unpack d' b pre post he ho ht hne
    exact ⟨u, h1, by cases u <;> simp_all [orDefault], h3⟩
  empty := by
    intro d' he
    have := h.empty d' he
    generalize c.proto = u at this ⊢
    cases u <;> simp_all [orDefault]

theorem exact_den_inv {k f v d} (h : (Spec.exact k f).den v = some d) :
    f.den v = some d ∧ ∀ b, f.enc d = some b → Sized k b := by
  simp only [Spec.exact] at h
  split at h
  · rename_i d' hd
    split at h
    · rename_i b he
      split at h
      · rename_i hs; cases h; exact ⟨hd, fun b' he' => by rw [he] at he'; cases he'; exact hs⟩
      · cases h
    · rename_i he
      cases h; exact ⟨hd, fun b' he' => by rw [he] at he'; cases he'⟩
  · cases h

theorem exact_enc_inv {k f d b} (h : (Spec.exact k f).enc d = some b) : f.enc d = some b ∧ Sized k b := by
  simp only [Spec.exact] at h
  split at h
  · split at h
    · rename_i b' he hs; cases h; exact ⟨he, hs⟩
    · cases h
  · cases h

theorem exact_enc {k f d b} (h : f.enc d = some b) (hs : Sized k b) : (Spec.exact k f).enc d = some b := by
  simp only [Spec.exact, h, if_pos hs]

theorem exact_den {k f v d b} (h : f.den v = some d) (he : f.enc d = some b) (hs : Sized k b) :
    (Spec.exact k f).den v = some d := by
  simp only [Spec.exact, h, he, if_pos hs]

theorem selfSized_exact {k f} : SelfSized k (Spec.exact k f) := fun _ _ h => (exact_enc_inv h).2

theorem nonEmpty_exact {k f} (h : NonEmpty f) : NonEmpty (Spec.exact k f) := fun d he => h d (exact_enc_inv he).1

theorem itemOk_exact {isItem k f} (h : ItemOk isItem f) : ItemOk isItem (Spec.exact k f) :=
  ⟨fun x d hx => h.isItem x d (exact_den_inv hx).1, fun x d hx => h.notList x d (exact_den_inv hx).1⟩

/-- If the size is right for objects with the right length, the class implements the exact format. -/
theorem enc_exact {c f k} (hp : ∀ v d, f.den v = some d → ∀ b, c.pack v = .ok b ↔ f.enc d = some b)
    (hs : ∀ v d b, f.den v = some d → f.enc d = some b → Sized k b → c.size v = .ok b.length ∧ c.usize v = .ok b.length) :
    Enc c (Spec.exact k f) where
  pack := by
    intro v d hv b
    obtain ⟨h1, h2⟩ := exact_den_inv hv
    rw [hp v d h1]
    constructor
    · intro h; exact exact_enc h (h2 b h)
    · intro h; exact (exact_enc_inv h).1
  size := by
    intro v d b hv he
    obtain ⟨h1, h2⟩ := exact_den_inv hv
    obtain ⟨h3, h4⟩ := exact_enc_inv he
    exact (hs v d b h1 h3 h4).1
  usize := by
    intro v d b _ hv he
    obtain ⟨h1, h2⟩ := exact_den_inv hv
    obtain ⟨h3, h4⟩ := exact_enc_inv he
    exact (hs v d b h1 h3 h4).2

theorem dec_exact {c f k t} (h : Dec c f t) : Dec c (Spec.exact k f) t where
  unpack := by
    intro d b pre post he ho ht hne
    obtain ⟨h1, h2⟩ := exact_enc_inv he
    obtain ⟨u, h3, h4, h5⟩ := h.unpack d b pre post h1 ho ht hne
    exact ⟨u, h3, exact_den h4 h1 h2, h5⟩
  empty := by
    intro d he
    obtain ⟨h1, h2⟩ := exact_enc_inv he
    exact exact_den (h.empty d h1) h1 h2

theorem noItems_den_inv {v d} (h : noItems.den v = some d) : (v = .none ∨ v = .list true []) ∧ d = .arr [] := by
  simp only [noItems] at h
  split at h
  · cases h; exact ⟨.inl rfl, rfl⟩
  · cases h; exact ⟨.inr rfl, rfl⟩
  · cases h

theorem enc_noItems {isItem it} : Enc (bareListAttr isItem it) noItems where
  pack := by
    intro v d hv b
    obtain ⟨rfl | rfl, rfl⟩ := noItems_den_inv hv <;> simp [bareListAttr, packItems, noItems]
  size := by
    intro v d b hv he
    obtain ⟨rfl | rfl, rfl⟩ := noItems_den_inv hv <;> simp [noItems] at he <;> subst he <;> rfl
  usize := by
    intro v d b hn hv he
    obtain ⟨rfl | rfl, rfl⟩ := noItems_den_inv hv
    · exact absurd rfl hn
    · simp [noItems] at he
      subst he; rfl

theorem dec_noItems {isItem it} : Dec (bareListAttr isItem it) noItems true where
  unpack := by
    intro d b pre post he ho ht hne
    simp only [noItems] at he
    split at he
    · cases he
      cases ht rfl
      refine ⟨.list true [], ?_, rfl, by simp⟩
      simp only [bareListAttr, listAttr]
      rw [unpackItems, if_neg (by simp)]
    · cases he
  empty := by
    intro d he
    simp only [noItems] at he
    split at he
    · rfl
    · cases he

theorem rest8_den_inv {v d} (h : rest8.den v = some d) : ∃ b, d = .raw b ∧ b.length % 8 = 0 ∧ rest.den v = some d := by
  simp only [rest8] at h
  split at h
  · split at h
    · cases h; exact ⟨_, rfl, by assumption, by assumption⟩
    · cases h
  · cases h

theorem enc_rest8 : Enc (binAttr) rest8 where
  pack := by
    intro v d hv b
    obtain ⟨x, rfl, hx, hr⟩ := rest8_den_inv hv
    rw [enc_rest.pack v _ hr b]
    simp [rest8, rest, hx]
  size := by
    intro v d b hv he
    obtain ⟨x, rfl, hx, hr⟩ := rest8_den_inv hv
    simp [rest8, hx] at he
    exact enc_rest.size v _ b hr (by simp [rest, he])
  usize := by
    intro v d b hn hv he
    obtain ⟨x, rfl, hx, hr⟩ := rest8_den_inv hv
    simp [rest8, hx] at he
    exact enc_rest.usize v _ b hn hr (by simp [rest, he])

theorem dec_rest8 : Dec (binAttr) rest8 true where
  unpack := by
    intro d b pre post he ho ht hne
    cases d <;> simp [rest8] at he
    obtain ⟨h8, rfl⟩ := he
    rename_i x
    obtain ⟨u, h1, h2, h3⟩ := dec_rest.unpack (.raw x) x pre post rfl trivial ht hne
    exact ⟨u, h1, by simp [rest8, h2, h8], h3⟩
  empty := by
    intro d he
    cases d <;> simp [rest8] at he
    obtain ⟨h8, rfl⟩ := he
    rfl

end Pyof
