import Verif.Spec.Errs
import Verif.Lemmas.Swallow
import Verif.Model.Body
import Verif.Model.AutoLen
/-!
# Lemmas: the exceptions of decoding, and progress in lists
-/
namespace Pyof
open Spec

variable {P : Err → Prop}

/-! ## Leaves -/

theorem ubUnpack_err {w ref buff off e} (h : ubUnpack w ref buff off = .error e) : e = .unpack := by
  simp only [ubUnpack] at h
  split at h
  · cases h; rfl
  · split at h
    · cases h; rfl
    · cases h

theorem errs_num {w ref d lo} (hu : P .unpack) : Errs P lo (ubint w ref d) where
  unpack := fun _ _ h => ubUnpack_err h ▸ hu
  usize := fun _ _ _ h => by cases h
  size := fun _ _ _ h => by cases h
  proto := fun h => by cases h

theorem errs_pad {n lo} : Errs P lo (padAttr n) where
  unpack := fun _ _ h => by cases h
  usize := fun _ _ _ h => by cases h
  size := fun _ _ _ h => by cases h
  proto := fun h => by cases h

theorem dpidLoop_err {buff : Bytes} : ∀ {k b e}, dpidLoop buff k b = .error e → e = .struct
  | 0, _, _, h => by cases h
  | k + 1, b, e, h => by
    rw [dpidLoop] at h
    split at h
    · split at h
      · cases h
      · rename_i h'
        cases h
        exact dpidLoop_err h'
    · cases h; rfl

theorem errs_dpid {lo} (hs : P .struct) : Errs P lo dpidAttr where
  unpack := fun _ _ h => by
    simp only [dpidAttr, dpidUnpack] at h
    split at h
    · cases h
    · rename_i h'
      cases h
      exact dpidLoop_err h' ▸ hs
  usize := fun _ _ _ h => by cases h
  size := fun _ _ _ h => by cases h
  proto := fun h => by cases h

theorem errs_char {n lo} (hv : P .value) (hp : P .plain) : Errs P lo (charAttr n) where
  unpack := fun _ _ h => by
    simp only [charAttr, charUnpack] at h
    split at h
    · split at h
      · cases h; exact hv
      · cases h
    · cases h; exact hp
  usize := fun _ _ _ h => by cases h
  size := fun _ _ _ h => by cases h
  proto := fun h => by cases h

theorem errs_ip {a m lo} (hu : P .unpack) : Errs P lo (ipAttr a m) where
  unpack := fun _ _ h => by
    simp only [ipAttr, ipUnpack] at h
    split at h
    · cases h
    · cases h; exact hu
  usize := fun _ _ _ h => by cases h
  size := fun _ _ _ h => by cases h
  proto := fun h => by cases h

theorem errs_hw {d lo} (hu : P .unpack) : Errs P lo (hwAttr d) where
  unpack := fun _ _ h => by
    simp only [hwAttr, hwUnpack] at h
    split at h
    · cases h
    · cases h; exact hu
  usize := fun _ _ _ h => by cases h
  size := fun _ _ _ h => by cases h
  proto := fun h => by cases h

theorem errs_bin {lo} : Errs P lo (binAttr) where
  unpack := fun _ _ h => by cases h
  usize := fun _ _ h1 h => by cases h1; cases h
  size := fun _ _ h1 h => by cases h1; cases h
  proto := fun h => by cases h

/-! ## Fields -/

def protos (fs : Fields) : List Val := fs.map (fun p => p.2.proto)

theorem unpackAttrs_empty (fs : Fields) (off : Nat) : unpackAttrs fs [] off = .ok (protos fs, off) := by
  induction fs with
  | nil => rfl
  | cons p fs ih =>
    obtain ⟨n, c⟩ := p
    simp only [unpackAttrs, unpackAttr, if_true, Nat.add_zero, ih, protos, List.map_cons]

/-- As `Errs`, for consecutive attributes; the buffer may be empty. -/
structure FErrs (P : Err → Prop) (lo : Nat) (fs : Fields) : Prop where
  unpack : ∀ {buff off e}, lo ≤ off → unpackAttrs fs buff off = .error e → P e
  size : ∀ {buff off vs n e}, lo ≤ off → unpackAttrs fs buff off = .ok (vs, n) → sizeAttrs fs vs = .error e → P e

theorem FErrs.nil {lo} : FErrs P lo [] := ⟨fun _ h => (by cases h), fun _ h1 h => (by cases h1; cases h)⟩

/-- A field of size at least `k` on decoding, then the others. -/
theorem FErrs.cons' {lo k n c fs} (hk : ∀ buff off v m, buff ≠ [] → c.unpack buff off = .ok v → c.usize v = .ok m → k ≤ m)
    (hc : Errs P lo c) (hf : FErrs P (lo + k) fs) (h0 : FErrs P lo fs ∨ ∃ m, sizeAttrs fs (protos fs) = .ok m) : FErrs P lo ((n, c) :: fs) where
  unpack := by
    intro buff off e hl h
    by_cases hb : buff = []
    · subst hb; rw [unpackAttrs_empty] at h; cases h
    simp only [unpackAttrs, unpackAttr, if_neg hb] at h
    cases hu : c.unpack buff off with
    | error e' => simp only [hu] at h; cases h; exact hc.unpack hl hb hu
    | ok v =>
      cases hs : c.usize v with
      | error e' => simp only [hu, hs] at h; cases h; exact hc.usize hl hb hu hs
      | ok m =>
        simp only [hu, hs] at h
        have := hk _ _ _ _ hb hu hs
        split at h
        · rename_i h'; cases h; exact hf.unpack (by omega) h'
        · cases h
  size := by
    intro buff off vs e0 e hl h1 h
    by_cases hb : buff = []
    · subst hb
      rw [unpackAttrs_empty] at h1
      cases h1
      simp only [protos, List.map_cons, sizeAttrs] at h
      split at h
      · rename_i h'; cases h; exact hc.proto h'
      · split at h
        · rename_i h'
          cases h
          rcases h0 with h0 | ⟨m, h0⟩
          · exact h0.size (buff := []) hl (unpackAttrs_empty _ _) h'
          · rw [protos] at h0; rw [h0] at h'; cases h'
        · cases h
    simp only [unpackAttrs, unpackAttr, if_neg hb] at h1
    cases hu : c.unpack buff off with
    | error e' => simp [hu] at h1
    | ok v =>
      cases hs : c.usize v with
      | error e' => simp [hu, hs] at h1
      | ok m =>
        simp only [hu, hs] at h1
        split at h1
        · cases h1
        · rename_i h'
          cases h1
          simp only [sizeAttrs] at h
          split at h
          · rename_i h2; cases h; exact hc.size hl hb hu h2
          · split at h
            · rename_i h2
              cases h
              have := hk _ _ _ _ hb hu hs
              exact hf.size (by omega) h' h2
            · cases h

theorem FErrs.cons {lo n c fs} (hc : Errs P lo c) (hf : FErrs P lo fs) : FErrs P lo ((n, c) :: fs) :=
  FErrs.cons' (k := 0) (fun _ _ _ _ _ _ _ => Nat.zero_le _) hc hf (.inl hf)

theorem FErrs.mono {lo lo' fs} (h : FErrs P lo fs) (hl : lo ≤ lo') : FErrs P lo' fs :=
  ⟨fun hl' => h.unpack (by omega), fun hl' => h.size (by omega)⟩

theorem Errs.mono {lo lo' c} (h : Errs P lo c) (hl : lo ≤ lo') : Errs P lo' c :=
  ⟨fun hl' => h.unpack (by omega), fun hl' => h.usize (by omega), fun hl' => h.size (by omega), h.proto⟩

theorem FErrs.append {lo fs gs} (hf : ∀ gs, FErrs P lo gs → FErrs P lo (fs ++ gs)) (hg : FErrs P lo gs) : FErrs P lo (fs ++ gs) := hf gs hg

/-! ## Structs -/

/-- As `Errs`, including empty buffers. -/
structure ErrsE (P : Err → Prop) (lo : Nat) (c : Attr) : Prop where
  unpack : ∀ {buff off e}, lo ≤ off → c.unpack buff off = .error e → P e
  usize : ∀ {buff off v e}, lo ≤ off → c.unpack buff off = .ok v → c.usize v = .error e → P e
  size : ∀ {buff off v e}, lo ≤ off → c.unpack buff off = .ok v → c.size v = .error e → P e
  proto : ∀ {e}, c.size c.proto = .error e → P e

theorem ErrsE.errs {lo c} (h : ErrsE P lo c) : Errs P lo c :=
  ⟨fun hl _ => h.unpack hl, fun hl _ => h.usize hl, fun hl _ => h.size hl, h.proto⟩

theorem errs_struct {lo cls fields init} (hf : FErrs P lo fields) (hi : ∃ n, sizeAttrs fields init = .ok n) :
    ErrsE P lo (structAttr cls fields init) := by
  have hs : ∀ {buff off v}, (structAttr cls fields init).unpack buff off = .ok v →
      ∃ vs n, unpackAttrs fields buff off = .ok (vs, n) ∧ v = .obj cls vs := by
    intro buff off v h
    simp only [structAttr] at h
    split at h
    · cases h
    · rename_i h'; cases h; exact ⟨_, _, h', rfl⟩
  refine ⟨?_, ?_, ?_, ?_⟩
  · intro buff off e hl h
    simp only [structAttr] at h
    split at h
    · rename_i h'; cases h; exact hf.unpack hl h'
    · cases h
  · intro buff off v e hl h1 h
    obtain ⟨vs, n, h2, rfl⟩ := hs h1
    simp only [structAttr, if_true] at h
    exact hf.size hl h2 h
  · intro buff off v e hl h1 h
    obtain ⟨vs, n, h2, rfl⟩ := hs h1
    simp only [structAttr, if_true] at h
    exact hf.size hl h2 h
  · intro e h
    obtain ⟨n, hn⟩ := hi
    simp only [structAttr, if_true, hn] at h
    cases h

theorem errs_auto {lo cls fields i init} (hf : FErrs P lo fields) (hi : ∃ n, sizeAttrs fields init = .ok n) :
    ErrsE P lo (autoStruct cls fields i init) :=
  have h := errs_struct (cls := cls) hf hi
  ⟨h.unpack, h.usize, h.size, h.proto⟩

theorem errs_cut {lo k c} (hu : P .unpack) (h : ErrsE P lo c) : Errs P lo (lengthCut k c) where
  unpack := by
    intro buff off e hl _ h1
    simp only [lengthCut] at h1
    split at h1
    · rename_i h'; cases h1; exact ubUnpack_err h' ▸ hu
    · exact h.unpack hl h1
  usize := by
    intro buff off v e hl _ h1
    simp only [lengthCut] at h1
    split at h1
    · cases h1
    · exact h.usize hl h1
  size := by
    intro buff off v e hl _ h1
    simp only [lengthCut] at h1
    split at h1
    · cases h1
    · exact h.size hl h1
  proto := h.proto

/-! ## Progress -/

theorem unpackAttrs_cons_ne {n c fs buff off vs e} (h : unpackAttrs ((n, c) :: fs) buff off = .ok (vs, e)) : vs ≠ [] := by
  simp only [unpackAttrs] at h
  split at h
  · cases h
  · split at h
    · cases h
    · cases h; simp

theorem sizeAttrs_num {n w ref d fs vs m} (hv : vs ≠ []) (h : sizeAttrs ((n, ubint w ref d) :: fs) vs = .ok m) : w ≤ m := by
  cases vs with
  | nil => exact absurd rfl hv
  | cons v vs =>
    simp only [sizeAttrs, ubint] at h
    split at h
    · cases h
    · cases h; omega

theorem advances_struct {cls n w ref d fs init} (hw : 0 < w) : Advances (structAttr cls ((n, ubint w ref d) :: fs) init) := by
  intro buff off v m _ h1 h2
  simp only [structAttr] at h1
  split at h1
  · cases h1
  · rename_i h'
    cases h1
    simp only [structAttr, if_true] at h2
    exact Nat.lt_of_lt_of_le hw (sizeAttrs_num (unpackAttrs_cons_ne h') h2)

theorem unpackAttrs_len : ∀ {fs : Fields} {buff off vs e}, unpackAttrs fs buff off = .ok (vs, e) → vs.length = fs.length
  | [], _, _, _, _, h => by cases h; rfl
  | (n, c) :: fs, buff, off, vs, e, h => by
    simp only [unpackAttrs] at h
    split at h
    · cases h
    · split at h
      · cases h
      · rename_i h'
        cases h
        simp [unpackAttrs_len h']

theorem sizeAttrs_mem {n w ref d} : ∀ {fs : Fields} {vs m}, vs.length = fs.length → (n, ubint w ref d) ∈ fs → sizeAttrs fs vs = .ok m → w ≤ m
  | [], _, _, _, h, _ => by simp at h
  | p :: fs, [], _, hl, _, _ => by simp at hl
  | (n', c) :: fs, v :: vs, m, hl, hm, h => by
    rcases List.mem_cons.1 hm with e | hm
    · cases e; exact sizeAttrs_num (by simp) h
    · simp only [sizeAttrs] at h
      split at h
      · cases h
      · split at h
        · cases h
        · rename_i h'
          cases h
          have := sizeAttrs_mem (by simpa using hl) hm h'
          omega

theorem advances_mem {cls n w ref d fs init} (hm : (n, ubint w ref d) ∈ fs) (hw : 0 < w) : Advances (structAttr cls fs init) := by
  intro buff off v m _ h1 h2
  simp only [structAttr] at h1
  split at h1
  · cases h1
  · rename_i h'
    cases h1
    simp only [structAttr, if_true] at h2
    exact Nat.lt_of_lt_of_le hw (sizeAttrs_mem (unpackAttrs_len h') hm h2)

theorem advances_cut {k cls n w ref d fs init i} (hw : 0 < w) :
    Advances (lengthCut k (structAttr cls ((n, ubint w ref d) :: fs) init)) ∧
    Advances (lengthCut k (autoStruct cls ((n, ubint w ref d) :: fs) i init)) := by
  constructor
  all_goals
    intro buff off v m _ h1 h2
    simp only [lengthCut, autoStruct, structAttr] at h1
    split at h1
    · cases h1
    · split at h1
      · cases h1
      · rename_i h'
        cases h1
        simp only [lengthCut, autoStruct, structAttr, if_true] at h2
        exact Nat.lt_of_lt_of_le hw (sizeAttrs_num (unpackAttrs_cons_ne h') h2)

/-- What a class of a family must do: its fields start with a number, and its size is that of its fields, possibly rounded up. -/
structure SubErrs (P : Err → Prop) (lo : Nat) (s : Sub) : Prop where
  fields : FErrs P lo s.fields
  err : ∀ {vs e}, s.size vs = .error e → sizeAttrs s.fields vs = .error e
  pos : ∀ {vs n}, vs ≠ [] → s.size vs = .ok n → 0 < n
  head : ∃ p fs, s.fields = p :: fs

theorem variantUnpack_inv {ref tr pick buff off v} (h : variantUnpack ref tr pick buff off = .ok v) :
    ∃ t s b vs n, pick t = .ok s ∧ unpackAttrs s.fields b off = .ok (vs, n) ∧ v = .obj s.name vs := by
  simp only [variantUnpack] at h
  repeat' split at h
  all_goals first
    | (cases h; done)
    | (cases h; rename_i h1 _ _ _ _ _ _ _ h2; exact ⟨_, _, _, _, _, h1, h2, rfl⟩)
    | (cases h; rename_i h1 _ _ _ _ _ _ h2; exact ⟨_, _, _, _, _, h1, h2, rfl⟩)
    | (cases h; rename_i h1 _ _ _ _ _ h2; exact ⟨_, _, _, _, _, h1, h2, rfl⟩)

theorem errs_variant {lo proto ref tr pick subs} (hu : P .unpack) (hp : ∀ {buff off t e}, ubUnpack 2 ref buff off = .ok t → pick (gotNum t) = .error e → P e)
    (hs : ∀ {t s}, pick t = .ok s → SubErrs P lo s ∧ subOf subs s.name = some s)
    (hi : ∃ n, (variantAttr proto ref tr pick subs).size proto = .ok n) : Errs P lo (variantAttr proto ref tr pick subs) where
  unpack := by
    intro buff off e hl _ h
    simp only [variantAttr, variantUnpack] at h
    split at h
    · rename_i h'; cases h; exact ubUnpack_err h' ▸ hu
    · rename_i t ht
      split at h
      · rename_i h'; cases h; exact hp ht h'
      · rename_i s hpick
        split at h
        · rename_i h'
          cases h
          split at h'
          · exact ubUnpack_err h' ▸ hu
          · cases h'
        · rename_i m hm
          split at h
          · rename_i h'; cases h; exact (hs hpick).1.fields.unpack hl h'
          · cases h
  usize := by
    intro buff off v e hl _ h1 h
    obtain ⟨t, s, b, vs, n, hpick, h2, rfl⟩ := variantUnpack_inv h1
    obtain ⟨ok, hf⟩ := hs hpick
    simp only [variantAttr, hf] at h
    exact ok.fields.size hl h2 (ok.err h)
  size := by
    intro buff off v e hl _ h1 h
    obtain ⟨t, s, b, vs, n, hpick, h2, rfl⟩ := variantUnpack_inv h1
    obtain ⟨ok, hf⟩ := hs hpick
    simp only [variantAttr, hf] at h
    exact ok.fields.size hl h2 (ok.err h)
  proto := by
    intro e h
    obtain ⟨n, hn⟩ := hi
    have : (variantAttr proto ref tr pick subs).proto = proto := rfl
    rw [this, hn] at h
    cases h

theorem advances_variant {lo proto ref tr pick subs} (hs : ∀ {t s}, pick t = .ok s → SubErrs P lo s ∧ subOf subs s.name = some s) :
    Advances (variantAttr proto ref tr pick subs) := by
  intro buff off v n _ h1 h2
  obtain ⟨t, s, b, vs, m, hpick, h3, rfl⟩ := variantUnpack_inv h1
  obtain ⟨ok, hf⟩ := hs hpick
  simp only [variantAttr, hf] at h2
  obtain ⟨⟨p, c⟩, fs, hh⟩ := ok.head
  rw [hh] at h3
  exact ok.pos (unpackAttrs_cons_ne h3) h2

/-! ## Lists -/

/-- What decoding gives are objects of the item class. -/
def Gives (it : Attr) (isItem : Val → Bool) : Prop :=
  ∀ buff off v, it.unpack buff off = .ok v → (∃ c vs, v = .obj c vs) ∧ isItem v = true

theorem addItems_all {isItem : Val → Bool} : ∀ {xs : List Val}, (∀ x ∈ xs, (∃ c vs, x = .obj c vs) ∧ isItem x = true) → addItems isItem xs = .ok xs
  | [], _ => by simp [addItems]
  | x :: xs, h => by
    obtain ⟨⟨c, vs, rfl⟩, h2⟩ := h x (by simp)
    have := addItems_all (xs := xs) (fun y hy => h y (by simp [hy]))
    simp [addItems, addItem, h2, this]

theorem unpackItems_each {it : Attr} {buff : Bytes} : ∀ {off : Nat} {xs : List Val}, unpackItems it buff off = .ok xs →
    ∀ x ∈ xs, ∃ o n, off ≤ o ∧ buff ≠ [] ∧ it.unpack buff o = .ok x ∧ it.usize x = .ok n ∧ 0 < n := by
  intro off xs h
  induction off using unpackItems.induct it buff generalizing xs with
  | case1 off hlt e he => rw [unpackItems, if_pos hlt] at h; simp [he] at h
  | case2 off hlt u hu e he => rw [unpackItems, if_pos hlt] at h; simp [hu, he] at h
  | case3 off hlt u hu he => rw [unpackItems, if_pos hlt] at h; simp [hu, he] at h
  | case4 off hlt u hu n hn hz e he ih => rw [unpackItems, if_pos hlt] at h; simp [hu, hn, hz, he] at h
  | case5 off hlt u hu n hn hz r hr ih =>
    rw [unpackItems, if_pos hlt] at h
    simp only [hu, hn, if_neg hz, hr] at h
    cases h
    intro x hx
    rcases List.mem_cons.1 hx with rfl | hx
    · exact ⟨off, n, Nat.le_refl _, by rintro rfl; simp at hlt, hu, hn, by omega⟩
    · obtain ⟨o, m, h1, h2⟩ := ih hr x hx
      exact ⟨o, m, by omega, h2⟩
  | case6 off hlt => rw [unpackItems, if_neg hlt] at h; cases h; simp

theorem unpackItems_err {it : Attr} {buff : Bytes} {lo : Nat} (hi : Errs P lo it) (ha : Advances it) : ∀ {off : Nat} {e}, lo ≤ off →
    unpackItems it buff off = .error e → P e := by
  intro off e hl h
  induction off using unpackItems.induct it buff with
  | case1 off hlt e' he =>
    rw [unpackItems, if_pos hlt] at h; simp only [he] at h; cases h
    exact hi.unpack hl (by rintro rfl; simp at hlt) he
  | case2 off hlt u hu e' he =>
    rw [unpackItems, if_pos hlt] at h; simp only [hu, he] at h; cases h
    exact hi.usize hl (by rintro rfl; simp at hlt) hu he
  | case3 off hlt u hu he => exact absurd (ha _ _ _ _ (by rintro rfl; simp at hlt) hu he) (by omega)
  | case4 off hlt u hu n hn hz e' he ih =>
    rw [unpackItems, if_pos hlt] at h
    simp only [hu, hn, if_neg hz, he] at h
    cases h
    exact ih (by omega) he
  | case5 off hlt u hu n hn hz r hr ih => rw [unpackItems, if_pos hlt] at h; simp [hu, hn, hz, hr] at h
  | case6 off hlt => rw [unpackItems, if_neg hlt] at h; cases h

theorem sizeItems_err {it : Attr} : ∀ {xs : List Val} {e}, (∀ x ∈ xs, ∀ e, it.usize x = .error e → P e) → sizeItems it xs = .error e → P e
  | [], _, _, h => by cases h
  | x :: xs, e, hx, h => by
    simp only [sizeItems] at h
    split at h
    · rename_i h'; cases h; exact hx x (by simp) _ h'
    · split at h
      · rename_i h'
        cases h
        exact sizeItems_err (fun y hy => hx y (by simp [hy])) h'
      · cases h

theorem errs_list {lo isItem it} (hi : Errs P lo it) (ha : Advances it) (hg : Gives it isItem) : ErrsE P lo (listAttr isItem it) := by
  have hs : ∀ {buff off v}, (listAttr isItem it).unpack buff off = .ok v → ∃ xs, unpackItems it buff off = .ok xs ∧ v = .list true xs := by
    intro buff off v h
    simp only [listAttr] at h
    split at h
    · cases h
    · rename_i h'; cases h; exact ⟨_, h', rfl⟩
  refine ⟨?_, ?_, ?_, fun h => by simp [listAttr, addItems, sizeItems] at h⟩
  · intro buff off e hl h
    simp only [listAttr] at h
    split at h
    · rename_i h'; cases h; exact unpackItems_err hi ha hl h'
    · cases h
  · intro buff off v e hl h1 h
    obtain ⟨xs, h2, rfl⟩ := hs h1
    simp only [listAttr] at h
    refine sizeItems_err (fun x hx e he => ?_) h
    obtain ⟨o, n, ho, hb, hu, hn, _⟩ := unpackItems_each h2 x hx
    rw [hn] at he; cases he
  · intro buff off v e hl h1 h
    obtain ⟨xs, h2, rfl⟩ := hs h1
    have hall : addItems isItem xs = .ok xs := by
      apply addItems_all
      intro x hx
      obtain ⟨o, n, ho, hb, hu, hn, _⟩ := unpackItems_each h2 x hx
      exact hg _ _ _ hu
    simp only [listAttr, hall] at h
    refine sizeItems_err (fun x hx e he => ?_) h
    obtain ⟨o, n, ho, hb, hu, hn, _⟩ := unpackItems_each h2 x hx
    rw [hn] at he; cases he

theorem errs_bare {lo isItem it} (hi : Errs P lo it) (ha : Advances it) : ErrsE P lo (bareListAttr isItem it) := by
  have hs : ∀ {buff off v}, (bareListAttr isItem it).unpack buff off = .ok v → ∃ xs, unpackItems it buff off = .ok xs ∧ v = .list true xs := by
    intro buff off v h
    simp only [bareListAttr, listAttr] at h
    split at h
    · cases h
    · rename_i h'; cases h; exact ⟨_, h', rfl⟩
  refine ⟨?_, ?_, fun _ _ h => by simp [bareListAttr] at h, fun h => by simp [bareListAttr] at h⟩
  · intro buff off e hl h
    simp only [bareListAttr, listAttr] at h
    split at h
    · rename_i h'; cases h; exact unpackItems_err hi ha hl h'
    · cases h
  · intro buff off v e hl h1 h
    obtain ⟨xs, h2, rfl⟩ := hs h1
    simp only [bareListAttr, listAttr] at h
    refine sizeItems_err (fun x hx e he => ?_) h
    obtain ⟨o, n, ho, hb, hu, hn, _⟩ := unpackItems_each h2 x hx
    rw [hn] at he; cases he

theorem gives_struct {cls fields init} : Gives (structAttr cls fields init) (isObj cls) := by
  intro buff off v h
  simp only [structAttr] at h
  split at h
  · cases h
  · cases h; exact ⟨⟨_, _, rfl⟩, by simp [isObj]⟩

theorem gives_cut {k c p} (h : Gives c p) : Gives (lengthCut k c) p := by
  intro buff off v h1
  simp only [lengthCut] at h1
  split at h1
  · cases h1
  · exact h _ _ _ h1

theorem gives_auto {cls fields i init} : Gives (autoStruct cls fields i init) (isObj cls) :=
  fun buff off v h => gives_struct (init := init) buff off v h

theorem gives_variant {proto ref tr pick subs} (hs : ∀ {t s}, pick t = .ok s → subOf subs s.name = some s) :
    Gives (variantAttr proto ref tr pick subs) (isSub subs) := by
  intro buff off v h
  obtain ⟨t, s, b, vs, m, hpick, h3, rfl⟩ := variantUnpack_inv h
  exact ⟨⟨_, _, rfl⟩, by simp [isSub, hs hpick]⟩

end Pyof
