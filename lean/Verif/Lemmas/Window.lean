import Verif.Spec.Laws
import Verif.Spec.Contract
import Verif.Lemmas.Addr
/-! Size, window, truncation and uniqueness laws of the basic types, and their preservation. -/
namespace Pyof
open Spec

/-! ## sizes -/

theorem structPack_length {w k xs b} (h : structPack w k xs = some b) : b.length = w * k := by
  unfold structPack at h
  split at h
  · rename_i hc
    cases h
    have : ∀ ys : List Int, (ys.flatMap fun x => be w x.toNat).length = w * ys.length := by
      intro ys
      induction ys with
      | nil => simp
      | cons y ys ih => simp [ih, Nat.mul_add, Nat.add_comm]
    rw [this, hc.1]
  · cases h

theorem packNum_length {w v b} (h : packNum w v = .ok b) : b.length = w := by
  cases v <;> simp only [packNum, reduceCtorEq] at h
  split at h
  · cases h; rename_i h; have := structPack_length h; omega
  · cases h

theorem sizeOK_uint (w ref dv v) : SizeOK (ubint w ref dv) v ∧ OwnSizeOK (ubint w ref dv) v := by
  have key : ∀ b, (ubint w ref dv).pack v = .ok b → b.length = w := by
    intro b h
    simp only [ubint, ubPack] at h
    split at h <;> exact packNum_length h
  constructor <;> intro b h <;> simp [ubint, key b h]

theorem sizeOK_pad (n v) : SizeOK (padAttr n) v ∧ OwnSizeOK (padAttr n) v := by
  constructor <;> intro b h <;> simp [padAttr] at h ⊢ <;> subst h <;> simp

theorem dpidPackRaw_length {v b} (h : dpidPackRaw v = .ok b) : b.length = 8 := by
  cases v <;> simp only [dpidPackRaw, reduceCtorEq] at h
  split at h
  · cases h
  · split at h
    · cases h
    · cases h; rename_i h; exact structPack_length h

theorem hwPackRaw_length {v b} (h : hwPackRaw v = .ok b) : b.length = 6 := by
  unfold hwPackRaw at h
  split at h
  · split at h
    · cases h
    · split at h
      · cases h
      · cases h; rename_i h; exact structPack_length h
  · cases h

theorem ipPackRaw_length {v b} (h : ipPackRaw v = .ok b) : b.length = 4 := by
  cases v <;> simp only [ipPackRaw, reduceCtorEq] at h
  split at h
  · cases h
  · split at h
    · cases h
    · cases h; rename_i h; exact structPack_length h

theorem ip6PackRaw_length {v b} (h : ip6PackRaw v = .ok b) : b.length = 16 := by
  cases v <;> simp only [ip6PackRaw, reduceCtorEq] at h
  split at h
  · cases h
  · split at h
    · cases h
    · cases h; rename_i h; exact structPack_length h

theorem sizeOK_dpid (v) : SizeOK dpidAttr v ∧ OwnSizeOK dpidAttr v := by
  have key : ∀ b, dpidAttr.pack v = .ok b → b.length = 8 := by
    intro b h
    simp only [dpidAttr] at h
    cases v <;> simp only [dpidPack] at h <;> exact dpidPackRaw_length h
  constructor <;> intro b h <;> simp [dpidAttr, key b h]

theorem sizeOK_hw (dv v) : SizeOK (hwAttr dv) v ∧ OwnSizeOK (hwAttr dv) v := by
  have key : ∀ b, (hwAttr dv).pack v = .ok b → b.length = 6 := by
    intro b h
    simp only [hwAttr] at h
    cases v <;> simp only [hwPack] at h <;> exact hwPackRaw_length h
  constructor <;> intro b h <;> simp [hwAttr, key b h]

theorem sizeOK_ip (a m v) : SizeOK (ipAttr a m) v ∧ OwnSizeOK (ipAttr a m) v := by
  have key : ∀ b, (ipAttr a m).pack v = .ok b → b.length = 4 := by
    intro b h
    simp only [ipAttr] at h
    cases v <;> simp only [ipPack] at h <;> exact ipPackRaw_length h
  constructor <;> intro b h <;> simp [ipAttr, key b h]

theorem sizeOK_ip6 (v) : SizeOK ip6Attr v ∧ OwnSizeOK ip6Attr v := by
  have key : ∀ b, ip6Attr.pack v = .ok b → b.length = 16 := by
    intro b h
    simp only [ip6Attr] at h
    cases v <;> simp only [ip6Pack] at h <;> exact ip6PackRaw_length h
  constructor <;> intro b h <;> simp [ip6Attr, key b h]

theorem charPackRaw_length {n v b} (hn : 0 < n) (h : charPackRaw n v = .ok b) : b.length = n := by
  cases v <;> simp only [charPackRaw, reduceCtorEq] at h
  split at h
  · cases h
  · cases h; simp; omega

theorem sizeOK_char {n v} (hn : 0 < n) (hv : ∀ x m, v = .chr x m → m = n) :
    SizeOK (charAttr n) v ∧ OwnSizeOK (charAttr n) v := by
  have key : ∀ b, (charAttr n).pack v = .ok b → b.length = n := by
    intro b h
    simp only [charAttr] at h
    cases v with
    | chr x m =>
      have := hv x m rfl
      subst this
      simp only [charPack] at h
      exact charPackRaw_length hn h
    | _ => simp only [charPack] at h; exact charPackRaw_length hn h
  constructor <;> intro b h <;> simp [charAttr, key b h]

/-- Every packable object inside a `BinaryData` knows its own size. -/
def Spec.HonestBin : Val → Prop
  | .foreign b n => n = b.length
  | .bin x => Spec.HonestBin x
  | _ => True

theorem binSize_of_pack {v b} (hv : HonestBin v) (h : binPackRaw v = .ok b) : binSizeRaw v = .ok b.length := by
  induction v using binPackRaw.induct <;> simp_all [binPackRaw, binSizeRaw, HonestBin]

theorem sizeOK_bin {v} (hv : HonestBin v) : SizeOK binAttr v ∧ OwnSizeOK binAttr v := by
  constructor
  · intro b h
    cases v <;> exact binSize_of_pack hv h
  · intro b h
    cases v <;> exact binSize_of_pack hv h

theorem sizeAttrs_ok {cs : Fields} {vs : List Val}
    (h : ∀ p ∈ cs.zip vs, SizeOK p.1.2 p.2) {b} (hb : packAttrs cs vs = .ok b) :
    sizeAttrs cs vs = .ok b.length := by
  induction cs generalizing vs b with
  | nil => simp [packAttrs, sizeAttrs] at *; subst hb; rfl
  | cons p cs ih =>
    obtain ⟨n, c⟩ := p
    cases vs with
    | nil => simp [packAttrs, sizeAttrs] at *; subst hb; rfl
    | cons v vs =>
      simp only [packAttrs] at hb
      split at hb
      · cases hb
      · rename_i x hx
        split at hb
        · cases hb
        · rename_i y hy
          cases hb
          have h1 := h ((n, c), v) (by simp) x hx
          have h2 := ih (fun q hq => h q (by simp [hq])) hy
          simp only at h1
          simp [sizeAttrs, h1, h2]

mutual
theorem addItem_flat {isItem : Val → Bool} : ∀ (v : Val) (ys : List Val), addItem isItem v = .ok ys →
    ys = flat v ∧ ∀ y ∈ ys, isItem y = true
  | .list g xs, ys, h => by
    simp only [addItem] at h
    simpa [flat] using addItems_flats xs ys h
  | .none, ys, h => by simp only [addItem] at h; split at h <;> cases h; simp_all [flat]
  | .int _, ys, h => by simp only [addItem] at h; split at h <;> cases h; simp_all [flat]
  | .enum _, ys, h => by simp only [addItem] at h; split at h <;> cases h; simp_all [flat]
  | .mask _, ys, h => by simp only [addItem] at h; split at h <;> cases h; simp_all [flat]
  | .str _, ys, h => by simp only [addItem] at h; split at h <;> cases h; simp_all [flat]
  | .bytes _, ys, h => by simp only [addItem] at h; split at h <;> cases h; simp_all [flat]
  | .ub _ _, ys, h => by simp only [addItem] at h; split at h <;> cases h; simp_all [flat]
  | .hw _, ys, h => by simp only [addItem] at h; split at h <;> cases h; simp_all [flat]
  | .ip _ _, ys, h => by simp only [addItem] at h; split at h <;> cases h; simp_all [flat]
  | .ip6 _ _, ys, h => by simp only [addItem] at h; split at h <;> cases h; simp_all [flat]
  | .dpid _, ys, h => by simp only [addItem] at h; split at h <;> cases h; simp_all [flat]
  | .chr _ _, ys, h => by simp only [addItem] at h; split at h <;> cases h; simp_all [flat]
  | .bin _, ys, h => by simp only [addItem] at h; split at h <;> cases h; simp_all [flat]
  | .pad _, ys, h => by simp only [addItem] at h; split at h <;> cases h; simp_all [flat]
  | .obj _ _, ys, h => by simp only [addItem] at h; split at h <;> cases h; simp_all [flat]
  | .foreign _ _, ys, h => by simp only [addItem] at h; split at h <;> cases h; simp_all [flat]
theorem addItems_flats {isItem : Val → Bool} : ∀ (xs ys : List Val), addItems isItem xs = .ok ys →
    ys = flat.flats xs ∧ ∀ y ∈ ys, isItem y = true
  | [], ys, h => by simp [addItems] at h; subst h; simp [flat.flats]
  | x :: xs, ys, h => by
    simp only [addItems] at h
    split at h
    · cases h
    · rename_i a ha
      split at h
      · cases h
      · rename_i r hr
        cases h
        obtain ⟨h1, h2⟩ := addItem_flat x a ha
        obtain ⟨h3, h4⟩ := addItems_flats xs r hr
        subst h1 h3
        refine ⟨by simp [flat.flats], ?_⟩
        intro y hy
        rcases List.mem_append.mp hy with hy | hy
        · exact h2 y hy
        · exact h4 y hy
end

theorem sizeItems_of_pack {it : Attr} {ys : List Val} (h : ∀ y ∈ ys, OwnSizeOK it y) {b}
    (hb : packItems it ys = .ok b) : sizeItems it ys = .ok b.length := by
  induction ys generalizing b with
  | nil => simp [packItems] at hb; subst hb; rfl
  | cons y ys ih =>
    simp only [packItems] at hb
    split at hb
    · cases hb
    · rename_i x hx
      split at hb
      · cases hb
      · rename_i z hz
        cases hb
        simp [sizeItems, h y (by simp) x hx, ih (fun w hw => h w (by simp [hw])) hz]

/-! ## windows -/

theorem slice_sub {buff buff' : Bytes} {off off' n : Nat}
    (h : slice buff off (off + n) = slice buff' off' (off' + n)) (i k : Nat) (hk : i + k ≤ n) :
    slice buff (off + i) (off + i + k) = slice buff' (off' + i) (off' + i + k) := by
  have key : ∀ (b : Bytes) (o : Nat), slice b (o + i) (o + i + k) = slice (slice b o (o + n)) i (i + k) := by
    intro b o
    unfold slice
    rw [List.take_drop, List.drop_drop, List.take_take]
    congr 2
    omega
  rw [key, key, h]

theorem slice_eq_len {buff buff' : Bytes} {off off' n : Nat} (hn : 0 < n)
    (h : slice buff off (off + n) = slice buff' off' (off' + n)) :
    off + n ≤ buff.length ↔ off' + n ≤ buff'.length := by
  have := congrArg List.length h
  rw [slice_length, slice_length] at this
  omega

theorem window_uint (w : Nat) (ref dv) (hw : 0 < w := by decide) : Window (ubint w ref dv) w where
  usize := by intros; rfl
  size := by intros; rfl
  same := by
    intro buff buff' off off' _ _ h
    simp only [ubint, ubUnpack, unpackFrom, h]
    have := slice_eq_len hw h
    by_cases h1 : off + w ≤ buff.length
    · rw [if_pos h1, if_pos (this.mp h1)]
    · rw [if_neg h1, if_neg (fun h2 => h1 (this.mpr h2))]

theorem window_pad (n : Nat) : Window (padAttr n) n where
  usize := by intros; rfl
  size := by intros; rfl
  same := by intros; rfl

theorem window_hw (dv) : Window (hwAttr dv) 6 where
  usize := by intros; rfl
  size := by intros; rfl
  same := by intro _ _ _ _ _ _ h; simp only [hwAttr, hwUnpack, h]

theorem window_ip (a m) : Window (ipAttr a m) 4 where
  usize := by intros; rfl
  size := by intros; rfl
  same := by intro _ _ _ _ _ _ h; simp only [ipAttr, ipUnpack, h]

theorem window_ip6 : Window ip6Attr 16 where
  usize := by intros; rfl
  size := by intros; rfl
  same := by intro _ _ _ _ _ _ h; simp only [ip6Attr, ip6Unpack, h]

theorem window_char (n) : Window (charAttr n) n where
  usize := by intros; rfl
  size := by intros; rfl
  same := by intro _ _ _ _ _ _ h; simp only [charAttr, charUnpack, h]

theorem dpidLoop_same {buff buff' : Bytes} : ∀ (k off off' : Nat),
    slice buff off (off + k) = slice buff' off' (off' + k) →
    dpidLoop buff k off = dpidLoop buff' k off' := by
  intro k
  induction k with
  | zero => intros; rfl
  | succ k ih =>
    intro off off' h
    have h0 := slice_sub h 0 1 (by omega)
    have h1 := slice_sub h 1 k (by omega)
    simp only [Nat.add_zero] at h0
    simp only [dpidLoop, h0, ih _ _ h1]

theorem window_dpid : Window dpidAttr 8 where
  usize := by intros; rfl
  size := by intros; rfl
  same := by intro _ _ off off' _ _ h; simp only [dpidAttr, dpidUnpack, dpidLoop_same 8 off off' h]

/-- Decoding consecutive fixed-size attributes. -/
theorem unpackAttrs_window {cs : Fields} {ws : List Nat}
    (h : Each (fun c w => Window c.2 w) cs ws) :
    (∀ buff off vs e, buff ≠ [] → unpackAttrs cs buff off = .ok (vs, e) → e = off + ws.sum) ∧
    (∀ buff buff' off off', buff ≠ [] → buff' ≠ [] →
      slice buff off (off + ws.sum) = slice buff' off' (off' + ws.sum) →
      (unpackAttrs cs buff off).map (·.1) = (unpackAttrs cs buff' off').map (·.1)) := by
  induction h with
  | nil => exact ⟨by intro _ _ _ _ _ h; simp [unpackAttrs] at h; simp [h.2], by intros; simp [unpackAttrs, Except.map]⟩
  | @cons p w cs ws hp _ ih =>
    obtain ⟨n, c⟩ := p
    have hp : Window c w := hp
    constructor
    · intro buff off vs e hne hu
      simp only [unpackAttrs, unpackAttr, if_neg hne] at hu
      cases hv : c.unpack buff off with
      | error er => simp [hv] at hu
      | ok v =>
        simp only [hv, hp.usize buff off v hne hv] at hu
        split at hu
        · cases hu
        · rename_i vs' e' hr
          cases hu
          have := ih.1 buff (off + w) _ _ hne hr
          simp only [List.sum_cons]; omega
    · intro buff buff' off off' hne hne' hs
      simp only [List.sum_cons] at hs
      have h0 := slice_sub hs 0 w (by omega)
      have h1 := slice_sub hs w ws.sum (by omega)
      simp only [Nat.add_zero] at h0
      have e1 := hp.same buff buff' off off' hne hne' h0
      have e2 := ih.2 buff buff' (off + w) (off' + w) hne hne' h1
      simp only [unpackAttrs, unpackAttr, if_neg hne, if_neg hne', e1]
      cases hv : c.unpack buff' off' with
      | error er => simp
      | ok v =>
        simp only [hp.usize buff' off' v hne' hv]
        cases hr : unpackAttrs cs buff (off + w) <;> cases hr' : unpackAttrs cs buff' (off' + w) <;>
          simp_all [Except.map]

theorem sizeAttrs_window {cs : Fields} {ws : List Nat}
    (h : Each (fun c w => Window c.2 w) cs ws)
    {buff off vs e} (hne : buff ≠ []) (hu : unpackAttrs cs buff off = .ok (vs, e)) :
    sizeAttrs cs vs = .ok ws.sum := by
  induction h generalizing off vs e with
  | nil => simp [unpackAttrs] at hu; simp [sizeAttrs]
  | @cons p w cs ws hp _ ih =>
    obtain ⟨n, c⟩ := p
    have hp : Window c w := hp
    simp only [unpackAttrs, unpackAttr, if_neg hne] at hu
    cases hv : c.unpack buff off with
    | error er => simp [hv] at hu
    | ok v =>
      have hw := hp.usize buff off v hne hv
      simp only [hv, hw] at hu
      split at hu
      · cases hu
      · rename_i vs' e' hr
        cases hu
        simp [sizeAttrs, hp.size buff off v hne hv, ih hr]

theorem sizeAttrs_needs {cs : Fields} {ws : List (Nat × Nat)}
    (h : Each (fun c w => Needs c.2 w.1 w.2) cs ws)
    {buff off vs e} (hne : buff ≠ []) (hu : unpackAttrs cs buff off = .ok (vs, e)) :
    sizeAttrs cs vs = .ok (ws.map (·.1)).sum := by
  induction h generalizing off vs e with
  | nil => simp [unpackAttrs] at hu; simp [sizeAttrs]
  | @cons p w cs ws hp _ ih =>
    obtain ⟨n, c⟩ := p
    have hp : Needs c w.1 w.2 := hp
    simp only [unpackAttrs, unpackAttr, if_neg hne] at hu
    cases hv : c.unpack buff off with
    | error er => simp [hv] at hu
    | ok v =>
      have hw := hp.usize buff off v hne hv
      simp only [hv, hw] at hu
      split at hu
      · cases hu
      · rename_i vs' e' hr
        cases hu
        simp [sizeAttrs, hp.size buff off v hne hv, ih hr]

/-! ## truncation -/

theorem needs_uint (w : Nat) (ref dv) (hw : 0 < w := by decide) : Needs (ubint w ref dv) w w where
  usize := by intros; rfl
  size := by intros; rfl
  err := by
    intro buff off e _ h
    simp only [ubint, ubUnpack] at h
    split at h
    · cases h; rfl
    · split at h <;> cases h; rfl
  short := by
    intro buff off _ _ h
    simp only [ubint, ubUnpack, unpackFrom]
    rw [if_neg (by omega)]

theorem needs_pad (n : Nat) : Needs (padAttr n) n 0 where
  usize := by intros; rfl
  size := by intros; rfl
  err := by intro _ _ _ _ h; cases h
  short := by intro _ _ _ h; omega

theorem structUnpack_short {w k : Nat} {buff : Bytes} {off n : Nat} (hn : n = w * k) (h0 : 0 < n)
    (h : buff.length < off + n) : structUnpack w k (slice buff off (off + n)) = none := by
  unfold structUnpack
  rw [if_neg]
  rw [slice_length]; omega

theorem needs_hw (dv) : Needs (hwAttr dv) 6 6 where
  usize := by intros; rfl
  size := by intros; rfl
  err := by
    intro buff off e _ h
    simp only [hwAttr, hwUnpack] at h
    split at h <;> cases h; rfl
  short := by
    intro buff off _ _ h
    simp only [hwAttr, hwUnpack, structUnpack_short (w := 1) (k := 6) rfl (by omega) h]

theorem needs_ip (a m) : Needs (ipAttr a m) 4 4 where
  usize := by intros; rfl
  size := by intros; rfl
  err := by
    intro buff off e _ h
    simp only [ipAttr, ipUnpack] at h
    split at h <;> cases h; rfl
  short := by
    intro buff off _ _ h
    simp only [ipAttr, ipUnpack, structUnpack_short (w := 1) (k := 4) rfl (by omega) h]

theorem needs_ip6 : Needs ip6Attr 16 16 where
  usize := by intros; rfl
  size := by intros; rfl
  err := by
    intro buff off e _ h
    simp only [ip6Attr, ip6Unpack] at h
    split at h <;> cases h; rfl
  short := by
    intro buff off _ _ h
    simp only [ip6Attr, ip6Unpack, structUnpack_short (w := 2) (k := 8) rfl (by omega) h]

theorem unpackAttrs_needs {cs : Fields} {ws : List (Nat × Nat)}
    (h : Each (fun c w => Needs c.2 w.1 w.2) cs ws) :
    ∀ buff off, buff ≠ [] →
      (∀ e, unpackAttrs cs buff off = .error e → e = .unpack) ∧
      (0 < needed ws → buff.length < off + needed ws → unpackAttrs cs buff off = .error .unpack) := by
  induction h with
  | nil => intro buff off _; simp [unpackAttrs, needed]
  | @cons p w cs ws hp _ ih =>
    obtain ⟨n, c⟩ := p
    obtain ⟨k, m⟩ := w
    intro buff off hne
    simp only at hp
    cases hv : c.unpack buff off with
    | error er =>
      have := hp.err buff off er hne hv
      subst this
      simp [unpackAttrs, unpackAttr, hne, hv]
    | ok v =>
      have hsz := hp.usize buff off v hne hv
      obtain ⟨i1, i2⟩ := ih buff (off + k) hne
      simp only [unpackAttrs, unpackAttr, if_neg hne, hv, hsz]
      constructor
      · intro e he
        split at he
        · cases he; rename_i h; exact i1 _ h
        · cases he
      · intro hpos hlt
        by_cases hr : needed ws = 0
        · simp only [needed, hr, if_true] at hpos hlt
          have := hp.short buff off hne hpos hlt
          rw [hv] at this; cases this
        · simp only [needed, if_neg hr] at hlt
          rw [i2 (by omega) (by omega)]

/-! ## uniqueness -/

theorem uniq_weaken {f t} (h : Uniq f false) : Uniq f t :=
  fun d d' b b' r r' h1 h2 _ h4 => h d d' b b' r r' h1 h2 (by simp) h4

theorem uniq_fixed {f : Fmt} (n : Nat) (hl : ∀ d b, f.enc d = some b → b.length = n)
    (hi : ∀ d d' b, f.enc d = some b → f.enc d' = some b → d = d') : Uniq f false := by
  intro d d' b b' r r' h1 h2 _ h4
  have := (List.append_inj h4 (by rw [hl d b h1, hl d' b' h2])).1
  subst this
  exact hi d d' b h1 h2

theorem uniq_uint (w ms dflt) : Uniq (Spec.uint w ms dflt) false :=
  uniq_fixed w (fun d b h => by obtain ⟨n, _, _, rfl⟩ := uint_enc_inv h; simp)
    (fun d d' b h h' => by
      obtain ⟨n, rfl, hn, rfl⟩ := uint_enc_inv h
      obtain ⟨m, rfl, hm, h⟩ := uint_enc_inv h'
      rw [be_inj hn hm h])

theorem uniq_pad (n) : Uniq (Spec.pad n) false :=
  uniq_fixed n (fun d b h => by cases d <;> simp [Spec.pad] at h; subst h; simp)
    (fun d d' b h h' => by cases d <;> cases d' <;> simp [Spec.pad] at h h' ⊢)

theorem uniq_raw {f : Fmt} (n) (henc : f.enc = rawEnc n) : Uniq f false :=
  uniq_fixed n (fun d b h => by rw [henc] at h; exact (rawEnc_inv h).2)
    (fun d d' b h h' => by rw [henc] at h h'; rw [(rawEnc_inv h).1, (rawEnc_inv h').1])

theorem uniq_hw (d) : Uniq (Spec.hw d) false := uniq_raw 6 rfl
theorem uniq_ip (d) : Uniq (Spec.ip d) false := uniq_raw 4 rfl
theorem uniq_ip6 (d) : Uniq (Spec.ip6 d) false := uniq_raw 16 rfl
theorem uniq_dpid : Uniq Spec.dpid false := uniq_raw 8 rfl

theorem uniq_rest : Uniq Spec.rest true := by
  intro d d' b b' r r' h1 h2 h3 h4
  obtain ⟨rfl, rfl⟩ := h3 rfl
  cases d <;> cases d' <;> simp_all [Spec.rest]

theorem uniq_struct {cls : String} {t : Bool} {fs : FieldFmts} {n g}
    (h : ∀ p ∈ fs, Uniq p.2 false) (hg : Uniq g t) : Uniq (Spec.struct cls (fs ++ [(n, g)])) t := by
  have key : ∀ (ds ds' : List Data) b b' r r', encAll (fs ++ [(n, g)]) ds = some b →
      encAll (fs ++ [(n, g)]) ds' = some b' → (t = true → r = [] ∧ r' = []) → b ++ r = b' ++ r' → ds = ds' := by
    induction fs with
    | nil =>
      intro ds ds' b b' r r' h1 h2 h3 h4
      obtain ⟨d, e, x, y, rfl, hd, he, rfl⟩ := encAll_cons_inv h1
      obtain ⟨d', e', x', y', rfl, hd', he', rfl⟩ := encAll_cons_inv h2
      obtain ⟨rfl, rfl⟩ := encAll_nil_inv he
      obtain ⟨rfl, rfl⟩ := encAll_nil_inv he'
      rw [hg d d' x x' r r' hd hd' h3 (by simpa using h4)]
    | cons p fs ih =>
      obtain ⟨m, f⟩ := p
      intro ds ds' b b' r r' h1 h2 h3 h4
      obtain ⟨d, e, x, y, rfl, hd, he, rfl⟩ := encAll_cons_inv h1
      obtain ⟨d', e', x', y', rfl, hd', he', rfl⟩ := encAll_cons_inv h2
      have hdd := h (m, f) (by simp) d d' x x' (y ++ r) (y' ++ r') hd hd' (by simp) (by simpa using h4)
      subst hdd
      have hx : x = x' := by rw [hd] at hd'; cases hd'; rfl
      subst hx
      rw [ih (fun p hp => h p (by simp [hp])) e e' y y' r r' he he' h3 (by simpa using h4)]
  intro d d' b b' r r' h1 h2 h3 h4
  obtain ⟨ds, rfl, h1⟩ := struct_enc_inv h1
  obtain ⟨ds', rfl, h2⟩ := struct_enc_inv h2
  rw [key ds ds' b b' r r' h1 h2 h3 h4]

theorem uniq_list {f : Fmt} (h : Uniq f false) (hne : NonEmpty f) : Uniq (Spec.list f) true := by
  have key : ∀ (ds ds' : List Data) b, encList f ds = some b → encList f ds' = some b → ds = ds' := by
    intro ds
    induction ds with
    | nil =>
      intro ds' b h1 h2
      simp [encList] at h1; subst h1
      cases ds' with
      | nil => rfl
      | cons d e =>
        obtain ⟨x, y, hx, _, h⟩ := encList_cons_inv h2
        obtain ⟨rfl, _⟩ := List.append_eq_nil_iff.mp h.symm
        exact absurd hx (hne d)
    | cons d e ih =>
      intro ds' b h1 h2
      obtain ⟨x, y, hx, hy, rfl⟩ := encList_cons_inv h1
      cases ds' with
      | nil =>
        simp [encList] at h2
        obtain ⟨rfl, _⟩ := h2
        exact absurd hx (hne d)
      | cons d' e' =>
        obtain ⟨x', y', hx', hy', hb⟩ := encList_cons_inv h2
        have hd := h d d' x x' y y' hx hx' (by simp) hb
        subst hd
        rw [hx] at hx'; cases hx'
        have := List.append_cancel_left hb
        subst this
        rw [ih e' y hy hy']
  intro d d' b b' r r' h1 h2 h3 h4
  obtain ⟨rfl, rfl⟩ := h3 rfl
  obtain ⟨ds, rfl, h1⟩ := list_enc_inv h1
  obtain ⟨ds', rfl, h2⟩ := list_enc_inv h2
  simp only [List.append_nil] at h4
  subst h4
  rw [key ds ds' b h1 h2]

end Pyof
