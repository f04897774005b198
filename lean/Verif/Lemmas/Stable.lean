import Verif.Spec.Union
import Verif.Spec.Layout
import Verif.Lemmas.Laws
import Verif.Lemmas.Leaf
import Verif.Lemmas.Addr
import Verif.Lemmas.Variant
/-!
# Decoding arbitrary bytes and encoding the result again: leaves, structs, lists

`Stab U f tail tot s`: whatever `U` decodes from any non-empty buffer and has a content, has one that can be encoded, and
the encoding is decoded to the same content again.  Bytes that were read (not merely skipped as padding) are inside the
buffer, so the encoding ends at most `s` bytes behind its end.

The encoding need not be available completely when it is decoded again: it is enough to have as many bytes of it as
there were in the original buffer (`Back`).  This is what happens to structures that announce a length that cuts off
their last padding.

* `tail`: if nothing followed originally then nothing may follow in the second decoding either.
* `tot`: everything that is decoded has a content.
-/
namespace Pyof
open Spec

abbrev Unpacker := Bytes → Nat → Res Val

/-- The buffer `buff` at `off` has the bytes `b`, or at least the first `avail` of them if it ends there. -/
structure Avail (tail : Bool) (avail : Nat) (b buff : Bytes) (off j : Nat) (post : Bytes) : Prop where
  ne : buff ≠ []
  le : avail ≤ j
  eq : buff.drop off = b.take j ++ post
  cut : j < b.length → post = []
  last : tail = true → avail ≤ b.length → post = []

def Back (U : Unpacker) (f : Fmt) (tail : Bool) (avail : Nat) (d : Data) (b : Bytes) : Prop :=
  ∀ buff off j post, Avail tail avail b buff off j post → ∃ u, U buff off = .ok u ∧ f.den u = some d ∧ u ≠ .none

def Stab (U : Unpacker) (f : Fmt) (tail tot : Bool) (s : Nat) : Prop :=
  ∀ buff off u, buff ≠ [] → max off buff.length + s < 65536 → U buff off = .ok u →
    u ≠ .none ∧ (tot = true → ∃ d, f.den u = some d) ∧
    ∀ d, f.den u = some d → ∃ b, f.enc d = some b ∧ off + b.length ≤ max off buff.length + s ∧
      Back U f tail (buff.length - off) d b

theorem Avail.weaken {tail t' avail b buff off j post} (h : Avail tail avail b buff off j post)
    (ht : t' = true → tail = true) : Avail t' avail b buff off j post :=
  ⟨h.ne, h.le, h.eq, h.cut, fun h1 => h.last (ht h1)⟩

/-- A structure that does not care what follows it may be last. -/
theorem Stab.tail {U f tot s} (h : Stab U f false tot s) (t : Bool) : Stab U f t tot s := by
  intro buff off u hb hs hu
  obtain ⟨h1, h2, h3⟩ := h buff off u hb hs hu
  refine ⟨h1, h2, fun d hd => ?_⟩
  obtain ⟨b, he, hl, hk⟩ := h3 d hd
  exact ⟨b, he, hl, fun buff' off' j post ha => hk _ _ _ _ (ha.weaken (by simp))⟩

theorem Stab.partial {U f t tot s} (h : Stab U f t tot s) : Stab U f t false s := by
  intro buff off u hb hs hu
  obtain ⟨h1, h2, h3⟩ := h buff off u hb hs hu
  exact ⟨h1, by simp, h3⟩

theorem Stab.mono {U f t tot s s'} (h : Stab U f t tot s) (hs : s ≤ s') : Stab U f t tot s' := by
  intro buff off u hb hl hu
  obtain ⟨h1, h2, h3⟩ := h buff off u hb (by omega) hu
  refine ⟨h1, h2, fun d hd => ?_⟩
  obtain ⟨b, he, hl, hk⟩ := h3 d hd
  exact ⟨b, he, by omega, hk⟩

/-- With all bytes there, the buffer splits. -/
theorem Avail.split {tail avail b buff off j post} (h : Avail tail avail b buff off j post) (hj : b.length ≤ avail)
    (hb : b ≠ []) : buff = buff.take off ++ b ++ post ∧ (buff.take off).length = off := by
  have e : b.take j = b := List.take_of_length_le (by have := h.le; omega)
  have h1 := h.eq
  rw [e] at h1
  have hlt : off ≤ buff.length := by
    have := congrArg List.length h1
    simp only [List.length_drop, List.length_append] at this
    have := List.length_pos_iff.2 hb
    omega
  exact ⟨by rw [List.append_assoc, ← h1, List.take_append_drop], by simp; omega⟩

/-! ## Leaves -/

theorem ubUnpack_read {w : Nat} {ref : Ref} {buff off u} (h : ubUnpack w ref buff off = .ok u) :
    ∃ n, off + w ≤ buff.length ∧ n = beVal (slice buff off (off + w)) ∧ n < 256 ^ w ∧ gotNum u = n ∧ numOf u = some n ∧
      (∀ ms, ref.members = some ms → n ∈ ms) ∧ u ≠ .none ∧ (∃ x, refApply ref n = some x ∧ u = .ub w x) := by
  simp only [ubUnpack] at h
  cases h1 : unpackFrom w buff off with
  | none => rw [h1] at h; cases h
  | some n =>
    rw [h1] at h
    simp only at h
    unfold unpackFrom at h1
    split at h1
    · next hl =>
      simp only [Option.some.injEq] at h1
      have hn : n < 256 ^ w := by
        have := beVal_lt (slice buff off (off + w))
        rw [slice_full_length hl, h1] at this
        exact this
      refine ⟨n, hl, h1.symm, hn, ?_⟩
      cases ref with
      | none => simp only [refApply] at h; cases h; exact ⟨by simp [gotNum], by simp [numOf], by simp [Ref.members], by simp, _, rfl, rfl⟩
      | mask => simp only [refApply] at h; cases h; exact ⟨by simp [gotNum], by simp [numOf], by simp [Ref.members], by simp, _, rfl, rfl⟩
      | enum ms =>
        simp only [refApply] at h
        by_cases hm : n ∈ ms
        · simp [hm] at h
          cases h
          exact ⟨by simp [gotNum], by simp [numOf], by simpa [Ref.members] using hm, by simp, _, by simp [refApply, hm], rfl⟩
        · simp [hm] at h
    · cases h1

theorem stab_uint (w : Nat) (ref : Ref) (dv : Val) (dflt : Option Nat) (hw : 0 < w := by decide) :
    Stab (ubint w ref dv).unpack (Spec.uint w ref.members dflt) false true 0 := by
  intro buff off u hb _ hu
  obtain ⟨n, hl, _, hn, _, h2, h3, h4, _⟩ := ubUnpack_read (show ubUnpack w ref buff off = .ok u from hu)
  have hden : (Spec.uint w ref.members dflt).den u = some (.num n) := by
    cases u <;> first | exact absurd rfl h4 | simp [Spec.uint, h2]
  refine ⟨h4, fun _ => ⟨_, hden⟩, ?_⟩
  intro d hd
  rw [hden] at hd
  cases hd
  have henc : (Spec.uint w ref.members dflt).enc (.num n) = some (be w n) := by simp [Spec.uint, hn]
  refine ⟨be w n, henc, by simp; omega, ?_⟩
  intro buff' off' j post ha
  obtain ⟨e1, e2⟩ := ha.split (by simp; omega) (by
    intro h
    have := congrArg List.length h
    simp at this; omega)
  have := (dec_uint w ref dv dflt hw).unpack (.num n) _ (buff'.take off') post henc h3 (by simp) (by rw [← e1]; exact ha.ne)
  rw [← e1, e2] at this
  exact this

/-- Attributes of `n` bytes that accept all of them. -/
theorem stab_fixed {c f n} (hd : Dec c f false) (hn : 0 < n)
    (hall : ∀ b : Bytes, b.length = n → ∃ d, f.enc d = some b ∧ f.ok d)
    (hl : ∀ buff off u, c.unpack buff off = .ok u → off + n ≤ buff.length) : Stab c.unpack f false true 0 := by
  intro buff off u hb _ hu
  have h := hl buff off u hu
  have hw := split_window (b := buff) (i := off) (w := n) h
  have hlen := slice_full_length h
  obtain ⟨d, he, hk⟩ := hall _ hlen
  have ht : (buff.take off).length = off := by simp; omega
  obtain ⟨u', hu', hden, hne⟩ := hd.unpack d _ (buff.take off) (buff.drop (off + n)) he hk (by simp) (by rw [← hw]; exact hb)
  rw [← hw, ht, hu] at hu'
  cases hu'
  refine ⟨hne, fun _ => ⟨d, hden⟩, ?_⟩
  intro d' hd'
  rw [hden] at hd'
  cases hd'
  refine ⟨_, he, by rw [hlen]; omega, ?_⟩
  intro buff' off' j post ha
  obtain ⟨e1, e2⟩ := ha.split (by rw [hlen]; omega) (by
    intro h
    rw [h] at hlen
    simp at hlen; omega)
  have := hd.unpack d _ (buff'.take off') post he hk (by simp) (by rw [← e1]; exact ha.ne)
  rw [← e1, e2] at this
  exact this

theorem structUnpack_len {w k : Nat} {buff : Bytes} {off : Nat} {xs} (hp : 0 < w * k)
    (h : structUnpack w k (slice buff off (off + w * k)) = some xs) : off + w * k ≤ buff.length := by
  unfold structUnpack at h
  split at h
  · next hl => rw [slice_length] at hl; omega
  · cases h

theorem stab_hw (dv : Val) (dflt) : Stab (hwAttr dv).unpack (Spec.hw dflt) false true 0 := by
  refine stab_fixed (n := 6) (dec_hw dv dflt) (by decide) (fun b hb => ⟨.raw b, by simp [Spec.hw, rawEnc, hb], trivial⟩) ?_
  intro buff off u hu
  simp only [hwAttr, hwUnpack] at hu
  cases h : structUnpack 1 6 (slice buff off (off + 6)) with
  | none => rw [h] at hu; cases hu
  | some xs => exact structUnpack_len (w := 1) (k := 6) (by decide) h

theorem stab_ip (addr : Str) (m : Int) (dflt) : Stab (ipAttr addr m).unpack (Spec.ip dflt) false true 0 := by
  refine stab_fixed (n := 4) (dec_ip addr m dflt) (by decide) (fun b hb => ⟨.raw b, by simp [Spec.ip, rawEnc, hb], trivial⟩) ?_
  intro buff off u hu
  simp only [ipAttr, ipUnpack] at hu
  cases h : structUnpack 1 4 (slice buff off (off + 4)) with
  | none => rw [h] at hu; cases hu
  | some xs => exact structUnpack_len (w := 1) (k := 4) (by decide) h

theorem stab_ip6 (dflt) : Stab ip6Attr.unpack (Spec.ip6 dflt) false true 0 := by
  refine stab_fixed (n := 16) (dec_ip6 dflt) (by decide) (fun b hb => ⟨.raw b, by simp [Spec.ip6, rawEnc, hb], trivial⟩) ?_
  intro buff off u hu
  simp only [ip6Attr, ip6Unpack] at hu
  cases h : structUnpack 2 8 (slice buff off (off + 16)) with
  | none => rw [h] at hu; cases hu
  | some xs => exact structUnpack_len (w := 2) (k := 8) (by decide) h

theorem dpidLoop_len {buff : Bytes} : ∀ k begin {xs}, dpidLoop buff k begin = .ok xs → 0 < k → begin + k ≤ buff.length := by
  intro k
  induction k with
  | zero => intro _ _ _ h; omega
  | succ k ih =>
    intro begin xs h _
    simp only [dpidLoop] at h
    split at h
    · next n hn =>
      have h1 := structUnpack_len (w := 1) (k := 1) (by decide) hn
      cases h2 : dpidLoop buff k (begin + 1) with
      | error e => rw [h2] at h; cases h
      | ok r =>
        by_cases hk : 0 < k
        · have := ih _ h2 hk; omega
        · omega
    · cases h

theorem stab_dpid : Stab dpidAttr.unpack Spec.dpid false true 0 := by
  refine stab_fixed (n := 8) dec_dpid (by decide) (fun b hb => ⟨.raw b, by simp [Spec.dpid, rawEnc, hb], trivial⟩) ?_
  intro buff off u hu
  simp only [dpidAttr, dpidUnpack] at hu
  cases h : dpidLoop buff 8 off with
  | error e => rw [h] at hu; cases hu
  | ok xs => exact dpidLoop_len 8 off h (by decide)

theorem stab_pad (n) : Stab (padAttr n).unpack (Spec.pad n) false true n := by
  intro buff off u _ _ hu
  simp only [padAttr] at hu
  cases hu
  refine ⟨by simp, fun _ => ⟨.unit, rfl⟩, ?_⟩
  intro d hd
  simp [Spec.pad] at hd
  subst hd
  refine ⟨List.replicate n 0, rfl, by simp; omega, ?_⟩
  intro buff' off' j post _
  exact ⟨.pad n, rfl, rfl, by simp⟩

theorem stab_rest : Stab (binAttr).unpack Spec.rest true true 0 := by
  intro buff off u _ _ hu
  simp only [binAttr] at hu
  cases hu
  refine ⟨by simp, fun _ => ⟨_, rfl⟩, ?_⟩
  intro d hd
  simp [Spec.rest] at hd
  subst hd
  refine ⟨buff.drop off, rfl, by simp; omega, ?_⟩
  intro buff' off' j post ha
  have hp := ha.last rfl (by simp)
  subst hp
  have e := ha.eq
  rw [List.take_of_length_le (by have := ha.le; simpa using this), List.append_nil] at e
  exact ⟨.bin (.bytes (buff'.drop off')), rfl, by simp [Spec.rest, e], by simp⟩

theorem asciiDecode_small {b : Bytes} {s : Str} (h : asciiDecode b = some s) :
    s.length = b.length ∧ ∀ c ∈ s, c.toNat < 128 := by
  unfold asciiDecode at h
  split at h
  · next hs =>
    cases h
    refine ⟨by simp, ?_⟩
    intro c hc
    obtain ⟨x, hx, rfl⟩ := List.mem_map.mp hc
    have := hs x hx
    have e : (Char.ofNat x.toNat).toNat = x.toNat := by
      have hv : x.toNat.isValidChar := by unfold Nat.isValidChar; omega
      simp only [Char.ofNat, hv, ↓reduceDIte]
      rfl
    rw [e]; exact this
  · cases h

theorem stab_text {n : Nat} (hn : 0 < n := by decide) : Stab (charAttr n).unpack (Spec.text n) false true 0 := by
  intro buff off u hb _ hu
  simp only [charAttr, charUnpack] at hu
  split at hu
  · next hl =>
    rw [slice_length] at hl
    cases h1 : asciiDecode (slice buff off (off + n)) with
    | none => rw [h1] at hu; cases hu
    | some s =>
      rw [h1] at hu
      cases hu
      obtain ⟨_, hs⟩ := asciiDecode_small h1
      obtain ⟨k, hk⟩ := rstripNul_split s
      have hs' : ∀ c ∈ rstripNul s, c.toNat < 128 := fun c hc => hs c (by rw [hk]; simp [hc])
      obtain ⟨c1, c2, c3⟩ := clip_props (s := rstripNul s) hn
      have hden : (Spec.text n).den (.chr (.str (rstripNul s)) n) = some (.text (clip n (rstripNul s))) := by
        simp only [Spec.text]
        rw [if_pos ⟨trivial, hs'⟩]
      have henc := text_enc_eq.mpr ⟨c1, fun c hc => hs' c (c3 c hc), c2, rfl⟩
      refine ⟨by simp, fun _ => ⟨_, hden⟩, ?_⟩
      intro d hd
      rw [hden] at hd
      cases hd
      refine ⟨_, henc, by simp; omega, ?_⟩
      intro buff' off' j post ha
      obtain ⟨e1, e2⟩ := ha.split (by simp; omega) (by
        intro h
        have := congrArg List.length h
        simp at this; omega)
      have := (dec_text hn).unpack _ _ (buff'.take off') post henc trivial (by simp) (by rw [← e1]; exact ha.ne)
      rw [← e1, e2] at this
      exact this
  · cases hu

/-! ## Structs -/

/-- What remains for the first of two consecutive fields. -/
theorem Avail.left {tail avail b₁ b₂ buff off j post} (h : Avail tail avail (b₁ ++ b₂) buff off j post) :
    Avail false avail b₁ buff off j (b₂.take (j - b₁.length) ++ post) where
  ne := h.ne
  le := h.le
  eq := by rw [h.eq, List.take_append, List.append_assoc]
  cut := by
    intro hj
    have := h.cut (by simp; omega)
    subst this
    have : j - b₁.length = 0 := by omega
    simp [this]
  last := by simp

theorem Avail.right {tail avail b₁ b₂ buff off j post} (h : Avail tail avail (b₁ ++ b₂) buff off j post) :
    Avail tail (avail - b₁.length) b₂ buff (off + b₁.length) (j - b₁.length) post where
  ne := h.ne
  le := by have := h.le; omega
  eq := by
    rw [← List.drop_drop, h.eq, List.take_append]
    by_cases hj : j < b₁.length
    · have := h.cut (by simp; omega)
      subst this
      have : j - b₁.length = 0 := by omega
      simp [this]; omega
    · rw [List.take_of_length_le (by omega), List.append_assoc, List.drop_left']
      rfl
  cut := fun hj => h.cut (by simp; omega)
  last := fun ht hl => h.last ht (by simp; omega)

/-- The last item of a list. -/
theorem Avail.leftLast {avail b₁ b₂ buff off j post t} (h : Avail true avail (b₁ ++ b₂) buff off j post)
    (h2 : avail ≤ b₁.length → b₂ = []) : Avail t avail b₁ buff off j (b₂.take (j - b₁.length) ++ post) where
  ne := h.ne
  le := h.le
  eq := h.left.eq
  cut := h.left.cut
  last := by
    intro _ hl
    have := h2 hl
    subst this
    have := h.last rfl (by simpa using hl)
    simp [this]

def BackRun (cs : Fields) (fs : FieldFmts) (tail : Bool) (avail : Nat) (ds : List Data) (b : Bytes) : Prop :=
  ∀ buff off j post, Avail tail avail b buff off j post →
    ∃ vs, unpackAttrs cs buff off = .ok (vs, off + b.length) ∧ denAll fs vs = some ds

/-- The same for consecutive attributes. -/
def StabRun (cs : Fields) (fs : FieldFmts) (tail tot : Bool) (s : Nat) : Prop :=
  ∀ buff off vs e, buff ≠ [] → max off buff.length + s < 65536 → unpackAttrs cs buff off = .ok (vs, e) →
    (tot = true → ∃ ds, denAll fs vs = some ds) ∧
    ∀ ds, denAll fs vs = some ds → ∃ b, encAll fs ds = some b ∧ e = off + b.length ∧ e ≤ max off buff.length + s ∧
      BackRun cs fs tail (buff.length - off) ds b

theorem run_nil {t} : StabRun [] [] t true 0 := by
  intro buff off vs e _ _ hu
  simp only [unpackAttrs] at hu
  cases hu
  refine ⟨fun _ => ⟨[], rfl⟩, ?_⟩
  intro ds hd
  simp only [denAll] at hd
  cases hd
  exact ⟨[], rfl, rfl, by omega, fun buff' off' j post _ => ⟨[], by simp [unpackAttrs], rfl⟩⟩

private theorem run_step {c f tot s cs fs tail tot' s'} {n m : String} {t1 : Bool}
    (he : Enc c f) (hs : Stab c.unpack f t1 tot s) (h : StabRun cs fs tail tot' s')
    (hl : ∀ {avail b₁ b₂ buff off j post}, Avail tail avail (b₁ ++ b₂) buff off j post → (∃ ds, encAll fs ds = some b₂) →
      ∃ post', Avail t1 avail b₁ buff off j post') :
    StabRun ((n, c) :: cs) ((m, f) :: fs) tail (tot && tot') (s + s') := by
  intro buff off vs e hb hmax hu
  simp only [unpackAttrs, unpackAttr, if_neg hb] at hu
  cases h1 : c.unpack buff off with
  | error x => rw [h1] at hu; cases hu
  | ok u =>
    rw [h1] at hu
    obtain ⟨hne, htot, hden⟩ := hs buff off u hb (by omega) h1
    simp only at hu
    cases h2 : c.usize u with
    | error x => rw [h2] at hu; cases hu
    | ok k =>
      rw [h2] at hu
      simp only at hu
      cases h3 : unpackAttrs cs buff (off + k) with
      | error x => rw [h3] at hu; cases hu
      | ok p =>
        obtain ⟨r, e'⟩ := p
        rw [h3] at hu
        cases hu
        refine ⟨?_, ?_⟩
        · intro ht
          simp only [Bool.and_eq_true] at ht
          obtain ⟨d, hd⟩ := htot ht.1
          obtain ⟨b, heb, hle, _⟩ := hden d hd
          have hk := he.usize u d b hne hd heb
          rw [h2] at hk
          cases hk
          obtain ⟨ds, hds⟩ := (h buff _ _ _ hb (by omega) h3).1 ht.2
          exact ⟨d :: ds, denAll_cons.mpr ⟨_, _, hd, hds, rfl⟩⟩
        · intro ds' hds'
          obtain ⟨d, ds, hd, hds, rfl⟩ := denAll_cons.mp hds'
          obtain ⟨b, heb, hle, hk1⟩ := hden d hd
          have hk := he.usize u d b hne hd heb
          rw [h2] at hk
          cases hk
          obtain ⟨b2, heb2, hee, hle2, hk2⟩ := (h buff _ _ _ hb (by omega) h3).2 ds hds
          refine ⟨b ++ b2, encAll_cons.mpr ⟨_, _, heb, heb2, rfl⟩, by simp; omega, by omega, ?_⟩
          intro buff' off' j post ha
          obtain ⟨post', ha'⟩ := hl ha ⟨_, heb2⟩
          obtain ⟨u', hu', hd', hn'⟩ := hk1 _ _ _ _ ha'
          have ha2 := ha.right
          rw [← show buff.length - (off + b.length) = buff.length - off - b.length by omega] at ha2
          obtain ⟨vs', hv', hds''⟩ := hk2 _ _ _ _ ha2
          refine ⟨u' :: vs', ?_, denAll_cons.mpr ⟨_, _, hd', hds'', rfl⟩⟩
          simp only [unpackAttrs, unpackAttr, if_neg ha.ne, hu', he.usize u' d b hn' hd' heb, hv']
          simp; omega

theorem run_cons {c f tot s cs fs tail tot' s'} {n m : String} (he : Enc c f) (hs : Stab c.unpack f false tot s)
    (h : StabRun cs fs tail tot' s') : StabRun ((n, c) :: cs) ((m, f) :: fs) tail (tot && tot') (s + s') :=
  run_step he hs h fun ha _ => ⟨_, ha.left⟩

/-- Only the last attribute may depend on what follows. -/
theorem run_last {c f tot s} {n m : String} (he : Enc c f) (hs : Stab c.unpack f true tot s) :
    StabRun [(n, c)] [(m, f)] true tot s := by
  have := run_step (n := n) (m := m) he hs run_nil (tail := true) (by
    intro avail b₁ b₂ buff off j post ha ⟨ds, h2⟩
    have : b₂ = [] := by cases ds with | nil => simpa [encAll, eq_comm] using h2 | cons => simp [encAll] at h2
    exact ⟨_, ha.leftLast fun _ => this⟩)
  simpa using this

theorem StabRun.tail {cs fs tot s} (h : StabRun cs fs false tot s) (t : Bool) : StabRun cs fs t tot s := by
  intro buff off vs e hb hs hu
  obtain ⟨h2, h3⟩ := h buff off vs e hb hs hu
  refine ⟨h2, fun d hd => ?_⟩
  obtain ⟨b, he, hl, hm, hk⟩ := h3 d hd
  exact ⟨b, he, hl, hm, fun buff' off' j post ha => hk _ _ _ _ (ha.weaken (by simp))⟩

theorem StabRun.partial {cs fs t tot s} (h : StabRun cs fs t tot s) : StabRun cs fs t false s := by
  intro buff off vs e hb hs hu
  obtain ⟨h2, h3⟩ := h buff off vs e hb hs hu
  exact ⟨by simp, h3⟩

theorem StabRun.mono {cs fs t tot s s'} (h : StabRun cs fs t tot s) (hs : s ≤ s') : StabRun cs fs t tot s' := by
  intro buff off vs e hb hl hu
  obtain ⟨h2, h3⟩ := h buff off vs e hb (by omega) hu
  refine ⟨h2, fun d hd => ?_⟩
  obtain ⟨b, he, hl, hm, hk⟩ := h3 d hd
  exact ⟨b, he, hl, by omega, hk⟩

/-- The attributes of a class, decoded one after the other. -/
def objUnpack (cls : String) (cs : Fields) : Unpacker := fun buff off =>
  match unpackAttrs cs buff off with
  | .error e => .error e
  | .ok (vs, _) => .ok (.obj cls vs)

theorem structAttr_unpack (cls cs init) : (structAttr cls cs init).unpack = objUnpack cls cs := rfl

theorem objUnpack_ok {cls cs buff off u} (h : objUnpack cls cs buff off = .ok u) :
    ∃ vs e, unpackAttrs cs buff off = .ok (vs, e) ∧ u = .obj cls vs := by
  simp only [objUnpack] at h
  cases h1 : unpackAttrs cs buff off with
  | error x => rw [h1] at h; cases h
  | ok p => obtain ⟨vs, e⟩ := p; rw [h1] at h; cases h; exact ⟨vs, e, rfl, rfl⟩

theorem StabRun.obj {cs fs t tot s} (h : StabRun cs fs t tot s) (cls : String) :
    Stab (objUnpack cls cs) (Spec.struct cls fs) t tot s := by
  intro buff off u hb hm hu
  obtain ⟨vs, e, h1, rfl⟩ := objUnpack_ok hu
  obtain ⟨ht, hden⟩ := h buff off vs e hb hm h1
  refine ⟨by simp, ?_, ?_⟩
  · intro htot
    obtain ⟨ds, hds⟩ := ht htot
    exact ⟨.record ds, by simp [Spec.struct, hds]⟩
  · intro d hd
    obtain ⟨ws, ds, hw, hds, rfl⟩ := struct_den_inv hd
    cases hw
    obtain ⟨b, heb, hee, hle, hk⟩ := hden ds hds
    refine ⟨b, heb, by omega, ?_⟩
    intro buff' off' j post ha
    obtain ⟨vs', hv, hd'⟩ := hk _ _ _ _ ha
    exact ⟨.obj cls vs', by simp [objUnpack, hv], by simp [Spec.struct, hd'], by simp⟩

theorem StabRun.struct {cs fs t tot s} (h : StabRun cs fs t tot s) (cls : String) (init : List Val) :
    Stab (structAttr cls cs init).unpack (Spec.struct cls fs) t tot s := h.obj cls

/-! ## Lists -/

theorem unpackItems_stab {it f t tot s} (he : Enc it f) (hs : Stab it.unpack f t tot s) (buff : Bytes) : ∀ k off xs,
    buff.length - off = k → max off buff.length + s < 65536 → unpackItems it buff off = .ok xs →
    (tot = true → ∃ ds, optMap f.den xs = some ds) ∧
    ∀ ds, optMap f.den xs = some ds → ∃ b, encList f ds = some b ∧ (buff.length ≤ off → b = []) ∧
      buff.length ≤ off + b.length ∧ off + b.length ≤ max off buff.length + s ∧
      ∀ buff' off' j, buff.length - off ≤ j → buff'.drop off' = b.take j →
        ∃ xs', unpackItems it buff' off' = .ok xs' ∧ optMap f.den xs' = some ds := by
  intro k
  induction k using Nat.strongRecOn with
  | _ k ih =>
    intro off xs hk hm hu
    rw [unpackItems] at hu
    split at hu
    · next hlt =>
      have hb : buff ≠ [] := by rintro rfl; simp at hlt
      cases h1 : it.unpack buff off with
      | error x => rw [h1] at hu; cases hu
      | ok u =>
        rw [h1] at hu
        obtain ⟨hne, htot, hden⟩ := hs buff off u hb hm h1
        simp only at hu
        cases h2 : it.usize u with
        | error x => rw [h2] at hu; cases hu
        | ok n =>
          rw [h2] at hu
          simp only at hu
          split at hu
          · cases hu
          · next hn =>
            cases h3 : unpackItems it buff (off + n) with
            | error x => rw [h3] at hu; cases hu
            | ok r =>
              rw [h3] at hu
              cases hu
              refine ⟨?_, ?_⟩
              · intro ht
                obtain ⟨d, hd⟩ := htot ht
                obtain ⟨b, heb, hle, _⟩ := hden d hd
                have hk' := he.usize u d b hne hd heb
                rw [h2] at hk'
                cases hk'
                by_cases hend : buff.length ≤ off + b.length
                · rw [unpackItems, if_neg (by omega)] at h3
                  cases h3
                  exact ⟨[d], by simp [optMap, hd]⟩
                · obtain ⟨ds, hds⟩ := (ih (buff.length - (off + b.length)) (by omega) _ _ rfl (by omega) h3).1 ht
                  exact ⟨d :: ds, by simp [optMap, hd, hds]⟩
              · intro ds' hds'
                obtain ⟨d, ds, hd, hds, rfl⟩ := optMap_cons_inv hds'
                obtain ⟨b, heb, hle, hk1⟩ := hden d hd
                have hk' := he.usize u d b hne hd heb
                rw [h2] at hk'
                cases hk'
                have hrest : ∃ b2, encList f ds = some b2 ∧ (buff.length ≤ off + b.length → b2 = []) ∧
                    buff.length ≤ off + b.length + b2.length ∧ off + b.length + b2.length ≤ max off buff.length + s ∧
                    ∀ buff' off' j, buff.length - (off + b.length) ≤ j → buff'.drop off' = b2.take j →
                      ∃ xs', unpackItems it buff' off' = .ok xs' ∧ optMap f.den xs' = some ds := by
                  by_cases hend : buff.length ≤ off + b.length
                  · rw [unpackItems, if_neg (by omega)] at h3
                    cases h3
                    simp only [optMap] at hds
                    cases hds
                    refine ⟨[], rfl, fun _ => rfl, by simpa using hend, by simpa using hle, ?_⟩
                    intro buff' off' j _ hd'
                    simp at hd'
                    exact ⟨[], by rw [unpackItems, if_neg (by omega)], rfl⟩
                  · obtain ⟨b2, h4, h5, h6, h7, h8⟩ := (ih (buff.length - (off + b.length)) (by omega) _ _ rfl (by omega) h3).2 ds hds
                    exact ⟨b2, h4, h5, h6, by omega, h8⟩
                obtain ⟨b2, heb2, hnil, hge, hle2, hk2⟩ := hrest
                refine ⟨b ++ b2, by simp [encList, heb, heb2], by omega, by simp; omega, by simp; omega, ?_⟩
                intro buff' off' j hj hd'
                have hne' : buff'.drop off' ≠ [] := by
                  rw [hd']
                  intro h0
                  have := congrArg List.length h0
                  rw [List.length_take, List.length_append] at this
                  simp only [List.length_nil] at this
                  omega
                have hlt' : off' < buff'.length := by
                  rcases Nat.lt_or_ge off' buff'.length with h | h
                  · exact h
                  · exact absurd (List.drop_eq_nil_of_le h) hne'
                have hb' : buff' ≠ [] := by rintro rfl; simp at hlt'
                have ha : Avail true (buff.length - off) (b ++ b2) buff' off' j [] :=
                  ⟨hb', hj, by simpa using hd', fun _ => rfl, fun _ _ => rfl⟩
                obtain ⟨u', hu', hd1, hn'⟩ := hk1 _ _ _ _ (ha.leftLast (t := t) fun h => hnil (by omega))
                obtain ⟨xs', hx', hd2⟩ := hk2 buff' (off' + b.length) (j - b.length) (by omega) (by simpa using ha.right.eq)
                refine ⟨u' :: xs', ?_, by simp [optMap, hd1, hd2]⟩
                rw [unpackItems, if_pos hlt', hu']
                simp only [he.usize u' d b hn' hd1 heb]
                rw [if_neg hn, hx']
    · next hge =>
      cases hu
      refine ⟨fun _ => ⟨[], rfl⟩, ?_⟩
      intro ds hds
      simp only [optMap] at hds
      cases hds
      refine ⟨[], rfl, fun _ => rfl, by simp; omega, by simp; omega, ?_⟩
      intro buff' off' j _ hd'
      simp at hd'
      exact ⟨[], by rw [unpackItems, if_neg (by omega)], rfl⟩

/-- The items of a list, as decoded by `FixedTypeList.unpack`. -/
theorem stab_list {isItem it f t tot s} (he : Enc it f) (hs : Stab it.unpack f t tot s) :
    Stab (listAttr isItem it).unpack (Spec.list f) true tot s := by
  intro buff off u hb hm hu
  simp only [listAttr] at hu
  cases h1 : unpackItems it buff off with
  | error x => rw [h1] at hu; cases hu
  | ok xs =>
    rw [h1] at hu
    cases hu
    obtain ⟨h2, h3⟩ := unpackItems_stab he hs buff _ off xs rfl hm h1
    refine ⟨by simp, ?_, ?_⟩
    · intro ht
      obtain ⟨ds, hds⟩ := h2 ht
      exact ⟨.arr ds, by simp [Spec.list, hds]⟩
    · intro d hd
      simp only [Spec.list, Option.map_eq_some_iff] at hd
      obtain ⟨ds, hds, rfl⟩ := hd
      obtain ⟨b, heb, hnil, hge, hle, hk⟩ := h3 ds hds
      refine ⟨b, heb, hle, ?_⟩
      intro buff' off' j post ha
      have hp := ha.last rfl (by omega)
      subst hp
      obtain ⟨xs', hx, hd'⟩ := hk _ _ _ ha.le (by simpa using ha.eq)
      exact ⟨.list true xs', by simp [listAttr, hx], by simp [Spec.list, hd'], by simp⟩

/-- The same attribute with the same contents under another name of the format. -/
theorem Stab.congr {U f g t tot s} (h : Stab U f t tot s) (hd : ∀ buff off u, U buff off = .ok u → g.den u = f.den u)
    (he : g.enc = f.enc) : Stab U g t tot s := by
  intro buff off u hb hm hu
  obtain ⟨h1, h2, h3⟩ := h buff off u hb hm hu
  refine ⟨h1, by rw [hd _ _ _ hu]; exact h2, ?_⟩
  intro d hd'
  rw [hd _ _ _ hu] at hd'
  obtain ⟨b, h4, h5, h6⟩ := h3 d hd'
  refine ⟨b, by rw [he]; exact h4, h5, ?_⟩
  intro buff' off' j post ha
  obtain ⟨u', h7, h8, h9⟩ := h6 _ _ _ _ ha
  exact ⟨u', h7, by rw [hd _ _ _ h7]; exact h8, h9⟩

theorem stab_bareList {isItem it f t tot s} (he : Enc it f) (hs : Stab it.unpack f t tot s) :
    Stab (bareListAttr isItem it).unpack (Spec.bareList f) true tot s := by
  refine (stab_list (isItem := isItem) he hs).congr ?_ rfl
  intro buff off u hu
  simp only [listAttr] at hu
  cases h1 : unpackItems it buff off with
  | error x => rw [h1] at hu; cases hu
  | ok xs => rw [h1] at hu; cases hu; rfl

theorem stab_atMostOne {isItem it f t tot s} (he : Enc it f) (hs : Stab it.unpack f t tot s) :
    Stab (listAttr isItem it).unpack (Spec.atMostOne f) true tot s :=
  (stab_list he hs).congr (fun _ _ _ _ => rfl) rfl

theorem stab_delimited {U f t tot s} (k : Nat) (h : Stab U f t tot s) : Stab U (Spec.delimited k f) t tot s :=
  h.congr (fun _ _ _ _ => rfl) rfl

theorem stab_noItems {isItem it} : Stab (bareListAttr isItem it).unpack Spec.noItems true false 0 := by
  intro buff off u hb hm hu
  simp only [bareListAttr, listAttr] at hu
  cases h1 : unpackItems it buff off with
  | error x => rw [h1] at hu; cases hu
  | ok xs =>
    rw [h1] at hu
    cases hu
    refine ⟨by simp, by simp, ?_⟩
    intro d hd
    cases xs with
    | cons x r => simp [Spec.noItems] at hd
    | nil =>
      simp only [Spec.noItems] at hd
      cases hd
      have hlen : buff.length ≤ off := by
        rw [unpackItems] at h1
        split at h1
        · split at h1
          · cases h1
          · split at h1
            · cases h1
            · split at h1
              · cases h1
              · split at h1 <;> cases h1
        · omega
      refine ⟨[], rfl, by simp; omega, ?_⟩
      intro buff' off' j post ha
      have hp := ha.last rfl (by simp; omega)
      subst hp
      have := ha.eq
      simp at this
      exact ⟨.list true [], by simp only [bareListAttr, listAttr]; rw [unpackItems, if_neg (by omega)], rfl, by simp⟩

theorem stab_exact {U f t tot s} (k : Nat) (h : Stab U f t tot s) : Stab U (Spec.exact k f) t false s := by
  intro buff off u hb hm hu
  obtain ⟨h1, h2, h3⟩ := h buff off u hb hm hu
  refine ⟨h1, by simp, ?_⟩
  intro d hd
  simp only [Spec.exact] at hd
  cases hfd : f.den u with
  | none => rw [hfd] at hd; cases hd
  | some d' =>
    rw [hfd] at hd
    simp only at hd
    obtain ⟨b, h4, h5, h6⟩ := h3 d' hfd
    rw [h4] at hd
    simp only at hd
    split at hd
    · next hsz =>
      cases hd
      refine ⟨b, by simp [Spec.exact, h4, hsz], h5, ?_⟩
      intro buff' off' j post ha
      obtain ⟨u', h7, h8, h9⟩ := h6 _ _ _ _ ha
      exact ⟨u', h7, by simp [Spec.exact, h8, h4, hsz], h9⟩
    · cases hd

theorem stab_rest8 : Stab (binAttr).unpack Spec.rest8 true false 0 := by
  intro buff off u hb hm hu
  obtain ⟨h1, h2, h3⟩ := stab_rest buff off u hb hm hu
  refine ⟨h1, by simp, ?_⟩
  intro d hd
  simp only [binAttr] at hu
  cases hu
  simp only [Spec.rest8, Spec.rest] at hd
  split at hd
  · next h8 =>
      cases hd
      obtain ⟨b, h4, h5, h6⟩ := h3 (.raw (buff.drop off)) rfl
      simp only [Spec.rest] at h4
      cases h4
      refine ⟨_, by simp only [Spec.rest8, if_pos h8], h5, ?_⟩
      intro buff' off' j post ha
      obtain ⟨u', h7, h8', h9⟩ := h6 _ _ _ _ ha
      exact ⟨u', h7, by simp only [Spec.rest8, h8', if_pos h8], h9⟩
  · cases hd

end Pyof
