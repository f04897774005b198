import Verif.Spec.Weight
import Verif.Lemmas.Follow
import Verif.Lemmas.SwallowGroup
/-!
# What is decoded is not out of proportion, class by class
-/
namespace Pyof
open Spec

/-- `d` at the very start of the buffer and nothing elsewhere. -/
def atStart (d off : Nat) : Nat := if off = 0 then d else 0

theorem atStart_zero {d} : atStart d 0 = d := rfl
theorem atStart_pos {d off} (h : 1 ≤ off) : atStart d off = 0 := if_neg (by omega)
theorem atStart_le {d off} : atStart d off ≤ d := by unfold atStart; split <;> omega
theorem atStart_add {d d' off m} : atStart d off + atStart d' (off + m) ≤ atStart (d + d') off := by
  unfold atStart
  by_cases h : off = 0 <;> by_cases h' : off + m = 0 <;> simp only [h, h', if_true, if_false] <;> first | omega | (split <;> omega)
theorem atStart_mono {d d' off} (h : d ≤ d') : atStart d off ≤ atStart d' off := by unfold atStart; split <;> omega

/-- Five per byte that the object covers in the buffer, `e` for the object, and `d` more at offset 0. -/
def Lin (d e : Nat) (c : Attr) : Prop :=
  ∀ ⦃buff : Bytes⦄ ⦃off : Nat⦄ ⦃u : Val⦄ ⦃n : Nat⦄, buff ≠ [] → c.unpack buff off = .ok u → c.usize u = .ok n →
    weight u ≤ atStart d off + e + 5 * min n (buff.length - off)

/-- The same for consecutive attributes and the object that holds them. -/
def FLin (d e : Nat) (fs : Fields) : Prop :=
  ∀ ⦃a : Bytes⦄ ⦃o : Nat⦄ ⦃vs : List Val⦄ ⦃z : Nat⦄, a ≠ [] → unpackAttrs fs a o = .ok (vs, z) →
    o ≤ z ∧ weights vs + 1 ≤ atStart d o + e + 5 * min (z - o) (a.length - o)

theorem Lin.le {d e d' e' c} (h : Lin d e c) (hd : d ≤ d') (he : e ≤ e') : Lin d' e' c := by
  intro buff off u n hb hu hn
  have := h hb hu hn
  have := atStart_mono (off := off) hd
  omega

theorem FLin.le {d e d' e' fs} (h : FLin d e fs) (hd : d ≤ d') (he : e ≤ e') : FLin d' e' fs := by
  intro buff off u n hb hu
  have := h hb hu
  have := atStart_mono (off := off) hd
  omega

theorem FLin.nil : FLin 0 1 [] := by
  intro a o vs z _ h
  cases h
  exact ⟨Nat.le_refl _, by simp [weights, atStart]⟩

theorem FLin.cons {n c fs d e d' e'} (hc : Lin d e c) (hf : FLin d' e' fs) : FLin (d + d') (e + e') ((n, c) :: fs) := by
  intro a o vs z ha h
  obtain ⟨v, m, ws, h1, h2, h3, rfl⟩ := unpackAttrs_cons_inv ha h
  obtain ⟨g1, g2⟩ := hf ha h3
  have g3 := hc ha h1 h2
  have g4 := @atStart_add d d' o m
  simp only [weights]
  omega

theorem ub_weight {w ref a o v} (h : ubUnpack w ref a o = .ok v) : weight v = 2 := by
  simp only [ubUnpack] at h
  split at h
  · cases h
  · split at h
    · cases h
    · rename_i x hx
      cases h
      cases ref <;> simp only [refApply] at hx
      · cases hx; rfl
      · split at hx <;> cases hx; rfl
      · cases hx; rfl

theorem FLin.num {n w ref df fs d e} (hf : FLin d e fs) (hw : 0 < w) : FLin d (e + 2 - 5 * w) ((n, ubint w ref df) :: fs) := by
  intro a o vs z ha h
  obtain ⟨v, m, ws, h1, h2, h3, rfl⟩ := unpackAttrs_cons_inv ha h
  cases h2
  obtain ⟨g1, g2⟩ := hf ha h3
  have g3 := ub_weight h1
  have g4 := ubUnpack_fits hw h1
  have g5 : atStart d (o + w) ≤ atStart d o := by
    rw [atStart_pos (by omega)]; exact Nat.zero_le _
  simp only [weights]
  omega

theorem lin_num {w ref df} (hw : 0 < w) : Lin 0 0 (ubint w ref df) := by
  intro a o v m ha h1 h2
  cases h2
  have g3 := ub_weight h1
  have g4 := ubUnpack_fits hw h1
  omega

theorem lin_pad {k} : Lin 0 1 (padAttr k) := by
  intro a o v m ha h1 h2
  cases h1
  simp only [weight]
  omega

theorem joinC_length (sep : Char) (k : Nat) : ∀ (xs : List Str), (∀ x ∈ xs, x.length ≤ k) → (joinC sep xs).length + 1 ≤ (k + 1) * xs.length + 1
  | [], _ => by simp [joinC]
  | [x], h => by
    have := h x (by simp)
    simp [joinC]; omega
  | x :: y :: r, h => by
    have h1 := h x (by simp)
    have h2 := joinC_length sep k (y :: r) (fun z hz => h z (by simp [hz]))
    simp only [joinC, List.length_append, List.length_cons, Nat.mul_add] at h2 ⊢
    omega

theorem hexFix_length (k n : Nat) : (hexFix k n).length = k := by
  induction k generalizing n with
  | zero => rfl
  | succ k ih => simp [hexFix, ih]

theorem structUnpack_some {w k b xs} (h : structUnpack w k b = some xs) : xs = chunks w k b ∧ b.length = w * k := by
  simp only [structUnpack] at h
  split at h
  · rename_i hl; cases h; exact ⟨rfl, hl⟩
  · cases h

theorem lin_hw {df} : Lin 0 0 (hwAttr df) := by
  intro a o v m ha h1 h2
  cases h2
  simp only [hwAttr, hwUnpack] at h1
  cases hx : structUnpack 1 6 (slice a o (o + 6)) with
  | none => simp [hx] at h1
  | some xs =>
    simp only [hx] at h1
    cases h1
    have hl : o + 6 ≤ a.length := structUnpack_len (w := 1) (k := 6) (by decide) hx
    obtain ⟨rfl, _⟩ := structUnpack_some hx
    have := joinC_length ':' 2 ((chunks 1 6 (slice a o (o + 6))).map (hexFix 2)) (by simp [hexFix_length])
    rw [List.length_map, chunks_length] at this
    simp only [weight]
    omega

set_option maxRecDepth 8000 in
theorem decStr_short : ∀ n, n < 256 → (decStr n).length ≤ 3 := by decide +kernel

theorem lin_ip {df m} : Lin 0 0 (ipAttr df m) := by
  intro a o v n ha h1 h2
  cases h2
  simp only [ipAttr, ipUnpack] at h1
  cases hx : structUnpack 1 4 (slice a o (o + 4)) with
  | none => simp [hx] at h1
  | some xs =>
    simp only [hx] at h1
    cases h1
    have hl : o + 4 ≤ a.length := structUnpack_len (w := 1) (k := 4) (by decide) hx
    obtain ⟨rfl, hb⟩ := structUnpack_some hx
    have := joinC_length '.' 3 ((chunks 1 4 (slice a o (o + 4))).map decStr) (by
      intro x hx
      obtain ⟨n, hn, rfl⟩ := List.mem_map.1 hx
      exact decStr_short n (by simpa using chunks_lt (by omega) n hn))
    rw [List.length_map, chunks_length] at this
    simp only [weight]
    omega

theorem lin_char {k} (hk : 0 < k) : Lin 0 0 (charAttr k) := by
  intro a o v n ha h1 h2
  cases h2
  simp only [charAttr, charUnpack] at h1
  split at h1
  · rename_i hl
    split at h1
    · cases h1
    · rename_i s hs
      cases h1
      have h3 := (asciiDecode_small hs).1
      have h4 : (rstripNul s).length ≤ s.length := by
        simp only [rstripNul, List.length_reverse]
        have := (List.dropWhile_suffix (l := s.reverse) (fun x => decide (x = Char.ofNat 0))).length_le
        simpa using this
      rw [slice_length] at hl
      rw [slice_length] at h3
      simp only [weight]
      omega
  · cases h1

theorem lin_bin {df} : Lin 0 2 (binAttr df) := by
  intro a o v n ha h1 h2
  cases h1
  have h : (binAttr df).usize (.bin (.bytes (a.drop o))) = .ok (a.drop o).length := rfl
  rw [h] at h2
  cases h2
  simp only [weight, List.length_drop]
  omega

theorem dpidLoop_length {a : Bytes} : ∀ (k : Nat) {o : Nat} {hs}, dpidLoop a k o = .ok hs → hs.length = k ∧ (∀ x ∈ hs, x.length ≤ 2) ∧ (0 < k → o + k ≤ a.length)
  | 0, o, hs, h => by cases h; exact ⟨rfl, by simp, by omega⟩
  | k + 1, o, hs, h => by
    simp only [dpidLoop] at h
    split at h
    · rename_i n hn
      have hl : o + 1 ≤ a.length := structUnpack_len (w := 1) (k := 1) (by decide) hn
      split at h
      · rename_i r hr
        cases h
        obtain ⟨h1, h2, h3⟩ := dpidLoop_length k hr
        refine ⟨by simp [h1], ?_, ?_⟩
        · intro x hx
          rcases List.mem_cons.1 hx with rfl | hx
          · rw [hexFix_length]; exact Nat.le_refl _
          · exact h2 x hx
        · intro _
          rcases Nat.eq_zero_or_pos k with h0 | h0
          · omega
          · have := h3 h0; omega
      · cases h
    · cases h

theorem lin_dpid : Lin 0 0 dpidAttr := by
  intro a o v n ha h1 h2
  cases h2
  simp only [dpidAttr, dpidUnpack] at h1
  split at h1
  · rename_i hs hx
    cases h1
    obtain ⟨g1, g2, g3⟩ := dpidLoop_length 8 hx
    have := joinC_length ':' 2 hs g2
    simp only [weight]
    have := g3 (by decide)
    omega
  · cases h1

theorem lin_items {d it} (hi : Lin d 0 it) {a : Bytes} (ha : a ≠ []) : ∀ {o : Nat} {xs : List Val} {n : Nat}, unpackItems it a o = .ok xs →
    sizeItems it xs = .ok n → weights xs ≤ atStart d o + 5 * min n (a.length - o) := by
  intro off xs n h hn
  induction off using unpackItems.induct it a generalizing xs n with
  | case1 off hlt e he => rw [unpackItems, if_pos hlt] at h; simp [he] at h
  | case2 off hlt u hu e he => rw [unpackItems, if_pos hlt] at h; simp [hu, he] at h
  | case3 off hlt u hu he => rw [unpackItems, if_pos hlt] at h; simp [hu, he] at h
  | case4 off hlt u hu k hk hz e he ih => rw [unpackItems, if_pos hlt] at h; simp [hu, hk, hz, he] at h
  | case5 off hlt u hu k hk hz r hr ih =>
    rw [unpackItems, if_pos hlt] at h
    simp only [hu, hk, if_neg hz, hr] at h
    cases h
    obtain ⟨m, h1, h2⟩ := unpackItems_uses hr
    have hn' : n = k + m := by
      simp only [sizeItems, hk, h1] at hn
      exact (Except.ok.inj hn).symm
    subst hn'
    have g1 := ih hr h1
    have g2 := hi ha hu hk
    rw [atStart_pos (by omega)] at g1
    simp only [weights]
    omega
  | case6 off hlt => rw [unpackItems, if_neg hlt] at h; cases h; simp [weights]

theorem lin_list {d isItem it} (hi : Lin d 0 it) : Lin d 1 (listAttr isItem it) := by
  intro a o v n ha h1 h2
  obtain ⟨xs, h3, rfl⟩ := list_inv h1
  have h4 : (listAttr isItem it).usize (.list true xs) = sizeItems it xs := rfl
  rw [h4] at h2
  have := lin_items hi ha h3 h2
  simp only [weight]
  omega

theorem lin_bare {d isItem it} (hi : Lin d 0 it) : Lin d 1 (bareListAttr isItem it) := lin_list (isItem := isItem) hi

theorem lin_struct {d e k cls fields init} (hf : FFol k fields) (hl : FLin d e fields) : Lin d e (structAttr cls fields init) := by
  intro a o v n ha h1 h2
  obtain ⟨vs, z, h3, rfl⟩ := struct_inv h1
  obtain ⟨m, _, h4, rfl, _⟩ := hf a o vs z ha h3
  have h6 : (structAttr cls fields init).usize (.obj cls vs) = .ok m := by simp only [structAttr, if_true, h4]
  rw [h6] at h2
  cases h2
  have := hl ha h3
  simp only [weight]
  omega

theorem lin_auto {d e k cls fields i init} (hf : FFol k fields) (hl : FLin d e fields) : Lin d e (autoStruct cls fields i init) :=
  lin_struct (cls := cls) (init := init) hf hl

theorem lin_cut {d d' e j k cls fields init} (hf : FFol k fields) (hl : FLin d e fields) (hd : d ≤ d') (hp : weights (protos fields) + 1 ≤ d') :
    Lin d' e (lengthCut j (structAttr cls fields init)) := by
  intro a o v n ha h1 h2
  simp only [lengthCut] at h1
  split at h1
  · cases h1
  · rename_i L hL
    obtain ⟨vs, z, h3, rfl⟩ := struct_inv h1
    have hsz : sizeAttrs fields vs = .ok n := by simpa only [lengthCut, structAttr, if_true] using h2
    by_cases hc : a.take (o + gotNum L) = []
    · have h0 := (List.take_eq_nil_iff.1 hc).resolve_right ha
      have : o = 0 := by omega
      subst this
      rw [hc, unpackAttrs_empty] at h3
      cases h3
      simp only [weight, atStart_zero]
      omega
    · obtain ⟨m, _, h4, rfl, _⟩ := hf _ o vs z hc h3
      rw [hsz] at h4
      cases h4
      have g1 := hl hc h3
      have g2 := atStart_mono (off := o) hd
      have g3 : (a.take (o + gotNum L)).length ≤ a.length := by simp; omega
      simp only [weight]
      omega

theorem lin_cutAuto {d d' e j k cls fields i init} (hf : FFol k fields) (hl : FLin d e fields) (hd : d ≤ d') (hp : weights (protos fields) + 1 ≤ d') :
    Lin d' e (lengthCut j (autoStruct cls fields i init)) :=
  lin_cut (cls := cls) (init := init) hf hl hd hp

theorem lin_variant {d d' e proto ref tr pick subs}
    (hs : ∀ {t s}, pick t = .ok s → SubFol s ∧ subOf subs s.name = some s ∧ FLin d e s.fields ∧ weights (protos s.fields) + 1 ≤ d') (hd : d ≤ d') :
    Lin d' e (variantAttr proto ref tr pick subs) := by
  intro a o u n ha hu hn
  simp only [variantAttr, variantUnpack] at hu
  split at hu
  · cases hu
  rename_i t h1
  split at hu
  · cases hu
  rename_i s h2
  obtain ⟨hF, hS, hL, hp⟩ := hs h2
  split at hu
  · cases hu
  rename_i L h3
  split at hu
  · cases hu
  rename_i vs z h4
  cases hu
  have hn' : s.size vs = .ok n := by simpa only [variantAttr, hS] using hn
  obtain ⟨m, hm, hmn⟩ := hF.size hn'
  have key : ∀ b : Bytes, b.length ≤ a.length → (b = [] → o = 0) → unpackAttrs s.fields b o = .ok (vs, z) →
      weight (.obj s.name vs) ≤ atStart d' o + e + 5 * min n (a.length - o) := by
    intro b hb h0 h4
    by_cases hc : b = []
    · have := h0 hc
      subst this
      rw [hc, unpackAttrs_empty] at h4
      cases h4
      simp only [weight, atStart_zero]
      omega
    · obtain ⟨m', _, g2, rfl, _⟩ := hF.fields b o vs z hc h4
      rw [hm] at g2
      cases g2
      have := hL hc h4
      have := atStart_mono (off := o) hd
      simp only [weight]
      omega
  refine key _ ?_ ?_ h4
  · split <;> simp; omega
  · intro hc
    cases tr with
    | false => exact absurd hc ha
    | true =>
      have h0 := (List.take_eq_nil_iff.1 hc).resolve_right ha
      omega

set_option hygiene false in
macro "flin" : tactic => `(tactic| repeat' (first
  | exact @FLin.nil
  | exact @lin_pad _
  | exact @lin_hw _
  | exact @lin_ip _ _
  | exact @lin_dpid
  | (exact @lin_char _ (by decide))
  | exact @lin_bin _
  | assumption
  | (apply FLin.num; case hw => decide)
  | apply FLin.cons))

end Pyof
