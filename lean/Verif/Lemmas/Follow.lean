import Verif.Lemmas.Local
/-!
# Decoding does not depend on the bytes after the window
-/
namespace Pyof
open Spec

/-- `Follow`, and both ways of asking a decoded object for its size agree. -/
structure Fol (c : Attr) : Prop where
  agree : ∀ {buff off u}, buff ≠ [] → c.unpack buff off = .ok u → c.size u = c.usize u
  follow : Follow c

theorem take_le {a b : Bytes} {m n : Nat} (h : b.take n = a.take n) (hm : m ≤ n) : b.take m = a.take m := by
  have := congrArg (List.take m) h
  rwa [List.take_take, List.take_take, Nat.min_eq_left hm] at this

theorem take_long {a b : Bytes} {n : Nat} (h : b.take n = a.take n) (hl : n ≤ a.length) : n ≤ b.length := by
  have := congrArg List.length h
  simp only [List.length_take] at this
  omega

theorem slice_same {a b : Bytes} {i n : Nat} (h : b.take n = a.take n) : slice b i n = slice a i n := by
  unfold slice; rw [h]

/-- Cutting both buffers: either both are the same, or the window still ends before the cut. -/
theorem cut_cases {a b : Bytes} {m n : Nat} (h : b.take n = a.take n) (hl : n < a.length) :
    b.take m = a.take m ∨ (n < (a.take m).length ∧ (b.take m).take n = (a.take m).take n) := by
  by_cases hm : m ≤ n
  · exact .inl (take_le h hm)
  · right
    refine ⟨by simp only [List.length_take]; omega, ?_⟩
    rw [List.take_take, List.take_take, Nat.min_eq_left (by omega), h]

theorem unpackFrom_take {a b : Bytes} {i w n : Nat} (h : b.take n = a.take n) (hl : n ≤ a.length) (hi : i + w ≤ n) :
    unpackFrom w b i = unpackFrom w a i := by
  have := take_long h hl
  simp only [unpackFrom, slice_same (take_le h hi), if_pos (show i + w ≤ a.length by omega), if_pos (show i + w ≤ b.length by omega)]

theorem gotNum_int {w x : Nat} : gotNum (.ub w (.int x)) = x := by simp [gotNum]

theorem ubUnpack_take {ref} {a b : Bytes} {i w n : Nat} (h : b.take n = a.take n) (hl : n ≤ a.length) (hi : i + w ≤ n) :
    ubUnpack w ref b i = ubUnpack w ref a i := by
  simp only [ubUnpack, unpackFrom_take h hl hi]

/-- A class that only looks at a fixed window. -/
theorem fol_window {c w} (h : Window c w) : Fol c where
  agree := fun hb hu => (h.size _ _ _ hb hu).trans (h.usize _ _ _ hb hu).symm
  follow := by
    intro a b o u n ha hb hu hn hl ht
    rw [h.usize _ _ _ ha hu] at hn
    cases hn
    rw [← hu]
    exact h.same _ _ _ _ hb ha (slice_same ht)

theorem fol_num {w ref d} (hw : 0 < w) : Fol (ubint w ref d) := fol_window (window_uint w ref d hw)
theorem fol_pad {n} : Fol (padAttr n) := fol_window (window_pad n)
theorem fol_hw {d} : Fol (hwAttr d) := fol_window (window_hw d)
theorem fol_ip {a m} : Fol (ipAttr a m) := fol_window (window_ip a m)
theorem fol_char {n} : Fol (charAttr n) := fol_window (window_char n)

theorem fol_bin {d} : Fol (binAttr d) where
  agree := by intro buff off u _ h; cases h; rfl
  follow := by
    intro a b o u n ha hb hu hn hl ht
    cases hu
    have : n = a.length - o := by
      have h : (binAttr d).usize (.bin (.bytes (a.drop o))) = .ok (a.drop o).length := rfl
      rw [h] at hn
      cases hn
      exact List.length_drop
    omega

/-- What is left of the buffer is used up by the items of a list. -/
theorem unpackItems_uses {it : Attr} {a : Bytes} : ∀ {off : Nat} {xs : List Val}, unpackItems it a off = .ok xs →
    ∃ n, sizeItems it xs = .ok n ∧ a.length ≤ off + n := by
  intro off xs h
  induction off using unpackItems.induct it a generalizing xs with
  | case1 off hlt e he => rw [unpackItems, if_pos hlt] at h; simp [he] at h
  | case2 off hlt u hu e he => rw [unpackItems, if_pos hlt] at h; simp [hu, he] at h
  | case3 off hlt u hu he => rw [unpackItems, if_pos hlt] at h; simp [hu, he] at h
  | case4 off hlt u hu n hn hz e he ih => rw [unpackItems, if_pos hlt] at h; simp [hu, hn, hz, he] at h
  | case5 off hlt u hu n hn hz r hr ih =>
    rw [unpackItems, if_pos hlt] at h
    simp only [hu, hn, if_neg hz, hr] at h
    cases h
    obtain ⟨m, h1, h2⟩ := ih hr
    exact ⟨n + m, by simp only [sizeItems, hn, h1], by omega⟩
  | case6 off hlt => rw [unpackItems, if_neg hlt] at h; cases h; exact ⟨0, rfl, by omega⟩

theorem list_inv {isItem it buff off v} (h : (listAttr isItem it).unpack buff off = .ok v) : ∃ xs, unpackItems it buff off = .ok xs ∧ v = .list true xs := by
  simp only [listAttr] at h
  split at h
  · cases h
  · rename_i h'; cases h; exact ⟨_, h', rfl⟩

theorem fol_list {isItem it} (hg : Gives it isItem) : Fol (listAttr isItem it) where
  agree := by
    intro buff off u hb h
    obtain ⟨xs, h2, rfl⟩ := list_inv h
    have hall : addItems isItem xs = .ok xs := by
      apply addItems_all
      intro x hx
      obtain ⟨o, n, ho, hb, hu, hn, _⟩ := unpackItems_each h2 x hx
      exact hg _ _ _ hu
    simp only [listAttr, hall]
  follow := by
    intro a b o u n ha hb hu hn hl ht
    obtain ⟨xs, h2, rfl⟩ := list_inv hu
    obtain ⟨m, h3, h4⟩ := unpackItems_uses h2
    have h5 : (listAttr isItem it).usize (.list true xs) = sizeItems it xs := rfl
    rw [h5, h3] at hn
    cases hn
    omega

/-- Consecutive attributes, of at least `k` bytes. -/
def FFol (k : Nat) (fs : Fields) : Prop :=
  ∀ a o vs e, a ≠ [] → unpackAttrs fs a o = .ok (vs, e) →
    ∃ n, k ≤ n ∧ sizeAttrs fs vs = .ok n ∧ e = o + n ∧
      (o + n < a.length → ∀ b, b ≠ [] → b.take (o + n) = a.take (o + n) → unpackAttrs fs b o = .ok (vs, e))

theorem FFol.nil : FFol 0 [] := by
  intro a o vs e ha h
  cases h
  exact ⟨0, Nat.le_refl _, rfl, rfl, fun _ _ _ _ => rfl⟩

theorem ffol_step {n c fs k w} (hc : Fol c) (hf : FFol k fs) (hw : ∀ v m, c.usize v = .ok m → w ≤ m) : FFol (w + k) ((n, c) :: fs) := by
  intro a o vs e ha h
  obtain ⟨v, m, ws, h1, h2, h3, rfl⟩ := unpackAttrs_cons_inv ha h
  obtain ⟨m', h4, h5, rfl, h6⟩ := hf a (o + m) ws e ha h3
  refine ⟨m + m', Nat.add_le_add (hw _ _ h2) h4, ?_, by omega, ?_⟩
  · simp only [sizeAttrs, hc.agree ha h1, h2, h5]
  · intro hl b hb ht
    have g1 := hc.follow a b o v m ha hb h1 h2 (by omega) (take_le ht (by omega))
    have g2 := h6 (by omega) b hb (take_le ht (by omega))
    simp only [unpackAttrs, unpackAttr, if_neg hb, g1, h2, g2]

theorem FFol.cons {n c fs k} (hc : Fol c) (hf : FFol k fs) : FFol k ((n, c) :: fs) := by
  have := ffol_step (n := n) (w := 0) hc hf (fun _ _ _ => Nat.zero_le _)
  rwa [Nat.zero_add] at this

theorem FFol.mono {k k' fs} (h : FFol k fs) (hk : k' ≤ k) : FFol k' fs := by
  intro a o vs e ha hu
  obtain ⟨n, h1, h2⟩ := h a o vs e ha hu
  exact ⟨n, by omega, h2⟩

theorem FFol.num {n w ref d fs k} (hf : FFol (k - w) fs) (hw : 0 < w) : FFol k ((n, ubint w ref d) :: fs) :=
  (ffol_step (w := w) (fol_num hw) hf (fun v m h => by cases h; exact Nat.le_refl _)).mono (by omega)

theorem struct_inv {cls fields init buff off v} (h : (structAttr cls fields init).unpack buff off = .ok v) :
    ∃ vs e, unpackAttrs fields buff off = .ok (vs, e) ∧ v = .obj cls vs := by
  simp only [structAttr] at h
  split at h
  · cases h
  · rename_i h'; cases h; exact ⟨_, _, h', rfl⟩

theorem fol_struct {k cls fields init} (hf : FFol k fields) : Fol (structAttr cls fields init) where
  agree := by
    intro buff off u hb h
    obtain ⟨vs, e, h1, rfl⟩ := struct_inv h
    simp only [structAttr, if_true]
  follow := by
    intro a b o u n ha hb hu hn hl ht
    obtain ⟨vs, e, h1, rfl⟩ := struct_inv hu
    obtain ⟨m, _, h3, rfl, h5⟩ := hf a o vs e ha h1
    have h6 : (structAttr cls fields init).usize (.obj cls vs) = .ok m := by simp only [structAttr, if_true, h3]
    rw [h6] at hn
    cases hn
    simp only [structAttr, h5 hl b hb ht]

theorem fol_auto {k cls fields i init} (hf : FFol k fields) : Fol (autoStruct cls fields i init) where
  agree := fun hb h => (fol_struct (cls := cls) (init := init) hf).agree hb h
  follow := (fol_struct (cls := cls) (init := init) hf).follow

theorem ubUnpack_fits {w ref a i v} (hw : 0 < w) (h : ubUnpack w ref a i = .ok v) : i + w ≤ a.length := by
  simp only [ubUnpack, unpackFrom] at h
  by_cases hc : i + w ≤ a.length
  · exact hc
  · simp [if_neg hc] at h

/-- A class that cuts the buffer at the length it announces; `k` is where the length is. -/
theorem fol_cut {k q p cls fields init} (hf : FFol q fields) (hq : k + 2 ≤ q) (hp : sizeAttrs fields (protos fields) = .ok p) (hpk : k + 2 ≤ p) :
    Fol (lengthCut k (structAttr cls fields init)) where
  agree := by
    intro buff off u hb h
    simp only [lengthCut] at h
    split at h
    · cases h
    · obtain ⟨vs, e, h1, rfl⟩ := struct_inv h
      simp only [lengthCut, structAttr, if_true]
  follow := by
    intro a b o u n ha hb hu hn hl ht
    simp only [lengthCut] at hu
    split at hu
    · cases hu
    · rename_i L hL
      obtain ⟨vs, e, h1, rfl⟩ := struct_inv hu
      have hsz : sizeAttrs fields vs = .ok n := by simpa only [lengthCut, structAttr, if_true] using hn
      have hk : k + 2 ≤ n := by
        by_cases hc : a.take (o + gotNum L) = []
        · rw [hc, unpackAttrs_empty] at h1
          cases h1
          rw [hp] at hsz
          cases hsz
          exact hpk
        · obtain ⟨m, h2, h3, _⟩ := hf _ o vs e hc h1
          rw [h3] at hsz
          cases hsz
          omega
      have hL' := ubUnpack_take (ref := .none) (w := 2) (i := o + k) ht (by omega) (by omega)
      simp only [lengthCut, hL', hL]
      rcases cut_cases (m := o + gotNum L) ht hl with hs | ⟨hs1, hs2⟩
      · rw [hs]; exact hu
      · have hc : a.take (o + gotNum L) ≠ [] := by intro hc; rw [hc] at hs1; simp at hs1
        have hc' : b.take (o + gotNum L) ≠ [] := by
          intro hc'
          have := (List.take_eq_nil_iff.1 hc').resolve_right hb
          rw [this] at hc
          simp at hc
        exact (fol_struct (cls := cls) (init := init) hf).follow _ _ o _ n hc hc' hu (by simpa only [structAttr, if_true] using hsz) hs1 hs2

theorem fol_cutAuto {k q p cls fields i init} (hf : FFol q fields) (hq : k + 2 ≤ q) (hp : sizeAttrs fields (protos fields) = .ok p) (hpk : k + 2 ≤ p) :
    Fol (lengthCut k (autoStruct cls fields i init)) where
  agree := fun hb h => (fol_cut (cls := cls) (init := init) hf hq hp hpk).agree hb h
  follow := (fol_cut (cls := cls) (init := init) hf hq hp hpk).follow

/-- What is asked of each class of a family: at least the type and the length, and a size of at least that of the attributes. -/
structure SubFol (s : Sub) : Prop where
  fields : FFol 4 s.fields
  proto : ∃ p, sizeAttrs s.fields (protos s.fields) = .ok p ∧ 4 ≤ p
  size : ∀ {vs n}, s.size vs = .ok n → ∃ m, sizeAttrs s.fields vs = .ok m ∧ m ≤ n

theorem fol_variant {proto ref tr pick subs} (hs : ∀ {t s}, pick t = .ok s → SubFol s ∧ subOf subs s.name = some s) :
    Fol (variantAttr proto ref tr pick subs) where
  agree := by intro buff off u hb h; rfl
  follow := by
    intro a b o u n ha hb hu hn hl ht
    simp only [variantAttr, variantUnpack] at hu
    split at hu
    · cases hu
    rename_i t h1
    split at hu
    · cases hu
    rename_i s h2
    obtain ⟨hF, hS⟩ := hs h2
    split at hu
    · cases hu
    rename_i L h3
    split at hu
    · cases hu
    rename_i vs e h4
    cases hu
    have hn' : s.size vs = .ok n := by simpa only [variantAttr, hS] using hn
    obtain ⟨m, hm, hmn⟩ := hF.size hn'
    cases tr with
    | false =>
      simp only [Bool.false_eq_true, if_false] at h3 h4
      obtain ⟨m', g1, g2, rfl, g3⟩ := hF.fields a o vs _ ha h4
      rw [hm] at g2
      cases g2
      have hb' := g3 (by omega) b hb (take_le ht (by omega))
      have h1' := ubUnpack_take (ref := ref) (w := 2) (i := o) ht (by omega) (by omega)
      simp only [variantAttr, variantUnpack, h1', h1, h2, Bool.false_eq_true, if_false, hb']
    | true =>
      simp only [if_true] at h3 h4
      have hk : 4 ≤ m := by
        by_cases hc : a.take (o + gotNum L) = []
        · rw [hc, unpackAttrs_empty] at h4
          cases h4
          obtain ⟨p, hp, hp'⟩ := hF.proto
          rw [hp] at hm
          cases hm
          exact hp'
        · obtain ⟨m', g1, g2, _⟩ := hF.fields _ o vs e hc h4
          rw [hm] at g2
          cases g2
          exact g1
      have h1' := ubUnpack_take (ref := ref) (w := 2) (i := o) ht (by omega) (by omega)
      have h3' := ubUnpack_take (ref := .none) (w := 2) (i := o + 2) ht (by omega) (by omega)
      have hb' : unpackAttrs s.fields (b.take (o + gotNum L)) o = .ok (vs, e) := by
        rcases cut_cases (m := o + gotNum L) (take_le ht (show o + m ≤ o + n by omega)) (by omega) with hs | ⟨hs1, hs2⟩
        · rw [hs]; exact h4
        · have hc : a.take (o + gotNum L) ≠ [] := by intro hc; rw [hc] at hs1; simp at hs1
          have hc' : b.take (o + gotNum L) ≠ [] := by
            intro hc'
            have := (List.take_eq_nil_iff.1 hc').resolve_right hb
            rw [this] at hc
            simp at hc
          obtain ⟨m', g1, g2, g3, g4⟩ := hF.fields _ o vs e hc h4
          rw [hm] at g2
          cases g2
          exact g4 hs1 _ hc' hs2
      simp only [variantAttr, variantUnpack, h1', h1, h2, if_true, h3', h3, hb']

macro "ffol" : tactic => `(tactic| repeat' (first
  | exact FFol.nil
  | exact fol_pad
  | exact fol_hw
  | exact fol_ip
  | exact fol_char
  | exact fol_bin
  | (exact fol_num (by decide))
  | assumption
  | (refine FFol.num ?_ (by decide))
  | apply FFol.cons
  | apply fol_struct))

/-- The size is that of the attributes. -/
theorem subFol_plain {s : Sub} (hs : s.size = sizeAttrs s.fields) (hf : FFol 4 s.fields) (hp : ∃ p, sizeAttrs s.fields (protos s.fields) = .ok p ∧ 4 ≤ p) : SubFol s :=
  ⟨hf, hp, fun h => ⟨_, by rw [← hs]; exact h, Nat.le_refl _⟩⟩

namespace V01

theorem fol_actionSub {t s} (h : pickAction t = .ok s) : SubFol s ∧ subOf actionSubs s.name = some s := by
  refine ⟨?_, (actionSub_ok (P := fun _ => True) (lo := 0) trivial h).2⟩
  obtain ⟨s', h', hs⟩ := pickAction_total t
  cases h.symm.trans h'
  rcases hs with rfl | ⟨p, hp, rfl⟩
  · refine subFol_plain rfl ?_ ⟨_, rfl, by decide⟩
    show FFol 4 actionHead
    unfold actionHead; ffol
  · simp only [actionClasses, List.mem_cons, List.not_mem_nil, or_false] at hp
    rcases hp with rfl | rfl | rfl | rfl | rfl | rfl | rfl | rfl | rfl | rfl <;>
      · refine subFol_plain rfl ?_ ⟨_, rfl, by decide⟩
        simp only [actionOutput, actionStripVlan, actionEnqueue, actionVlanVid, actionVlanPCP, actionDLAddr, actionNWAddr, actionNWTos,
          actionTPPort, actionVendorHeader, plainSub, actionHead, List.cons_append, List.nil_append]
        ffol

theorem fol_action : Fol action := fol_variant fol_actionSub
theorem fol_actions : Fol actions := fol_list gives_action

theorem fol_match : Fol «match» := by
  have hf : FFol 4 matchFields := by unfold matchFields; ffol
  have inv : ∀ {buff off v}, «match».unpack buff off = .ok v → ∃ vs e w, unpackAttrs matchFields buff off = .ok (vs, e) ∧ ubUnpack 4 .mask buff off = .ok w ∧
      v = .obj "01.Match" (w :: vs.drop 1) := by
    intro buff off v h
    simp only [«match», matchUnpack] at h
    split at h
    · cases h
    rename_i h1
    split at h
    · cases h
    rename_i h2
    cases h
    exact ⟨_, _, _, h1, h2, rfl⟩
  refine ⟨?_, ?_⟩
  · intro buff off u hb h
    obtain ⟨vs, e, w, h1, h2, rfl⟩ := inv h
    rfl
  · intro a b o u n ha hb hu hn hl ht
    obtain ⟨vs, e, w, h1, h2, rfl⟩ := inv hu
    obtain ⟨m, g1, g2, rfl, g3⟩ := hf a o vs e ha h1
    have hm : m = n := by
      obtain ⟨v, k, ws, e1, e2, e3, rfl⟩ := unpackAttrs_cons_inv ha h1
      have : «match».usize (.obj "01.Match" (w :: List.drop 1 (v :: ws))) = sizeAttrs matchFields (v :: ws) := rfl
      rw [this, g2] at hn
      cases hn
      rfl
    subst hm
    have h3 := ubUnpack_take (ref := .mask) (w := 4) (i := o) ht (by omega) (by omega)
    simp only [«match», matchUnpack, g3 hl b hb ht, h3, h2]

theorem fol_phyPort : Fol phyPort := fol_struct (k := 0) (by unfold phyPortFields; ffol)
theorem fol_phyPorts : Fol phyPorts := fol_list gives_struct
theorem fol_queueProp : Fol queuePropHeader := fol_struct (k := 0) (by unfold queuePropHeaderFields; ffol)
theorem fol_queueProps : Fol queueProps := fol_list gives_struct
theorem fol_packetQueue : Fol packetQueue := by
  have := fol_queueProps
  exact fol_struct (k := 0) (by unfold packetQueueFields; ffol)
theorem fol_queues : Fol queues := fol_list gives_struct
theorem fol_queuePropMinRate : Fol queuePropMinRate := by
  have h := fol_queueProp
  exact fol_struct (k := 0) (fields := queuePropMinRateFields) (FFol.cons ⟨fun h1 h2 => h.agree h1 h2, h.follow⟩ (by ffol))
theorem fol_flowStats : Fol flowStats := by
  have h1 := fol_match
  have h2 := fol_actions
  exact fol_cut (q := 2) (by unfold flowStatsFields; ffol) (by decide) rfl (by decide)

end V01

namespace V04

/-- The three numbers at the head of an OXM field, read one after the other. -/
theorem oxmHead {a : Bytes} {o vs e} (ha : a ≠ []) (h : unpackAttrs oxmFields a o = .ok (vs, e)) :
    ∃ c, ∃ x y : Nat, ∃ d, vs = [c, .ub 1 (.int x), .ub 1 (.int y), d] ∧ (ubint 2 (.enum oxmClasses)).unpack a o = .ok c ∧
      (ubint 1).unpack a (o + 2) = .ok (.ub 1 (.int x)) ∧ (ubint 1).unpack a (o + 2 + 1) = .ok (.ub 1 (.int y)) := by
  obtain ⟨c, m1, _, g1, e1, h1, rfl⟩ := unpackAttrs_cons_inv ha h
  obtain ⟨x, m2, _, g2, e2, h2, rfl⟩ := unpackAttrs_cons_inv ha h1
  obtain ⟨y, m3, _, g3, e3, h3, rfl⟩ := unpackAttrs_cons_inv ha h2
  obtain ⟨d, m4, _, g4, e4, h4, rfl⟩ := unpackAttrs_cons_inv ha h3
  cases h4
  cases e1
  cases e2
  cases e3
  obtain ⟨x, rfl, _⟩ := ubUnpack_int g2
  obtain ⟨y, rfl, _⟩ := ubUnpack_int g3
  exact ⟨c, x, y, d, rfl, g1, g2, g3⟩

theorem fol_oxm : Fol oxm := by
  refine ⟨?_, ?_⟩
  · intro buff off u hb h
    obtain ⟨n, h1, h2, _⟩ := oxm_sizes h
    rw [h1, h2]
  · intro a b o u n ha hb hu hn hl ht
    simp only [oxm, oxmUnpack] at hu
    cases h1 : unpackAttrs oxmFields a o with
    | error e => simp [h1] at hu
    | ok q =>
      obtain ⟨vs, e⟩ := q
      obtain ⟨c, x, y, d, rfl, g1, g2, g3⟩ := oxmHead ha h1
      simp only [h1] at hu
      have hv : ∃ cls rest, u = .obj cls (c :: .ub 1 (.int x) :: .ub 1 (.int y) :: .bytes (slice a (o + 4) (o + 4 + (y : Int).toNat)) :: rest) ∧ cls = "04.OxmTLV" := by
        split at hu
        · split at hu
          · cases hu; exact ⟨_, _, rfl, rfl⟩
          · cases hu
        · cases hu; exact ⟨_, _, rfl, rfl⟩
      obtain ⟨cls, rest, rfl, rfl⟩ := hv
      have hn' : n = 4 + (slice a (o + 4) (o + 4 + (y : Int).toNat)).length := by
        have : oxm.usize (.obj "04.OxmTLV" (c :: .ub 1 (.int x) :: .ub 1 (.int y) :: .bytes (slice a (o + 4) (o + 4 + (y : Int).toNat)) :: rest)) =
          .ok (2 + (1 + (1 + ((slice a (o + 4) (o + 4 + (y : Int).toNat)).length + 0)))) := rfl
        rw [this] at hn
        cases hn
        omega
      rw [slice_length] at hn'
      have hsl : slice b (o + 4) (o + 4 + (y : Int).toNat) = slice a (o + 4) (o + 4 + (y : Int).toNat) := slice_same (take_le ht (by omega))
      have e1 : (ubint 2 (.enum oxmClasses)).unpack b o = .ok c := (ubUnpack_take (w := 2) ht (by omega) (by omega)).trans g1
      have e2 : (ubint 1).unpack b (o + 2) = .ok (.ub 1 (.int x)) := (ubUnpack_take (ref := .none) (w := 1) (i := o + 2) ht (by omega) (by omega)).trans g2
      have e3 : (ubint 1).unpack b (o + 2 + 1) = .ok (.ub 1 (.int y)) := (ubUnpack_take (ref := .none) (w := 1) (i := o + 2 + 1) ht (by omega) (by omega)).trans g3
      have hB : ∃ d e, unpackAttrs oxmFields b o = .ok ([c, .ub 1 (.int x), .ub 1 (.int y), d], e) := by
        refine ⟨.bin (.bytes (b.drop (o + 2 + 1 + 1))), o + 2 + 1 + 1 + (b.drop (o + 2 + 1 + 1)).length, ?_⟩
        simp only [oxmFields, unpackAttrs, unpackAttr, if_neg hb, e1, e2, e3, show ∀ v, (ubint 2 (.enum oxmClasses)).usize v = .ok 2 from fun _ => rfl,
          show ∀ v, (ubint 1).usize v = .ok 1 from fun _ => rfl]
        rfl
      obtain ⟨d', e', hB⟩ := hB
      simp only [oxm, oxmUnpack, hB, hsl]
      exact hu

theorem fol_oxms : Fol oxms := fol_list gives_oxm

theorem match_usize {t n xs} : «match».usize (.obj "04.Match" [t, n, xs]) =
    (match oxms.size xs with | .error e => .error e | .ok m => .ok (ceil8 (2 + (2 + (m + 0))))) := by
  show matchSize [t, n, xs] = _
  simp only [matchSize, matchFields, sizeAttrs, ubint]
  cases oxms.size xs <;> rfl

theorem fol_match : Fol «match» := by
  refine ⟨?_, ?_⟩
  · intro buff off u hb h
    obtain ⟨a, n, b, o, ys, m, rfl, h2⟩ := match_inv h
    rfl
  · intro a b o u n ha hb hu hn hl ht
    simp only [«match», matchUnpack] at hu
    cases h1 : unpackAttrs [("match_type", ubint 2 (.enum [0, 1])), ("length", ubint 2)] a o with
    | error e => simp [h1] at hu
    | ok q =>
      obtain ⟨vs, e⟩ := q
      obtain ⟨c, L, rfl, rfl⟩ := matchHead_shape ha h1
      have hf : FFol 4 [("match_type", ubint 2 (.enum [0, 1])), ("length", ubint 2)] := by ffol
      obtain ⟨m, k1, k2, k3, k4⟩ := hf a o _ _ ha h1
      have k5 : m = 4 := by omega
      subst k5
      simp only [h1] at hu
      split at hu
      · cases hu
      rename_i xs e' h2
      cases hu
      rw [match_usize] at hn
      have key : 4 ≤ n ∧ b.take (o + (L : Int).toNat) = a.take (o + (L : Int).toNat) := by
        by_cases hc : a.take (o + (L : Int).toNat) = []
        · have h0 := (List.take_eq_nil_iff.1 hc).resolve_right ha
          rw [h0]
          rw [hc] at h2
          simp only [unpackAttr, if_true] at h2
          cases h2
          have : oxms.size oxms.proto = .ok 0 := rfl
          rw [this] at hn
          cases hn
          exact ⟨by decide, by simp⟩
        · simp only [unpackAttr, if_neg hc] at h2
          split at h2
          · cases h2
          rename_i u hu
          split at h2
          · cases h2
          rename_i k hk
          cases h2
          rw [fol_oxms.agree hc hu, hk] at hn
          cases hn
          obtain ⟨ys, h3, rfl⟩ := list_inv hu
          obtain ⟨m, h4, h5⟩ := unpackItems_uses h3
          have h6 : oxms.usize (.list true ys) = sizeItems oxm ys := rfl
          rw [h6, h4] at hk
          cases hk
          simp only [List.length_take, ceil8] at h5 hl ⊢
          refine ⟨by omega, take_le ht ?_⟩
          simp only [ceil8]
          omega
      have hB := k4 (by omega) b hb (take_le ht (by omega))
      simp only [«match», matchUnpack, hB, key.2, h2]

theorem fol_actionSub {t s} (h : pickAction t = .ok s) : SubFol s ∧ subOf actionSubs s.name = some s := by
  refine ⟨?_, (actionSub_ok (P := fun _ => True) (lo := 0) trivial h).2⟩
  have ho := fol_oxm
  obtain ⟨s', h', hs⟩ := pickAction_total t
  cases h.symm.trans h'
  have size : ∀ {fields : Fields} {vs n}, actionSize fields vs = .ok n → ∃ m, sizeAttrs fields vs = .ok m ∧ m ≤ n := by
    intro fields vs n h
    simp only [actionSize] at h
    split at h
    · cases h
    · rename_i m hm
      cases h
      exact ⟨m, hm, by unfold ceil8; omega⟩
  rcases hs with rfl | ⟨p, hp, rfl⟩
  · refine ⟨?_, ⟨_, rfl, by decide⟩, size⟩
    show FFol 4 (actionHead ++ [])
    unfold actionHead; simp only [List.append_nil]; ffol
  · simp only [actionClasses, List.mem_cons, List.not_mem_nil, or_false] at hp
    rcases hp with rfl | rfl | rfl | rfl | rfl | rfl | rfl | rfl | rfl | rfl | rfl | rfl | rfl | rfl | rfl <;>
      · refine ⟨?_, ⟨_, rfl, by decide⟩, size⟩
        simp only [actionExperimenter, actionGroup, actionDecMPLSTTL, actionSetMPLSTTL, actionCopyTTLIn, actionCopyTTLOut, actionPopVLAN,
          actionPopPBB, actionDecNWTTL, actionSetNWTTL, actionOutput, actionPopMPLS, actionPush, actionSetField, actionSetQueue, actionSub,
          setFieldFields, actionHead, List.cons_append, List.nil_append]
        ffol

theorem fol_action : Fol action := fol_variant fol_actionSub
theorem fol_actions : Fol actions := fol_list gives_action

theorem subFol_instruction {t s} (h : pickInstruction t = .ok s) : SubFol s ∧ subOf instructionSubs s.name = some s := by
  refine ⟨?_, (instructionSub_ok (P := fun _ => True) (lo := 0) trivial h).2⟩
  have ha := fol_actions
  unfold pickInstruction at h
  split at h <;> cases h <;>
    · refine subFol_plain rfl ?_ ⟨_, rfl, by decide⟩
      simp only [instructionApplyAction, instructionClearAction, instructionGotoTable, instructionMeter, instructionWriteAction,
        instructionWriteMetadata, instructionSub, autoSub, instructionHead, List.cons_append, List.nil_append]
      ffol

theorem fol_instruction : Fol instruction := fol_variant subFol_instruction
theorem fol_instructions : Fol instructions := fol_list gives_instruction

theorem subFol_band {t s} (h : pickBand t = .ok s) : SubFol s ∧ subOf bandSubs s.name = some s := by
  unfold pickBand at h
  split at h <;> cases h <;>
    · refine ⟨subFol_plain rfl ?_ ⟨_, rfl, by decide⟩, rfl⟩
      simp only [bandDrop, bandDscpRemark, bandExperimenter, plainSub, bandHead, List.cons_append, List.nil_append]
      ffol

theorem fol_band : Fol band := fol_variant subFol_band

theorem subFol_property {t s} (h : pickProperty t = .ok s) : SubFol s ∧ subOf propertySubs s.name = some s := by
  refine ⟨?_, (propertySub_ok (P := fun _ => True) (lo := 0) trivial trivial h).2⟩
  have h1 := fol_actions
  have h2 := fol_instructions
  have h3 := fol_oxms
  unfold pickProperty at h
  repeat' split at h
  all_goals
    cases h
    refine subFol_plain rfl ?_ ⟨_, rfl, by decide⟩
    simp only [instructionsProperty, nextTablesProperty, actionsProperty, oxmProperty, propertySub, autoSub, propertyHead, List.cons_append,
      List.nil_append]
    ffol

theorem fol_property : Fol property := fol_variant subFol_property
theorem fol_properties : Fol properties := fol_list gives_property
theorem fol_bands : Fol bands := fol_list gives_band
theorem fol_port : Fol port := fol_struct (k := 0) (by unfold portFields; ffol)
theorem fol_queueProp : Fol queuePropHeader := fol_struct (k := 0) (by unfold queuePropHeaderFields; ffol)
theorem fol_queueProps : Fol queueProps := fol_list gives_struct
theorem fol_packetQueue : Fol packetQueue := by
  have := fol_queueProps
  exact fol_struct (k := 0) (by unfold packetQueueFields; ffol)
theorem fol_queues : Fol queues := fol_list gives_struct
theorem fol_bucket : Fol bucket := by
  refine ⟨?_, ?_⟩
  · intro buff off u hb h
    rcases bucket_size hb h with ⟨L, _, h1, h2⟩ | ⟨_, h1, h2⟩ <;> rw [h1, h2]
  · intro a b o u n ha hb hu hn hl ht
    obtain ⟨L, vs, e, hL, h1, rfl⟩ := bucket_inv hu
    have hc : a.take (o + L) ≠ [] := by
      intro hc
      rw [hc, unpackAttrs_empty] at h1
      cases h1
      cases hn
    obtain ⟨v, m, ws, h2, h3, h4, rfl⟩ := unpackAttrs_cons_inv hc h1
    obtain ⟨x, rfl, hx⟩ := ubUnpack_int h2
    have hfit := ubUnpack_fits (w := 2) (ref := .none) (by decide) h2
    have hfit' : o + 2 ≤ o + L ∧ o + 2 ≤ a.length := by simp only [List.length_take] at hfit; omega
    have hxL : x = L := by
      simp only [unpackFrom, if_pos hfit] at hx
      simp only [unpackFrom, if_pos hfit'.2] at hL
      rw [slice_same (b := a.take (o + L)) (a := a) (by rw [List.take_take, Nat.min_eq_left hfit'.1])] at hx
      exact Option.some.inj (hx.symm.trans hL)
    subst hxL
    have hn' : n = x := by
      have : bucket.usize (.obj "04.Bucket" (.ub 2 (.int x) :: ws)) = .ok x := by
        show _ = Except.ok ((x : Int).toNat)
        rfl
      rw [this] at hn
      cases hn
      rfl
    subst hn'
    simp only [List.length_take] at hfit
    have hL' := ubUnpack_take (ref := .none) (w := 2) (i := o) ht (by omega) (by omega)
    have hr : ubUnpack 2 .none a o = .ok (.ub 2 (.int n)) := by simp only [ubUnpack, hL]; rfl
    simp only [bucket, lengthCut, Nat.add_zero, hL', hr, gotNum_int, ht] at hu ⊢
    exact hu
theorem fol_buckets : Fol buckets := fol_list gives_bucket
theorem fol_tableFeatures : Fol tableFeatures := by
  have h := fol_properties
  exact fol_cutAuto (q := 2) (by unfold tableFeaturesFields; ffol) (by decide) rfl (by decide)
theorem fol_flowStats : Fol flowStats := by
  have h1 := fol_match
  have h2 := fol_instructions
  exact fol_cut (q := 2) (by unfold flowStatsFields; ffol) (by decide) rfl (by decide)
theorem fol_bucketCounters : Fol bucketCounters := fol_list gives_struct
theorem fol_bandStatsList : Fol bandStatsList := fol_list gives_struct
theorem fol_meterStats : Fol meterStats := by
  have h := fol_bandStatsList
  exact fol_cutAuto (q := 6) (by unfold meterStatsFields; ffol) (by decide) rfl (by decide)
theorem fol_helloElem : Fol helloElem := fol_cutAuto (q := 4) (by unfold helloElemFields; ffol) (by decide) rfl (by decide)

end V04

end Pyof
