import Verif.Lemmas.Stable
import Verif.Lemmas.Layout
import Verif.Lemmas.Errors
/-!
# Decoding arbitrary bytes and encoding the result again: structures with a length, alternatives
-/
namespace Pyof
open Spec

/-! ## Reading numbers -/

theorem slice_drop (b : Bytes) (i k w : Nat) : slice b (i + k) (i + k + w) = ((b.drop i).drop k).take w := by
  simp [slice, List.drop_take, List.drop_drop]

/-- A number inside the available bytes. -/
theorem Avail.read {tail avail b buff off j post} (h : Avail tail avail b buff off j post) {k w : Nat} (hw : k + w ≤ avail)
    (hb : k + w ≤ b.length) : off + k + w ≤ buff.length ∨ w = 0 := by
  by_cases h0 : w = 0
  · exact .inr h0
  have := congrArg List.length h.eq
  have hle := h.le
  simp only [List.length_drop, List.length_append, List.length_take] at this
  omega

theorem Avail.slice {tail avail b buff off j post} (h : Avail tail avail b buff off j post) {k w : Nat} (hw : k + w ≤ avail)
    (hb : k + w ≤ b.length) : slice buff (off + k) (off + k + w) = slice b k (k + w) := by
  have hle := h.le
  rw [slice_drop, h.eq]
  have e : Pyof.slice b k (k + w) = (b.drop k).take w := by simp [Pyof.slice, List.drop_take]
  rw [e, List.drop_append_of_le_length (by simp; omega), List.take_append_of_le_length (by simp; omega), List.drop_take,
    List.take_take]
  congr 1
  omega

/-- Reading at a position whose bytes are known. -/
theorem ubUnpack_slice {w ref buff off x} (hl : off + w ≤ buff.length) (hx : refApply ref (beVal (slice buff off (off + w))) = some x) :
    ubUnpack w ref buff off = .ok (.ub w x) := by
  simp [ubUnpack, unpackFrom, hl, hx]

/-- The same number is read from the same bytes elsewhere. -/
theorem ubUnpack_same {w ref buff off u buff' off'} (h : ubUnpack w ref buff off = .ok u) (hl : off' + w ≤ buff'.length)
    (hs : slice buff' off' (off' + w) = slice buff off (off + w)) : ubUnpack w ref buff' off' = .ok u := by
  obtain ⟨n, _, hn, _, _, _, _, _, x, hx, rfl⟩ := ubUnpack_read h
  exact ubUnpack_slice hl (by rw [hs, ← hn]; exact hx)

/-- The encoding of a decoded number is the bytes it was read from. -/
theorem uint_copy {w ref dv dflt buff off u d} (h : (ubint w ref dv).unpack buff off = .ok u)
    (hd : (Spec.uint w ref.members dflt).den u = some d) :
    off + w ≤ buff.length ∧ d = .num (gotNum u) ∧ (Spec.uint w ref.members dflt).enc d = some (slice buff off (off + w)) := by
  obtain ⟨n, hl, hn, hlt, hg, h2, h3, h4, _⟩ := ubUnpack_read (show ubUnpack w ref buff off = .ok u from h)
  have hden : (Spec.uint w ref.members dflt).den u = some (.num n) := by
    cases u <;> first | exact absurd rfl h4 | simp [Spec.uint, h2]
  rw [hden] at hd
  cases hd
  refine ⟨hl, by rw [hg], ?_⟩
  simp only [Spec.uint, if_pos hlt]
  rw [hn, be_beVal' (slice_full_length hl)]

theorem slice_take {b : Bytes} {i j m : Nat} (h : j ≤ m) : slice (b.take m) i j = slice b i j := by
  simp [slice, List.take_take, Nat.min_eq_left h]

/-! ## Buffers cut at an announced length -/

def cutU (k : Nat) (U : Unpacker) : Unpacker := fun buff off =>
  match ubUnpack 2 .none buff (off + k) with
  | .error e => .error e
  | .ok n => U (buff.take (off + gotNum n)) off

theorem lengthCut_unpack (k c) : (lengthCut k c).unpack = cutU k c.unpack := rfl

theorem cutU_ok {k U buff off u} (h : cutU k U buff off = .ok u) :
    ∃ n, ubUnpack 2 .none buff (off + k) = .ok n ∧ U (buff.take (off + gotNum n)) off = .ok u := by
  simp only [cutU] at h
  cases h1 : ubUnpack 2 .none buff (off + k) with
  | error x => rw [h1] at h; cases h
  | ok n => rw [h1] at h; exact ⟨n, rfl, h⟩

/-- Two bytes at position `k` of the encoding of what was decoded are those that were read. -/
def Keeps2 (U : Unpacker) (f : Fmt) (k : Nat) : Prop :=
  ∀ buff off u d b, buff ≠ [] → U buff off = .ok u → f.den u = some d → f.enc d = some b →
    off + k + 2 ≤ buff.length ∧ slice b k (k + 2) = slice buff (off + k) (off + k + 2)

/-- What is decoded from nothing has no content. -/
def NilNone (U : Unpacker) (f : Fmt) : Prop := ∀ u, U [] 0 = .ok u → u ≠ .none ∧ f.den u = none

theorem NilNone.apply {U f u} {buff : Bytes} {m off : Nat} (h : NilNone U f) (hm : off ≤ m) (hb : buff ≠ []) (hc : buff.take m = [])
    (hu : U (buff.take m) off = .ok u) : u ≠ .none ∧ f.den u = none := by
  have hm0 : m = 0 := by
    simp only [List.take_eq_nil_iff] at hc
    rcases hc with h | h
    · exact h
    · exact absurd h hb
  subst hm0
  have : off = 0 := by omega
  subst this
  exact h u (by rw [← hc]; exact hu)

/-- Structures that announce a length which is part of their content. -/
theorem stab_cut {k U f t tot s} (h : Stab U f t tot s) (hk : Keeps2 U f k) (hn : NilNone U f) :
    Stab (cutU k U) f true false s := by
  intro buff off u hb hm hu
  obtain ⟨n, h1, h2⟩ := cutU_ok hu
  generalize hc : buff.take (off + gotNum n) = cut at h2
  by_cases hcn : cut = []
  · subst hcn
    rw [← hc] at h2
    obtain ⟨h3, h4⟩ := hn.apply (by omega) hb hc h2
    exact ⟨h3, by simp, by simp [h4]⟩
  · have hcl : cut.length = min (off + gotNum n) buff.length := by rw [← hc]; simp
    obtain ⟨h3, _, h5⟩ := h cut off u hcn (by omega) h2
    refine ⟨h3, by simp, ?_⟩
    intro d hd
    obtain ⟨b, heb, hle, hk1⟩ := h5 d hd
    refine ⟨b, heb, by omega, ?_⟩
    obtain ⟨hl2, hs2⟩ := hk cut off u d b hcn h2 hd heb
    have hlb : k + 2 ≤ b.length := by
      have := congrArg List.length hs2
      rw [slice_full_length hl2, slice_length] at this
      omega
    intro buff' off' j post ha
    have hsl := ha.slice (k := k) (w := 2) (by omega) hlb
    have hn' : ubUnpack 2 .none buff' (off' + k) = .ok n := by
      refine ubUnpack_same h1 ?_ ?_
      · rcases ha.read (k := k) (w := 2) (by omega) hlb with h | h
        · omega
        · omega
      · rw [hsl, hs2, ← hc, slice_take (by omega)]
    simp only [cutU, hn']
    have hj := ha.le
    refine hk1 _ _ (min (gotNum n) j) (post.take (gotNum n - min j b.length)) ⟨?_, by omega, ?_, ?_, ?_⟩
    · intro h0
      simp only [List.take_eq_nil_iff] at h0
      rcases h0 with h0 | h0
      · omega
      · exact ha.ne h0
    · have : (buff'.take (off' + gotNum n)).drop off' = (buff'.drop off').take (gotNum n) := by
        rw [List.drop_take]; congr 1; omega
      rw [this, ha.eq, List.take_append, List.take_take]
      simp
    · intro hlt
      by_cases hjb : j < b.length
      · simp [ha.cut hjb]
      · have : gotNum n - min j b.length = 0 := by omega
        simp [this]
    · intro _ hle'
      by_cases hab : buff.length - off ≤ b.length
      · simp [ha.last rfl hab]
      · have : gotNum n - min j b.length = 0 := by omega
        simp [this]

/-! ## Structures that compute their length -/

theorem unpackAttrs_append {cs₁ cs₂ : Fields} {buff off r} : unpackAttrs (cs₁ ++ cs₂) buff off = .ok r ↔
    ∃ vs₁ e₁ vs₂ e₂, unpackAttrs cs₁ buff off = .ok (vs₁, e₁) ∧ unpackAttrs cs₂ buff e₁ = .ok (vs₂, e₂) ∧ r = (vs₁ ++ vs₂, e₂) := by
  induction cs₁ generalizing off r with
  | nil =>
    simp only [List.nil_append, unpackAttrs]
    constructor
    · intro h; exact ⟨[], off, r.1, r.2, rfl, h, rfl⟩
    · rintro ⟨vs₁, e₁, vs₂, e₂, h1, h2, rfl⟩
      cases h1
      exact h2
  | cons x cs ih =>
    obtain ⟨n, c⟩ := x
    simp only [List.cons_append, unpackAttrs]
    cases h1 : unpackAttr c buff off with
    | error e => simp
    | ok p =>
      obtain ⟨v, e⟩ := p
      simp only
      constructor
      · intro h
        cases h2 : unpackAttrs (cs ++ cs₂) buff (off + e) with
        | error e => rw [h2] at h; cases h
        | ok q =>
          rw [h2] at h
          obtain ⟨vs₁, e₁, vs₂, e₂, h3, h4, rfl⟩ := ih.mp h2
          cases h
          exact ⟨v :: vs₁, e₁, vs₂, e₂, by rw [h3], h4, rfl⟩
      · rintro ⟨vs₁, e₁, vs₂, e₂, h3, h4, rfl⟩
        cases h5 : unpackAttrs cs buff (off + e) with
        | error e => rw [h5] at h3; cases h3
        | ok q =>
          obtain ⟨ws, e'⟩ := q
          rw [h5] at h3
          cases h3
          rw [ih.mpr ⟨ws, e₁, vs₂, e₂, h5, h4, rfl⟩]
          rfl

/-- A format with a computed length after the fields `fs₁`, followed by `fs₂` and `z` zeros. -/
structure LenFmt (cls : String) (fs₁ fs₂ : FieldFmts) (f : Fmt) (z : Nat → Nat) : Prop where
  den : ∀ vs₁ l vs₂ ds₁ ds₂, denAll fs₁ vs₁ = some ds₁ → denAll fs₂ vs₂ = some ds₂ →
    f.den (.obj cls (vs₁ ++ l :: vs₂)) = some (.record (ds₁ ++ ds₂))
  inv : ∀ vs d, f.den (.obj cls vs) = some d → ∃ vs₁ l vs₂ ds₁ ds₂, vs = vs₁ ++ l :: vs₂ ∧ denAll fs₁ vs₁ = some ds₁ ∧
    denAll fs₂ vs₂ = some ds₂ ∧ d = .record (ds₁ ++ ds₂)
  enc : ∀ ds₁ ds₂ b₁ b₂ n, encAll fs₁ ds₁ = some b₁ → encAll fs₂ ds₂ = some b₂ → n = b₁.length + 2 + b₂.length → n + z n < 65536 →
    f.enc (.record (ds₁ ++ ds₂)) = some (b₁ ++ be 2 (n + z n) ++ b₂ ++ List.replicate (z n) 0)

theorem lenFmt_ownLen {cls fs₁ fs₂} : LenFmt cls fs₁ fs₂ (ownLen cls fs₁ fs₂) (fun _ => 0) where
  den := fun _ _ _ _ _ h1 h2 => ownLen_den h1 h2
  inv := by
    intro vs d h
    simp only [ownLen] at h
    split at h
    · next hc =>
      obtain ⟨_, hl⟩ := hc
      split at h
      · next ds es h1 h2 =>
        cases h
        have e : vs = vs.take fs₁.length ++ vs[fs₁.length] :: vs.drop (fs₁.length + 1) := by
          rw [← List.drop_eq_getElem_cons, List.take_append_drop]
        exact ⟨_, _, _, ds, es, e, h1, h2, rfl⟩
      · cases h
    · cases h
  enc := by
    intro ds₁ ds₂ b₁ b₂ n h1 h2 hn hlt
    have hl := encAll_length h1
    simp only [ownLen]
    rw [List.take_left' hl, List.drop_left' hl, h1, h2]
    simp only [Nat.add_zero] at hlt
    simp only
    rw [if_pos (by omega)]
    simp [hn]

theorem Avail.take {tail avail b buff off j post} (h : Avail tail avail b buff off j post) (hb : b ≠ []) :
    Avail true avail b (buff.take (off + b.length)) off j [] where
  ne := by
    intro h0
    simp only [List.take_eq_nil_iff] at h0
    have := List.length_pos_iff.2 hb
    rcases h0 with h0 | h0
    · omega
    · exact h.ne h0
  le := h.le
  eq := by
    have : (buff.take (off + b.length)).drop off = (buff.drop off).take b.length := by
      rw [List.drop_take]; congr 1; omega
    rw [this, h.eq, List.append_nil]
    by_cases hj : j < b.length
    · rw [h.cut hj, List.append_nil, List.take_of_length_le]
      simp; omega
    · rw [List.take_of_length_le (l := b) (by omega)]
      exact List.take_left' rfl
  cut := fun _ => rfl
  last := fun _ _ => rfl

theorem stab_auto {cls nm dv cs₁ cs₂ fs₁ fs₂ f z k zmax tot₁ tot₂ t s} (hf : LenFmt cls fs₁ fs₂ f z)
    (h1 : StabRun cs₁ fs₁ false tot₁ 0) (hk : ∀ ds b, encAll fs₁ ds = some b → b.length = k)
    (hlen : cs₁.length = fs₁.length)
    (h2 : StabRun cs₂ fs₂ t tot₂ s) (hz : ∀ n, z n ≤ zmax) (hzt : t = true → ∀ n, z n = 0)
    (hn : NilNone (objUnpack cls (cs₁ ++ (nm, ubint 2 .none dv) :: cs₂)) f) :
    Stab (cutU k (objUnpack cls (cs₁ ++ (nm, ubint 2 .none dv) :: cs₂))) f false false (s + zmax) := by
  intro buff off u hb hm hu
  obtain ⟨n, hr, hu2⟩ := cutU_ok hu
  generalize hc : buff.take (off + gotNum n) = cut at hu2
  by_cases hcn : cut = []
  · subst hcn
    rw [← hc] at hu2
    obtain ⟨h3, h4⟩ := hn.apply (by omega) hb hc hu2
    exact ⟨h3, by simp, by simp [h4]⟩
  · have hcl : cut.length = min (off + gotNum n) buff.length := by rw [← hc]; simp
    obtain ⟨vs, e, hvs, rfl⟩ := objUnpack_ok hu2
    refine ⟨by simp, by simp, ?_⟩
    intro d hd
    obtain ⟨vs₁, l, vs₂, ds₁, ds₂, rfl, hd1, hd2, rfl⟩ := hf.inv vs d hd
    obtain ⟨ws₁, e₁, ws₂, e₂, hu1, hu2', heq⟩ := unpackAttrs_append.mp hvs
    simp only [Prod.mk.injEq] at heq
    obtain ⟨heq, rfl⟩ := heq
    -- the attribute lists split in the same way
    simp only [unpackAttrs, unpackAttr, if_neg hcn] at hu2'
    cases hl : (ubint 2 .none dv).unpack cut e₁ with
    | error x => rw [hl] at hu2'; cases hu2'
    | ok l' =>
      rw [hl] at hu2'
      simp only at hu2'
      have hus : (ubint 2 .none dv).usize l' = .ok 2 := rfl
      rw [hus] at hu2'
      simp only at hu2'
      cases hrest : unpackAttrs cs₂ cut (e₁ + 2) with
      | error x => rw [hrest] at hu2'; cases hu2'
      | ok q =>
        obtain ⟨ws, e'⟩ := q
        rw [hrest] at hu2'
        cases hu2'
        have hlen1 : ws₁.length = cs₁.length := by
          have : ∀ (cs : Fields) (o : Nat) (vs : List Val) (e : Nat), unpackAttrs cs cut o = .ok (vs, e) → vs.length = cs.length := by
            intro cs
            induction cs with
            | nil => intro o vs e h; simp only [unpackAttrs] at h; cases h; rfl
            | cons x cs ih =>
              intro o vs e h
              obtain ⟨n, c⟩ := x
              simp only [unpackAttrs] at h
              cases h1 : unpackAttr c cut o with
              | error e => rw [h1] at h; cases h
              | ok p =>
                rw [h1] at h
                simp only at h
                cases h2 : unpackAttrs cs cut (o + p.2) with
                | error e => rw [h2] at h; cases h
                | ok q => rw [h2] at h; cases h; simp [ih _ _ _ h2]
          exact this _ _ _ _ hu1
        have hlen2 : vs₁.length = ws₁.length := by rw [hlen1, hlen, (denAll_length hd1).1]
        obtain ⟨rfl, heq2⟩ := List.append_inj heq hlen2
        cases heq2
        obtain ⟨b₁, hb1, rfl, hle1, hk1⟩ := (h1 cut off vs₁ e₁ hcn (by omega) hu1).2 ds₁ hd1
        obtain ⟨b₂, hb2, hee2, hle2, hk2⟩ := (h2 cut (off + b₁.length + 2) vs₂ _ hcn (by
          have := (ubUnpack_read (show ubUnpack 2 .none cut (off + b₁.length) = .ok l from hl)).choose_spec.1
          omega) hrest).2 ds₂ hd2
        have hread := (ubUnpack_read (show ubUnpack 2 .none cut (off + b₁.length) = .ok l from hl)).choose_spec.1
        have hkb := hk ds₁ b₁ hb1
        generalize hN : b₁.length + 2 + b₂.length = N
        have hzN := hz N
        have hlt : N + z N < 65536 := by omega
        have henc := hf.enc ds₁ ds₂ b₁ b₂ N hb1 hb2 hN.symm hlt
        generalize hL : N + z N = L at hlt henc
        refine ⟨_, henc, by simp; omega, ?_⟩
        intro buff' off' j post ha
        generalize hbb : b₁ ++ be 2 L ++ b₂ ++ List.replicate (z N) 0 = b at ha
        have hbl : b.length = L := by rw [← hbb]; simp; omega
        have hbne : b ≠ [] := by intro h0; rw [h0] at hbl; simp at hbl; omega
        have hsl : slice b k (k + 2) = be 2 L := by
          rw [← hbb, ← hkb, List.append_assoc _ b₂]
          exact slice_mid' b₁ _ _ (by simp)
        have hj := ha.le
        have hrd := ha.slice (k := k) (w := 2) (by omega) (by omega)
        have hrl : off' + k + 2 ≤ buff'.length := by
          rcases ha.read (k := k) (w := 2) (by omega) (by omega) with h | h
          · exact h
          · omega
        have hn' : ubUnpack 2 .none buff' (off' + k) = .ok (.ub 2 (.int L)) := by
          refine ubUnpack_slice hrl ?_
          rw [hrd, hsl, beVal_be_of_lt (by simpa using hlt)]
          simp [refApply]
        have hgot' : gotNum (.ub 2 (.int L)) = b.length := by simp [gotNum, hbl]
        simp only [cutU, hn', hgot']
        have ha1 := ha.take hbne
        generalize hcut' : buff'.take (off' + b.length) = cut' at ha1 ⊢
        -- the first fields, the length, the other fields
        rw [← hbb, List.append_assoc, List.append_assoc] at ha1
        have hA := ha1.left
        have hB := ha1.right
        have hC := hB.right
        have hD := hC.left
        simp only [be_length] at hC hD hB
        obtain ⟨xs₁, hx1, hxd1⟩ := hk1 cut' off' j _ ⟨hA.ne, by omega, hA.eq, hA.cut, by simp⟩
        have hlr : ubUnpack 2 .none cut' (off' + b₁.length) = .ok (.ub 2 (.int L)) := by
          refine ubUnpack_same hn' ?_ ?_
          · rw [← hcut']; simp; omega
          · rw [← hcut', slice_take (by omega), hkb]
        obtain ⟨xs₂, hx2, hxd2⟩ := hk2 cut' (off' + b₁.length + 2) (j - b₁.length - 2)
          ((List.replicate (z N) 0).take (j - b₁.length - 2 - b₂.length) ++ [])
          ⟨hD.ne, by omega, by rw [hD.eq], fun h => hD.cut h, fun ht _ => by simp [hzt ht N]⟩
        have : unpackAttrs (cs₁ ++ (nm, ubint 2 .none dv) :: cs₂) cut' off' =
            .ok (xs₁ ++ (.ub 2 (.int L)) :: xs₂, off' + b₁.length + 2 + b₂.length) := by
          refine unpackAttrs_append.mpr ⟨xs₁, _, (.ub 2 (.int L)) :: xs₂, _, hx1, ?_, rfl⟩
          simp only [unpackAttrs, unpackAttr, if_neg hA.ne]
          rw [show (ubint 2 .none dv).unpack cut' (off' + b₁.length) = _ from hlr]
          simp only [show ∀ v, (ubint 2 .none dv).usize v = .ok 2 from fun _ => rfl, hx2]
        refine ⟨.obj cls (xs₁ ++ (.ub 2 (.int L)) :: xs₂), ?_, hf.den _ _ _ _ _ hxd1 hxd2, by simp⟩
        simp only [objUnpack, this]

/-! ## Alternatives -/

/-- How a class of a family is decoded once it is chosen. -/
def subUnpack (trunc : Bool) (s : Sub) : Unpacker :=
  if trunc then cutU 2 (objUnpack s.name s.fields) else objUnpack s.name s.fields

theorem variantUnpack_eq (ref trunc pick) (buff : Bytes) (off : Nat) : variantUnpack ref trunc pick buff off =
    match ubUnpack 2 ref buff off with
    | .error e => .error e
    | .ok t => match pick (gotNum t) with | .error e => .error e | .ok s => subUnpack trunc s buff off := by
  simp only [variantUnpack]
  cases ubUnpack 2 ref buff off with
  | error e => rfl
  | ok t =>
    simp only
    cases pick (gotNum t) with
    | error e => rfl
    | ok s =>
      simp only
      cases trunc with
      | false => rfl
      | true =>
        simp only [subUnpack, if_true, cutU]
        cases ubUnpack 2 .none buff (off + 2) <;> rfl

theorem subUnpack_obj {trunc s buff off u} (h : subUnpack trunc s buff off = .ok u) : ∃ vs, u = .obj s.name vs := by
  cases trunc with
  | false => obtain ⟨vs, _, _, h⟩ := objUnpack_ok h; exact ⟨vs, h⟩
  | true =>
    obtain ⟨n, _, h⟩ := cutU_ok h
    obtain ⟨vs, _, _, h⟩ := objUnpack_ok h; exact ⟨vs, h⟩

/-- A class of a family: stable, and its content starts with the type that was read. -/
structure SubStab (ref : Ref) (trunc : Bool) (s : Sub) (f : Fmt) (t tot : Bool) (k : Nat) : Prop where
  stab : Stab (subUnpack trunc s) f t tot k
  type : ∀ n ds b, f.enc (.record (.num n :: ds)) = some b → n < 65536 ∧ ∃ r, b = be 2 n ++ r
  head : ∀ buff off u v d, subUnpack trunc s buff off = .ok u → ubUnpack 2 ref buff off = .ok v → f.den u = some d →
    ∃ ds, d = .record (.num (gotNum v) :: ds)

theorem stab_variant {ref trunc pick sel lay t tot k}
    (hs : ∀ n s, (∀ ms, ref.members = some ms → n ∈ ms) → pick n = .ok s →
      sel n = some s.name ∧ SubStab ref trunc s (lay s.name) t tot k) :
    Stab (variantUnpack ref trunc pick) (union sel lay) t tot k := by
  intro buff off u hb hm hu
  rw [variantUnpack_eq] at hu
  cases h1 : ubUnpack 2 ref buff off with
  | error e => rw [h1] at hu; cases hu
  | ok v =>
    rw [h1] at hu
    simp only at hu
    obtain ⟨n, hl, hn, hlt, hg, _, hmem, _, _⟩ := ubUnpack_read h1
    rw [hg] at hu
    cases h2 : pick n with
    | error e => rw [h2] at hu; cases hu
    | ok s =>
      rw [h2] at hu
      simp only at hu
      obtain ⟨hsel, hss⟩ := hs n s hmem h2
      obtain ⟨h3, h4, h5⟩ := hss.stab buff off u hb hm hu
      obtain ⟨vs, rfl⟩ := subUnpack_obj hu
      refine ⟨h3, ?_, ?_⟩
      · intro ht
        obtain ⟨d, hd⟩ := h4 ht
        obtain ⟨ds, rfl⟩ := hss.head buff off _ v d hu h1 hd
        rw [hg] at hd
        exact ⟨.tag s.name (.record (.num n :: ds)), by simp only [union, hd, hsel, if_true]⟩
      · intro d hd
        obtain ⟨c, ws, t', ds, hw, hd', hc, rfl⟩ := union_den_inv hd
        cases hw
        obtain ⟨ds', hds'⟩ := hss.head buff off _ v _ hu h1 hd'
        cases hds'
        rw [hg] at hd' hc ⊢
        obtain ⟨b, heb, hle, hk⟩ := h5 _ hd'
        obtain ⟨_, r, hr⟩ := hss.type n ds b heb
        refine ⟨b, by simp only [union, hc, if_true]; exact heb, hle, ?_⟩
        intro buff' off' j post ha
        obtain ⟨u', hu', hd2, hn2⟩ := hk _ _ _ _ ha
        obtain ⟨ws', rfl⟩ := subUnpack_obj hu'
        refine ⟨_, ?_, by simp only [union, hd2, hc, if_true], hn2⟩
        have hbl : 2 ≤ b.length := by rw [hr]; simp
        have hrd := ha.slice (k := 0) (w := 2) (by omega) (by omega)
        have hrl : off' + 0 + 2 ≤ buff'.length := by
          rcases ha.read (k := 0) (w := 2) (by omega) (by omega) with h | h
          · exact h
          · omega
        simp only [Nat.add_zero] at hrd hrl
        have hv : ubUnpack 2 ref buff' off' = .ok v := by
          refine ubUnpack_same h1 hrl ?_
          rw [hrd, hr]
          have : slice (be 2 n ++ r) 0 (0 + 2) = be 2 n := slice_mid' [] (be 2 n) r (by simp)
          rw [this, hn, be_beVal' (slice_full_length hl)]
        rw [variantUnpack_eq, hv]
        simp only [hg, h2, hu']

/-! ## Classes whose first attribute is their type -/

theorem first_attr {n c cs buff off vs e} (h : unpackAttrs ((n, c) :: cs) buff off = .ok (vs, e)) (hb : buff ≠ []) :
    ∃ v vs' k, vs = v :: vs' ∧ c.unpack buff off = .ok v ∧ c.usize v = .ok k ∧ unpackAttrs cs buff (off + k) = .ok (vs', e) := by
  simp only [unpackAttrs, unpackAttr, if_neg hb] at h
  cases h1 : c.unpack buff off with
  | error x => rw [h1] at h; cases h
  | ok v =>
    rw [h1] at h
    simp only at h
    cases h2 : c.usize v with
    | error x => rw [h2] at h; cases h
    | ok k =>
      rw [h2] at h
      simp only at h
      cases h3 : unpackAttrs cs buff (off + k) with
      | error x => rw [h3] at h; cases h
      | ok q => rw [h3] at h; cases h; exact ⟨v, q.1, k, rfl, rfl, h2, h3⟩

/-- A prefix that is long enough for a number is read like the whole. -/
theorem ubUnpack_prefix {w ref} {buff : Bytes} {m off u} (h : ubUnpack w ref (buff.take m) off = .ok u) :
    ubUnpack w ref buff off = .ok u := by
  obtain ⟨_, hl, _⟩ := ubUnpack_read h
  simp at hl
  exact ubUnpack_same h (by omega) (by rw [slice_take (by omega)])

/-- Keeping the first number. -/
theorem keeps2_first {cls nm nm' dv cs dflt fs} :
    Keeps2 (objUnpack cls ((nm, ubint 2 .none dv) :: cs)) (Spec.struct cls ((nm', uint 2 none dflt) :: fs)) 0 := by
  intro buff off u d b hb hu hd he
  obtain ⟨vs, e, h1, rfl⟩ := objUnpack_ok hu
  obtain ⟨v, vs', k, rfl, h2, _, _⟩ := first_attr h1 hb
  obtain ⟨ws, ds, hw, h3, rfl⟩ := struct_den_inv hd
  cases hw
  obtain ⟨d1, ds', h4, h5, rfl⟩ := denAll_cons.mp h3
  obtain ⟨b1, b2, h6, h7, rfl⟩ := (encAll_cons (n := nm')).mp he
  obtain ⟨hl, _, h8⟩ := uint_copy (ref := .none) (dv := dv) (dflt := dflt) h2 h4
  simp only [Ref.members] at h8
  rw [h6] at h8
  cases h8
  refine ⟨by omega, ?_⟩
  have := slice_mid' [] (slice buff off (off + 2)) b2 (n := 2) (by rw [slice_full_length hl]; simp)
  simpa using this

/-- Keeping the second number. -/
theorem keeps2_second {cls nm nm' nn nn' ref ms dv dv' cs dflt dflt' fs} (hms : ms = ref.members) :
    Keeps2 (objUnpack cls ((nn, ubint 2 ref dv') :: (nm, ubint 2 .none dv) :: cs))
      (Spec.struct cls ((nn', uint 2 ms dflt') :: (nm', uint 2 none dflt) :: fs)) 2 := by
  subst hms
  intro buff off u d b hb hu hd he
  obtain ⟨vs, e, h1, rfl⟩ := objUnpack_ok hu
  obtain ⟨v, vs', k, rfl, h2, hk, h1'⟩ := first_attr h1 hb
  obtain ⟨v2, vs2', k2, rfl, h22, hk2, _⟩ := first_attr h1' hb
  have : k = 2 := by
    have : (ubint 2 ref dv').usize v = .ok 2 := rfl
    rw [this] at hk; cases hk; rfl
  subst this
  obtain ⟨ws, ds, hw, h3, rfl⟩ := struct_den_inv hd
  cases hw
  obtain ⟨d1, ds', h4, h5, rfl⟩ := denAll_cons.mp h3
  obtain ⟨d2, ds2', h42, h52, rfl⟩ := denAll_cons.mp h5
  obtain ⟨b1, b2, h6, h7, rfl⟩ := (encAll_cons (n := nn')).mp he
  obtain ⟨b3, b4, h8, h9, rfl⟩ := encAll_cons.mp h7
  obtain ⟨hl1, _, h10⟩ := uint_copy (ref := ref) (dv := dv') (dflt := dflt') h2 h4
  rw [h6] at h10
  cases h10
  obtain ⟨hl, _, h11⟩ := uint_copy (ref := .none) (dv := dv) (dflt := dflt) h22 h42
  simp only [Ref.members] at h11
  rw [h8] at h11
  cases h11
  refine ⟨by omega, ?_⟩
  have := slice_mid' (slice buff off (off + 2)) (slice buff (off + 2) (off + 2 + 2)) b4 (n := 4)
    (by rw [slice_full_length hl1, slice_full_length hl])
  rw [slice_full_length hl1, List.append_assoc] at this
  exact this

theorem nilNone_first {cls nm nm' w ref cs ms fs} :
    NilNone (objUnpack cls ((nm, ubint w ref .none) :: cs)) (Spec.struct cls ((nm', uint w ms none) :: fs)) := by
  intro u hu
  obtain ⟨vs, e, h1, rfl⟩ := objUnpack_ok hu
  refine ⟨by simp, ?_⟩
  simp only [unpackAttrs, unpackAttr, if_true] at h1
  cases h2 : unpackAttrs cs [] (0 + 0) with
  | error x => rw [h2] at h1; cases h1
  | ok q =>
    rw [h2] at h1
    cases h1
    simp [Spec.struct, denAll, Spec.uint, ubint, numOf]

theorem nil_length : ∀ (cs : Fields) (o : Nat) (vs : List Val) (e : Nat), unpackAttrs cs [] o = .ok (vs, e) → vs = cs.map (·.2.proto) := by
  intro cs
  induction cs with
  | nil => intro o vs e h; simp only [unpackAttrs] at h; cases h; rfl
  | cons x cs ih =>
    intro o vs e h
    simp only [unpackAttrs, unpackAttr, if_true] at h
    cases h2 : unpackAttrs cs [] (o + 0) with
    | error e => rw [h2] at h; cases h
    | ok q => rw [h2] at h; cases h; simp [ih _ _ _ h2]

/-- The type in front of a computed length. -/
theorem nilNone_len1 {cls nm nm' w ref cs ms fs₂ f z} (hf : LenFmt cls [(nm', uint w ms none)] fs₂ f z) :
    NilNone (objUnpack cls ([(nm, ubint w ref .none)] ++ cs)) f := by
  intro u hu
  obtain ⟨vs, e, h1, rfl⟩ := objUnpack_ok hu
  refine ⟨by simp, ?_⟩
  rw [nil_length _ _ _ _ h1]
  cases hd : f.den (.obj cls (([(nm, ubint w ref .none)] ++ cs).map (·.2.proto))) with
  | none => rfl
  | some d =>
    obtain ⟨vs₁, l, vs₂, ds₁, ds₂, hv, hd1, _, _⟩ := hf.inv _ _ hd
    obtain ⟨h2, _⟩ := denAll_length hd1
    match vs₁, h2 with
    | [v], _ =>
      simp only [List.map_append, List.map_cons, List.map_nil, List.cons_append, List.nil_append, List.cons.injEq] at hv
      rw [← hv.1] at hd1
      simp [denAll, Spec.uint, ubint, numOf] at hd1

/-- A number after a length in front. -/
theorem nilNone_len0 {cls nm nm' w ref c cs ms fs₂ f z} (hf : LenFmt cls [] ((nm', uint w ms none) :: fs₂) f z) :
    NilNone (objUnpack cls ([] ++ c :: (nm, ubint w ref .none) :: cs)) f := by
  intro u hu
  obtain ⟨vs, e, h1, rfl⟩ := objUnpack_ok hu
  refine ⟨by simp, ?_⟩
  rw [nil_length _ _ _ _ h1]
  cases hd : f.den (.obj cls ((([] ++ c :: (nm, ubint w ref .none) :: cs) : Fields).map (·.2.proto))) with
  | none => rfl
  | some d =>
    obtain ⟨vs₁, l, vs₂, ds₁, ds₂, hv, hd1, hd2, _⟩ := hf.inv _ _ hd
    obtain ⟨h2, _⟩ := denAll_length hd1
    match vs₁, h2 with
    | [], _ =>
      simp only [List.map_cons, List.nil_append, List.cons.injEq] at hv
      rw [← hv.2] at hd2
      simp [denAll, Spec.uint, ubint, numOf] at hd2

/-! ## Classes of a family -/

/-- The type in the content is the type that was read. -/
theorem head_num {ref ref' dv ms dflt} {buff : Bytes} {m off v v' d} (h : ubUnpack 2 ref buff off = .ok v)
    (h' : (ubint 2 ref' dv).unpack (buff.take m) off = .ok v') (hms : ms = ref'.members)
    (hd : (uint 2 ms dflt).den v' = some d) : d = .num (gotNum v) := by
  subst hms
  obtain ⟨_, rfl, _⟩ := uint_copy (ref := ref') (dv := dv) (dflt := dflt) h' hd
  have h2 := ubUnpack_prefix (show ubUnpack 2 ref' (buff.take m) off = .ok v' from h')
  obtain ⟨n, _, hn, _, hg, _⟩ := ubUnpack_read h
  obtain ⟨n', _, hn', _, hg', _⟩ := ubUnpack_read h2
  rw [hg, hg', hn, hn']

theorem type_struct {cls nm ms dflt fs} : ∀ n ds b,
    (Spec.struct cls ((nm, uint 2 ms dflt) :: fs)).enc (.record (.num n :: ds)) = some b → n < 65536 ∧ ∃ r, b = be 2 n ++ r := by
  intro n ds b he
  obtain ⟨x, y, hx, _, rfl⟩ := (encAll_cons (n := nm)).mp he
  obtain ⟨k, hk, hk2, rfl⟩ := uint_enc_inv hx
  cases hk
  exact ⟨hk2, y, rfl⟩

/-- A class without announced length. -/
theorem SubStab.plain {ref ref' dv ms dflt cs fs t tot k} {s : Sub} {nm nm' : String} (hms : ms = ref'.members)
    (hf : s.fields = (nm, ubint 2 ref' dv) :: cs)
    (h : StabRun ((nm, ubint 2 ref' dv) :: cs) ((nm', uint 2 ms dflt) :: fs) t tot k) :
    SubStab ref false s (Spec.struct s.name ((nm', uint 2 ms dflt) :: fs)) t tot k where
  stab := by
    have := h.obj s.name
    rw [← hf] at this
    exact this
  type := type_struct
  head := by
    intro buff off u v d hu hv hd
    have hb : buff ≠ [] := by
      rintro rfl
      obtain ⟨_, hl, _⟩ := ubUnpack_read hv
      simp at hl
    obtain ⟨vs, e, h1, rfl⟩ := objUnpack_ok (cls := s.name) (cs := s.fields) hu
    rw [hf] at h1
    obtain ⟨v', vs', _, rfl, h2, _, _⟩ := first_attr h1 hb
    obtain ⟨ws, ds, hw, h3, rfl⟩ := struct_den_inv hd
    cases hw
    obtain ⟨d1, ds', h4, h5, rfl⟩ := denAll_cons.mp h3
    refine ⟨ds', ?_⟩
    rw [head_num (m := buff.length) hv (by rw [List.take_length]; exact h2) hms h4]

/-- A class whose announced length is part of its content. -/
theorem SubStab.cut {ref ref' ms cs fs t tot k} {s : Sub} {nm nm' nl nl' : String} (hms : ms = ref'.members)
    (hf : s.fields = (nm, ubint 2 ref' .none) :: (nl, ubint 2 .none .none) :: cs)
    (h : StabRun ((nm, ubint 2 ref' .none) :: (nl, ubint 2 .none .none) :: cs)
      ((nm', uint 2 ms none) :: (nl', uint 2 none none) :: fs) t tot k) :
    SubStab ref true s (Spec.struct s.name ((nm', uint 2 ms none) :: (nl', uint 2 none none) :: fs)) true false k where
  stab := by
    have := stab_cut (h.obj s.name) (keeps2_second hms) nilNone_first
    rw [← hf] at this
    exact this
  type := type_struct
  head := by
    intro buff off u v d hu hv hd
    obtain ⟨n, _, hu⟩ := cutU_ok (k := 2) (U := objUnpack s.name s.fields) hu
    by_cases hb : buff.take (off + gotNum n) = []
    · rw [hf] at hu
      have hbb : buff ≠ [] := by
        rintro rfl
        obtain ⟨_, hl, _⟩ := ubUnpack_read hv
        simp at hl
      have := (NilNone.apply (nilNone_first (nm' := nm') (ms := ms) (fs := (nl', uint 2 none none) :: fs)) (by omega) hbb hb hu).2
      rw [this] at hd
      cases hd
    · obtain ⟨vs, e, h1, rfl⟩ := objUnpack_ok hu
      rw [hf] at h1
      obtain ⟨v', vs', _, rfl, h2, _, _⟩ := first_attr h1 hb
      obtain ⟨ws, ds, hw, h3, rfl⟩ := struct_den_inv hd
      cases hw
      obtain ⟨d1, ds', h4, h5, rfl⟩ := denAll_cons.mp h3
      exact ⟨ds', by rw [head_num hv h2 hms h4]⟩

/-- A class that computes its length. -/
theorem SubStab.auto {ref ref' ms dv cs₂ fs₂ f z zmax t tot k} {s : Sub} {nm nm' nl : String} (hms : ms = ref'.members)
    (hf : s.fields = (nm, ubint 2 ref' .none) :: (nl, ubint 2 .none dv) :: cs₂)
    (hl : LenFmt s.name [(nm', uint 2 ms none)] fs₂ f z) (h : StabRun cs₂ fs₂ t tot k)
    (hz : ∀ n, z n ≤ zmax) (hzt : t = true → ∀ n, z n = 0)
    (htype : ∀ n ds b, f.enc (.record (.num n :: ds)) = some b → n < 65536 ∧ ∃ r, b = be 2 n ++ r) :
    SubStab ref true s f true false (k + zmax) where
  stab := by
    subst hms
    have h1 : StabRun [(nm, ubint 2 ref' .none)] [(nm', uint 2 ref'.members none)] false _ _ :=
      run_cons (enc_uint 2 ref' none _) (stab_uint 2 ref' .none none) run_nil
    have := stab_auto (nm := nl) (dv := dv) hl h1 (k := 2) (by
      intro ds b hb
      obtain ⟨d, r, x, y, rfl, hx, hy, rfl⟩ := encAll_cons_inv hb
      obtain ⟨n, rfl, _, rfl⟩ := uint_enc_inv hx
      cases r with
      | nil => simp [encAll] at hy; subst hy; simp
      | cons => simp [encAll] at hy) rfl h hz hzt (nilNone_len1 hl)
    have := this.tail true
    simp only [List.cons_append, List.nil_append] at this
    rw [← hf] at this
    exact this
  type := htype
  head := by
    intro buff off u v d hu hv hd
    obtain ⟨n, _, hu⟩ := cutU_ok (k := 2) (U := objUnpack s.name s.fields) hu
    by_cases hb : buff.take (off + gotNum n) = []
    · rw [hf] at hu
      have hbb : buff ≠ [] := by
        rintro rfl
        obtain ⟨_, hl, _⟩ := ubUnpack_read hv
        simp at hl
      have := (NilNone.apply (nilNone_len1 (nm := nm) (ref := ref') (cs := (nl, ubint 2 .none dv) :: cs₂) hl) (by omega) hbb hb hu).2
      rw [this] at hd
      cases hd
    · obtain ⟨vs, e, h1, rfl⟩ := objUnpack_ok hu
      rw [hf] at h1
      obtain ⟨v', vs', _, rfl, h2, _, _⟩ := first_attr h1 hb
      obtain ⟨vs₁, l, vs₂, ds₁, ds₂, hvv, hd1, hd2, rfl⟩ := hl.inv _ _ hd
      match vs₁, (denAll_length hd1).1 with
      | [x], _ =>
        simp only [List.cons_append, List.nil_append, List.cons.injEq] at hvv
        rw [← hvv.1] at hd1
        obtain ⟨d1, ds', h4, h5, rfl⟩ := denAll_cons.mp hd1
        exact ⟨ds' ++ ds₂, by rw [head_num hv h2 hms h4]; rfl⟩

theorem type_ownLen {cls nm ms dflt fs₂} : ∀ n ds b,
    (ownLen cls [(nm, uint 2 ms dflt)] fs₂).enc (.record (.num n :: ds)) = some b → n < 65536 ∧ ∃ r, b = be 2 n ++ r := by
  intro n ds b he
  obtain ⟨ds₁, ds₂, b₁, b₂, hd, h1, h2, _, rfl⟩ := ownLen_enc_inv he
  match ds₁, encAll_length h1 with
  | [d], _ =>
    simp only [List.cons_append, List.nil_append, Data.record.injEq, List.cons.injEq] at hd
    obtain ⟨rfl, _⟩ := hd
    obtain ⟨x, y, hx, _, rfl⟩ := encAll_cons.mp h1
    obtain ⟨k, hk, hk2, rfl⟩ := uint_enc_inv hx
    cases hk
    exact ⟨hk2, _, by simp only [List.append_assoc]; rfl⟩

end Pyof
