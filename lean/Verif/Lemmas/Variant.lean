import Verif.Model.Variant
import Verif.Spec.Union
import Verif.Lemmas.Msg
/-! The variant construction implements the union format. -/
namespace Pyof
open Spec

/-- A class of a family implements its format. -/
structure SubOk (s : Sub) (f : Fmt) (tail : Bool) : Prop where
  pack : ∀ vs d, f.den (.obj s.name vs) = some d → ∀ b, s.pack vs = .ok b ↔ f.enc d = some b
  size : ∀ vs d b, f.den (.obj s.name vs) = some d → f.enc d = some b → s.size vs = .ok b.length
  unpack : ∀ d b pre post, f.enc d = some b → f.ok d → (tail = true → post = []) → pre ++ b ++ post ≠ [] →
    ∃ vs e, unpackAttrs s.fields (pre ++ b ++ post) pre.length = .ok (vs, e) ∧ f.den (.obj s.name vs) = some d
  /-- The bytes begin with the type number. -/
  type : ∀ t ds b, f.enc (.record (.num t :: ds)) = some b → t < 65536 ∧ ∃ r, b = be 2 t ++ r

theorem Spec.Impl.sub {t cs fs} (h : Impl t cs fs) (s : Sub) (hf : s.fields = cs) (hp : s.pack = packAttrs cs)
    (hs : ∀ vs n, sizeAttrs cs vs = .ok n → s.size vs = .ok n)
    {ms dflt} (h0 : ∃ n r, fs = (n, Spec.uint 2 ms dflt) :: r) : SubOk s (Spec.struct s.name fs) t where
  pack := by
    intro vs d hd b
    obtain ⟨ws, ds, hw, h1, rfl⟩ := struct_den_inv hd
    cases hw
    rw [hp]
    exact (h.encs _ _ h1).1 b
  size := by
    intro vs d b hd he
    obtain ⟨ws, ds, hw, h1, rfl⟩ := struct_den_inv hd
    cases hw
    exact hs _ _ ((h.encs _ _ h1).2 b he)
  unpack := by
    intro d b pre post he ho ht hb
    obtain ⟨ds, rfl, he⟩ := struct_enc_inv he
    obtain ⟨vs, hvs, hden⟩ := h.decs ds b pre post he ho ht hb
    rw [hf]
    exact ⟨vs, _, hvs, by simp [Spec.struct, hden]⟩
  type := by
    intro t' ds b he
    obtain ⟨ds', h1, he⟩ := struct_enc_inv he
    cases h1
    obtain ⟨n, r, rfl⟩ := h0
    obtain ⟨x, y, hx, _, rfl⟩ := encAll_cons.mp he
    obtain ⟨k, hk, hk2, rfl⟩ := uint_enc_inv hx
    cases hk
    exact ⟨hk2, y, rfl⟩

theorem union_den_inv {sel lay v d} (h : (union sel lay).den v = some d) :
    ∃ c vs t ds, v = .obj c vs ∧ (lay c).den (.obj c vs) = some (.record (.num t :: ds)) ∧ sel t = some c ∧
      d = .tag c (.record (.num t :: ds)) := by
  simp only [union] at h
  split at h
  · split at h
    · split at h
      · cases h
        exact ⟨_, _, _, _, rfl, by assumption, by assumption, rfl⟩
      · cases h
    · cases h
  · cases h

theorem union_enc_inv {sel lay d b} (h : (union sel lay).enc d = some b) :
    ∃ c t ds, d = .tag c (.record (.num t :: ds)) ∧ sel t = some c ∧ (lay c).enc (.record (.num t :: ds)) = some b := by
  simp only [union] at h
  split at h
  · split at h
    · exact ⟨_, _, _, rfl, by assumption, h⟩
    · cases h
  · cases h

theorem subOf_name {subs c s} (h : subOf subs c = some s) : s.name = c := by
  have := List.find?_some h
  simpa using this

theorem enc_variant {proto ref trunc pick subs sel lay}
    (hsub : ∀ t c, sel t = some c → ∃ s, subOf subs c = some s ∧ ∃ tail, SubOk s (lay c) tail) :
    Enc (variantAttr proto ref trunc pick subs) (union sel lay) where
  pack := by
    intro v d hv b
    obtain ⟨c, vs, t, ds, rfl, h1, hc, rfl⟩ := union_den_inv hv
    obtain ⟨s, hs, tl, ok⟩ := hsub t c hc
    have hn := subOf_name hs
    simp only [variantAttr, hs, union, if_pos hc]
    exact ok.pack vs _ (by rw [hn]; exact h1) b
  size := by
    intro v d b hv he
    obtain ⟨c, vs, t, ds, rfl, h1, hc, rfl⟩ := union_den_inv hv
    obtain ⟨s, hs, tl, ok⟩ := hsub t c hc
    have hn := subOf_name hs
    simp only [variantAttr, hs]
    simp only [union, if_pos hc] at he
    exact ok.size vs _ b (by rw [hn]; exact h1) he
  usize := by
    intro v d b _ hv he
    obtain ⟨c, vs, t, ds, rfl, h1, hc, rfl⟩ := union_den_inv hv
    obtain ⟨s, hs, tl, ok⟩ := hsub t c hc
    have hn := subOf_name hs
    simp only [variantAttr, hs]
    simp only [union, if_pos hc] at he
    exact ok.size vs _ b (by rw [hn]; exact h1) he

theorem itemOk_union {subs sel lay} (h : ∀ t c, sel t = some c → (subOf subs c).isSome = true) : ItemOk (isSub subs) (union sel lay) where
  isItem := by
    intro x d hx
    obtain ⟨c, vs, t, ds, rfl, h1, hc, rfl⟩ := union_den_inv hx
    simp [isSub, h t c hc]
  notList := by
    intro x d hx
    obtain ⟨c, vs, t, ds, rfl, h1, hc, rfl⟩ := union_den_inv hx
    simp

theorem nonEmpty_union {sel lay} (h : ∀ t c, sel t = some c → NonEmpty (lay c)) : NonEmpty (union sel lay) := by
  intro d he
  obtain ⟨c, t, ds, rfl, hc, he⟩ := union_enc_inv he
  exact h t c hc _ he

/-- Type numbers accepted by `ref` are read back as themselves. -/
theorem ubUnpack_type {ref : Ref} {t : Nat} (ht : t < 65536) (hm : ∀ ms, ref.members = some ms → t ∈ ms)
    (pre post : Bytes) : ∃ u, ubUnpack 2 ref (pre ++ be 2 t ++ post) pre.length = .ok u ∧ gotNum u = t := by
  rw [ubUnpack_be ref pre post (n := t) (by simpa using ht) rfl]
  cases ref with
  | none => exact ⟨_, rfl, by simp [gotNum]⟩
  | mask => exact ⟨_, rfl, by simp [gotNum]⟩
  | enum ms => exact ⟨.ub 2 (.enum t), by simp [refApply, hm ms rfl], by simp [gotNum]⟩

/-- Without truncation: what follows an object does not matter if no class of the family runs to the end. -/
theorem dec_variant {proto ref pick subs sel lay}
    (hsub : ∀ t c, sel t = some c → ∃ s, pick t = .ok s ∧ s.name = c ∧ SubOk s (lay c) false)
    (href : ∀ t c ds, sel t = some c → (lay c).ok (.record (.num t :: ds)) → ∀ ms, ref.members = some ms → t ∈ ms) :
    Dec (variantAttr proto ref false pick subs) (union sel lay) false where
  unpack := by
    intro d b pre post he ho _ hne
    obtain ⟨c, t, ds, rfl, hc, he⟩ := union_enc_inv he
    simp only [union] at ho
    obtain ⟨s, hs, hname, ok⟩ := hsub t c hc
    obtain ⟨htt, r, hr⟩ := ok.type t ds b he
    obtain ⟨u, hu, hut⟩ := ubUnpack_type htt (href t c ds hc ho) pre (r ++ post)
    obtain ⟨vs, e, hvs, hden⟩ := ok.unpack _ b pre post he ho (by simp) hne
    have e1 : pre ++ b ++ post = pre ++ be 2 t ++ (r ++ post) := by simp [hr]
    refine ⟨.obj s.name vs, ?_, ?_, by simp⟩
    · simp only [variantAttr, variantUnpack]
      rw [e1, hu]
      simp only [hut, hs]
      rw [← e1]
      simp only [Bool.false_eq_true, if_false, hvs]
    · rw [hname] at hden ⊢
      simp [union, hden, hc]
  empty := by
    intro d he
    obtain ⟨c, t, ds, rfl, hc, he⟩ := union_enc_inv he
    obtain ⟨s, hs, hname, ok⟩ := hsub t c hc
    obtain ⟨htt, r, hr⟩ := ok.type t ds _ he
    have : (be 2 t ++ r).length = 0 := by rw [← hr]; rfl
    simp at this

/-- With truncation at the announced length. -/
theorem dec_variant_trunc {proto ref pick subs sel lay}
    (hsub : ∀ t c, sel t = some c → ∃ s, pick t = .ok s ∧ s.name = c ∧ SubOk s (lay c) true)
    (href : ∀ t c ds, sel t = some c → (lay c).ok (.record (.num t :: ds)) → ∀ ms, ref.members = some ms → t ∈ ms)
    (hne2 : ∀ t c, sel t = some c → NonEmpty (lay c)) :
    Dec (variantAttr proto ref true pick subs) (delimited 2 (union sel lay)) false where
  unpack := by
    intro d b pre post he ho _ hne
    obtain ⟨ho, hl⟩ := ho
    obtain ⟨hsl, hlen⟩ := hl b he
    simp only [delimited] at he
    obtain ⟨c, t, ds, rfl, hc, he⟩ := union_enc_inv he
    simp only [union] at ho
    obtain ⟨s, hs, hname, ok⟩ := hsub t c hc
    obtain ⟨htt, r, hr⟩ := ok.type t ds b he
    obtain ⟨u, hu, hut⟩ := ubUnpack_type htt (href t c ds hc ho) pre (r ++ post)
    have hbne : b ≠ [] := fun h => hne2 t c hc _ (h ▸ he)
    obtain ⟨vs, e, hvs, hden⟩ := ok.unpack _ b pre [] he ho (by simp) (by simp [hbne])
    rw [List.append_nil] at hvs
    have e1 : pre ++ b ++ post = pre ++ be 2 t ++ (r ++ post) := by simp [hr]
    -- the length field
    obtain ⟨r2, hr2⟩ : ∃ r2, b = be 2 t ++ (be 2 b.length ++ r2) := by
      have h4 : b.take 2 = be 2 t := by rw [hr]; exact List.take_left' (by simp)
      have h5 : b.drop 2 = (b.drop 2).take 2 ++ (b.drop 2).drop 2 := (List.take_append_drop _ _).symm
      have h6 : (b.drop 2).take 2 = slice b 2 4 := by
        simp [slice, List.drop_take]
      refine ⟨(b.drop 2).drop 2, ?_⟩
      rw [← hsl, ← h6, ← h5, ← h4, List.take_append_drop]
    have e2 : pre ++ b ++ post = (pre ++ be 2 t) ++ be 2 b.length ++ (r2 ++ post) := by
      have : pre ++ b ++ post = pre ++ (be 2 t ++ (be 2 b.length ++ r2)) ++ post := by rw [← hr2]
      rw [this]; simp only [List.append_assoc]
    have hn : ubUnpack 2 .none (pre ++ b ++ post) (pre.length + 2) = .ok (.ub 2 (.int b.length)) := by
      rw [e2, ubUnpack_be .none (pre ++ be 2 t) (r2 ++ post) (n := b.length) (by simpa using hlen) (by simp)]
      rfl
    refine ⟨.obj s.name vs, ?_, ?_, by simp⟩
    · simp only [variantAttr, variantUnpack]
      rw [hn, e1, hu]
      have hg : gotNum (.ub 2 (.int b.length)) = b.length := by simp [gotNum]
      simp only [hut, hs, if_true, hg]
      rw [← e1]
      have : (pre ++ b ++ post).take (pre.length + b.length) = pre ++ b := by
        rw [List.take_left' (by simp)]
      rw [this, hvs]
    · rw [hname] at hden ⊢
      simp [delimited, union, hden, hc]
  empty := by
    intro d he
    simp only [delimited] at he
    obtain ⟨c, t, ds, rfl, hc, he⟩ := union_enc_inv he
    exact absurd he (hne2 t c hc _)

theorem enc_delimited {c f k} (h : Enc c f) : Enc c (delimited k f) where
  pack := h.pack
  size := h.size
  usize := h.usize

/-- A number written at position `k` of a field in the middle of a buffer. -/
theorem ubUnpack_at {b : Bytes} {k n : Nat} (pre post : Bytes) (hs : slice b k (k + 2) = be 2 n) (hn : n < 65536) :
    ubUnpack 2 .none (pre ++ b ++ post) (pre.length + k) = .ok (.ub 2 (.int n)) := by
  have h1 : (b.drop k).take 2 = be 2 n := by
    rw [← hs]; simp [slice, List.drop_take]
  have hk : k ≤ b.length := by
    have := congrArg List.length h1
    simp at this; omega
  have h2 : b = b.take k ++ (be 2 n ++ (b.drop k).drop 2) := by
    rw [← h1, List.take_append_drop, List.take_append_drop]
  have e : pre ++ b ++ post = (pre ++ b.take k) ++ be 2 n ++ ((b.drop k).drop 2 ++ post) := by
    have : pre ++ b ++ post = pre ++ (b.take k ++ (be 2 n ++ (b.drop k).drop 2)) ++ post := by rw [← h2]
    rw [this]; simp only [List.append_assoc]
  rw [e, ubUnpack_be .none (pre ++ b.take k) _ (n := n) (by simpa using hn) (by simp; omega)]
  rfl

/-- Cutting the buffer at the announced length makes a structure independent of what follows it. -/
theorem dec_lengthCut {k c f} (hd : Dec c f true) (hne : NonEmpty f) :
    Dec (lengthCut k c) (delimited k f) false where
  unpack := by
    intro d b pre post he ho _ _
    obtain ⟨ho, hl⟩ := ho
    obtain ⟨hsl, hlen⟩ := hl b he
    have he : f.enc d = some b := he
    have hb : b ≠ [] := fun h => hne d (h ▸ he)
    obtain ⟨u, hu, h2⟩ := hd.unpack d b pre [] he ho (fun _ => rfl) (by simp [hb])
    refine ⟨u, ?_, h2⟩
    simp only [lengthCut, ubUnpack_at pre post hsl hlen, gotNum, Int.toNat_natCast]
    rw [List.take_left' (by simp)]
    simpa using hu
  empty := fun d he => absurd he (hne d)

theorem enc_lengthCut {k j c f} (he : Enc c f) : Enc (lengthCut k c) (delimited j f) where
  pack := he.pack
  size := he.size
  usize := he.usize

theorem nonEmpty_delimited {k f} (h : NonEmpty f) : NonEmpty (delimited k f) := h

/-- A list with one item that runs to the end of the buffer. -/
theorem unpackItems_one {it f} (he : Enc it f) (hd : Dec it f true) (hne : NonEmpty f) {d b} (pre : Bytes)
    (hb : f.enc d = some b) (ho : f.ok d) :
    ∃ x, unpackItems it (pre ++ b) pre.length = .ok [x] ∧ f.den x = some d := by
  have hbn : b ≠ [] := fun h => hne d (h ▸ hb)
  obtain ⟨u, hu, hden, hnn⟩ := hd.unpack d b pre [] hb ho (fun _ => rfl) (by simp [hbn])
  rw [List.append_nil] at hu
  have hs := he.usize u d b hnn hden hb
  have hlen : 0 < b.length := List.length_pos_iff.mpr hbn
  refine ⟨u, ?_, hden⟩
  rw [unpackItems, if_pos (by simp; omega), hu]
  simp only [hs]
  rw [if_neg (by omega), unpackItems, if_neg (by simp)]

theorem unpackItems_le_one {it f} (he : Enc it f) (hd : Dec it f true) (hne : NonEmpty f) {ds b} (pre : Bytes)
    (hb : encList f ds = some b) (hl : ds.length ≤ 1) (ho : ∀ x ∈ ds, f.ok x) :
    ∃ xs, unpackItems it (pre ++ b) pre.length = .ok xs ∧ optMap f.den xs = some ds := by
  match ds, hl with
  | [], _ =>
    simp [encList] at hb; subst hb
    exact ⟨[], by rw [unpackItems, if_neg (by simp)], rfl⟩
  | [d], _ =>
    obtain ⟨x, y, h1, h2, rfl⟩ := encList_cons_inv hb
    simp [encList] at h2; subst h2
    obtain ⟨v, h3, h4⟩ := unpackItems_one he hd hne pre h1 (ho d (by simp))
    exact ⟨[v], by simpa using h3, by simp [optMap, h4]⟩

end Pyof
