import Verif.Lemmas.Swallow
import Verif.Lemmas.Follow
/-! Lists of `GroupDescStats`: the next entry is looked for where the buckets of the last one begin. -/
namespace Pyof
theorem unpackAttrs_inv {n c fs buff off vs e} (hb : buff ≠ []) (h : unpackAttrs ((n, c) :: fs) buff off = .ok (vs, e)) :
    ∃ v k ws, vs = v :: ws ∧ c.unpack buff off = .ok v ∧ c.usize v = .ok k ∧ unpackAttrs fs buff (off + k) = .ok (ws, e) := by
  simp only [unpackAttrs, unpackAttr, if_neg hb] at h
  cases hu : c.unpack buff off with
  | error e => simp [hu] at h
  | ok v =>
    cases hk : c.usize v with
    | error e => simp [hu, hk] at h
    | ok k =>
      simp only [hu, hk] at h
      cases hr : unpackAttrs fs buff (off + k) with
      | error e => simp [hr] at h
      | ok p =>
        obtain ⟨ws, e'⟩ := p
        simp only [hr] at h
        cases h
        exact ⟨v, k, ws, rfl, rfl, hk, hr⟩

theorem ubint_at {w ref d buff off v k} (hw : 0 < w) (h : (ubint w ref d).unpack buff off = .ok v) (hk : (ubint w ref d).usize v = .ok k) :
    k = w ∧ off + w ≤ buff.length := ⟨(Except.ok.inj hk).symm, ubUnpack_fits hw h⟩

namespace V04

theorem bucket_min {buff : Bytes} {off : Nat} {u : Val} (ho : 1 ≤ off) (h : bucket.unpack buff off = .ok u) : off + 12 ≤ buff.length := by
  simp only [bucket, lengthCut] at h
  cases hl : ubUnpack 2 .none buff (off + 0) with
  | error e => simp only [hl] at h; cases h
  | ok n =>
    simp only [hl] at h
    have hb : buff ≠ [] := by
      have := ubUnpack_fits (by decide) hl
      intro h0; simp [h0] at this
    have hne := take_ne (n := gotNum n) hb ho
    simp only [structAttr] at h
    cases hr : unpackAttrs bucketFields (buff.take (off + gotNum n)) off with
    | error e => simp [hr] at h
    | ok p =>
      obtain ⟨vs, e⟩ := p
      obtain ⟨_, _, _, _, h1, k1, hr⟩ := unpackAttrs_inv hne hr
      obtain ⟨rfl, _⟩ := ubint_at (by decide) h1 k1
      obtain ⟨_, _, _, _, h1, k1, hr⟩ := unpackAttrs_inv hne hr
      obtain ⟨rfl, _⟩ := ubint_at (by decide) h1 k1
      obtain ⟨_, _, _, _, h1, k1, hr⟩ := unpackAttrs_inv hne hr
      obtain ⟨rfl, _⟩ := ubint_at (by decide) h1 k1
      obtain ⟨_, _, _, _, h1, k1, hr⟩ := unpackAttrs_inv hne hr
      obtain ⟨rfl, hl⟩ := ubint_at (by decide) h1 k1
      simp only [List.length_take] at hl
      omega

theorem buckets_min {buff : Bytes} {off : Nat} {xs : List Val} (ho : 1 ≤ off) (h : unpackItems bucket buff off = .ok xs) :
    off + 12 ≤ buff.length ∨ (buff.length ≤ off ∧ xs = []) := by
  rw [unpackItems] at h
  by_cases hc : off < buff.length
  · rw [if_pos hc] at h
    cases hu : bucket.unpack buff off with
    | error e => simp [hu] at h
    | ok u => exact .inl (bucket_min ho hu)
  · rw [if_neg hc] at h
    exact .inr ⟨by omega, (Except.ok.inj h).symm⟩

theorem groupDesc_shape {buff : Bytes} {off : Nat} {u : Val} (hb : buff ≠ []) (h : groupDescStats.unpack buff off = .ok u) :
    ∃ a b c d bs, u = .obj "04.GroupDescStats" [a, b, c, d, .list true bs] ∧ off + 8 ≤ buff.length ∧ unpackItems bucket buff (off + 8) = .ok bs := by
  simp only [groupDescStats, structAttr] at h
  split at h
  · cases h
  · rename_i vs e hr
    cases h
    obtain ⟨a, _, _, rfl, h1, k1, hr⟩ := unpackAttrs_inv hb hr
    obtain ⟨rfl, _⟩ := ubint_at (by decide) h1 k1
    obtain ⟨b, _, _, rfl, h1, k1, hr⟩ := unpackAttrs_inv hb hr
    obtain ⟨rfl, _⟩ := ubint_at (by decide) h1 k1
    obtain ⟨c, _, _, rfl, h1, k1, hr⟩ := unpackAttrs_inv hb hr
    cases k1
    obtain ⟨d, _, _, rfl, h1, k1, hr⟩ := unpackAttrs_inv hb hr
    obtain ⟨rfl, hl⟩ := ubint_at (by decide) h1 k1
    obtain ⟨l, _, _, rfl, h1, k1, hr⟩ := unpackAttrs_inv hb hr
    cases hr
    simp only [bareListAttr, listAttr] at h1
    split at h1
    · cases h1
    · rename_i bs hbs
      cases h1
      exact ⟨a, b, c, d, bs, rfl, by omega, hbs⟩

/-- No list of group descriptions is ever decoded but the empty one and a single one without buckets. -/
theorem groupDescs_none {buff : Bytes} : ∀ {off : Nat} {xs : List Val}, unpackItems groupDescStats buff off = .ok xs →
    (buff.length ≤ off ∧ xs = []) ∨ (buff.length = off + 8 ∧ ∃ a b c d, xs = [.obj "04.GroupDescStats" [a, b, c, d, .list true []]]) := by
  intro off xs h
  induction off using unpackItems.induct groupDescStats buff generalizing xs with
  | case1 off hlt e he => rw [unpackItems, if_pos hlt] at h; simp [he] at h
  | case2 off hlt u hu e he => rw [unpackItems, if_pos hlt] at h; simp [hu, he] at h
  | case3 off hlt u hu he => rw [unpackItems, if_pos hlt] at h; simp [hu, he] at h
  | case4 off hlt u hu n hn hz e he ih => rw [unpackItems, if_pos hlt] at h; simp [hu, hn, hz, he] at h
  | case5 off hlt u hu n hn hz r hr ih =>
    rw [unpackItems, if_pos hlt] at h
    simp only [hu, hn, if_neg hz, hr] at h
    cases h
    have hb : buff ≠ [] := by intro h0; simp [h0] at hlt
    obtain ⟨a, b, c, d, bs, rfl, hl, hbs⟩ := groupDesc_shape hb hu
    have : n = 8 := by
      simp only [groupDescStats, structAttr, sizeAttrs, bareListAttr, padAttr, ubint, if_true] at hn
      exact (Except.ok.inj hn).symm
    subst this
    rcases ih hr with ⟨h1, rfl⟩ | ⟨h1, _⟩
    · rcases buckets_min (by omega) hbs with h2 | ⟨_, rfl⟩
      · omega
      · exact .inr ⟨by omega, a, b, c, d, rfl⟩
    · rcases buckets_min (by omega) hbs with h2 | ⟨h2, _⟩ <;> omega
  | case6 off hlt => rw [unpackItems, if_neg hlt] at h; cases h; exact .inl ⟨by omega, rfl⟩
end V04
end Pyof
