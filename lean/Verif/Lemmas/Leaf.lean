import Verif.Lemmas.Laws
/-! The basic types implement their wire formats. -/
namespace Pyof
open Spec

/-! ## unsigned integers -/

/-- The member list an `enum_ref` restricts decoding to. -/
def Ref.members : Ref → Option (List Nat)
  | .enum ms => Option.some ms
  | _ => Option.none

/-- A class attribute default as a Python value. -/
def dfltVal : Option Nat → Val
  | some n => .int n
  | none => .none

theorem packNum_ok {w i b} : packNum w (.int i) = .ok b ↔ 0 ≤ i ∧ i.toNat < 256 ^ w ∧ b = be w i.toNat := by
  simp only [packNum]
  cases h : structPack w 1 [i] with
  | none =>
    simp only [reduceCtorEq, false_iff]
    intro ⟨h1, h2, _⟩
    exact structPack_one_none.mp h ⟨h1, h2⟩
  | some x =>
    have := structPack_one.mp h
    simp only [Except.ok.injEq]
    constructor
    · rintro rfl; exact this
    · rintro ⟨_, _, rfl⟩; exact this.2.2

theorem packNum_big {w n : Nat} (h : ¬ n < 256 ^ w) : packNum w (.int n) = .error .pack := by
  cases hp : packNum w (.int n) with
  | ok b => obtain ⟨_, h2, _⟩ := packNum_ok.mp hp; exact absurd (by simpa using h2) h
  | error e =>
    simp only [packNum] at hp
    split at hp
    · cases hp
    · exact hp.symm

theorem numOf_dot {v n} (h : numOf v = some n) : v ≠ .none ∧ dotValue v = .int n := by
  cases v with
  | int i => simp only [numOf] at h; split at h <;> cases h; refine ⟨by simp, ?_⟩; simp only [dotValue]; congr; omega
  | enum i => simp only [numOf] at h; split at h <;> cases h; refine ⟨by simp, ?_⟩; simp only [dotValue]; congr; omega
  | ub w x =>
    cases x <;> simp only [numOf, reduceCtorEq] at h <;> split at h <;> cases h <;>
      (refine ⟨by simp, ?_⟩; simp only [dotValue, unwrap]; congr; omega)
  | _ => simp [numOf] at h

theorem uint_den_pack {w ref dflt v d} (h : (Spec.uint w ref dflt).den v = some d) :
    ∃ n, d = .num n ∧ ubPack w (dfltVal dflt) v = packNum w (.int n) := by
  by_cases hv : v = .none
  · subst hv
    cases dflt with
    | none => simp [Spec.uint] at h
    | some n =>
      simp [Spec.uint] at h
      exact ⟨n, h.symm, by simp [ubPack, dfltVal, unwrap]⟩
  · have : (numOf v).map Data.num = some d := by
      cases v <;> simp_all [Spec.uint]
    cases hn : numOf v with
    | none => rw [hn] at this; cases this
    | some n =>
      rw [hn] at this
      cases this
      refine ⟨n, rfl, ?_⟩
      have h2 := (numOf_dot hn).2
      cases v <;> simp_all [ubPack]

theorem enc_uint (w : Nat) (ref : Ref) (dflt : Option Nat) (members) :
    Enc (ubint w ref (dfltVal dflt)) (Spec.uint w members dflt) where
  pack := by
    intro v d h b
    obtain ⟨n, rfl, hp⟩ := uint_den_pack h
    simp only [ubint, hp, packNum_ok, Spec.uint]
    constructor
    · rintro ⟨_, h2, rfl⟩
      rw [if_pos (by simpa using h2)]; simp
    · intro hb
      split at hb
      · cases hb; simp_all
      · cases hb
  size := by
    intro v d b h hb
    obtain ⟨n, rfl, _⟩ := uint_den_pack h
    simp only [Spec.uint] at hb
    split at hb <;> cases hb
    simp [ubint]
  usize := by
    intro v d b _ h hb
    obtain ⟨n, rfl, _⟩ := uint_den_pack h
    simp only [Spec.uint] at hb
    split at hb <;> cases hb
    simp [ubint]

theorem uint_enc_inv {w ms dflt d b} (h : (Spec.uint w ms dflt).enc d = some b) :
    ∃ n, d = .num n ∧ n < 256 ^ w ∧ b = be w n := by
  cases d <;> simp [Spec.uint] at h
  exact ⟨_, rfl, h.1, h.2.symm⟩

theorem nonEmpty_uint (w : Nat) (ms dflt) (hw : 0 < w := by decide) : NonEmpty (Spec.uint w ms dflt) := by
  intro d h
  obtain ⟨n, _, _, hb⟩ := uint_enc_inv h
  have : (be w n).length = 0 := by rw [← hb]; rfl
  simp at this; omega

theorem refApply_ok {ref : Ref} {n : Nat} (h : ∀ ms, ref.members = some ms → n ∈ ms) :
    ∃ x, refApply ref n = some x ∧ ∀ w, numOf (.ub w x) = some n := by
  cases ref with
  | none => exact ⟨_, rfl, fun _ => by simp [numOf]⟩
  | mask => exact ⟨_, rfl, fun _ => by simp [numOf]⟩
  | enum ms => exact ⟨.enum n, by simp [refApply, h ms rfl], fun _ => by simp [numOf]⟩

theorem dec_uint (w : Nat) (ref : Ref) (dv : Val) (dflt : Option Nat) (hw : 0 < w := by decide) :
    Dec (ubint w ref dv) (Spec.uint w ref.members dflt) false where
  unpack := by
    intro d b pre post he ho _ _
    obtain ⟨n, rfl, hn, rfl⟩ := uint_enc_inv he
    obtain ⟨x, hx, hx2⟩ := refApply_ok (ref := ref) (n := n) ho
    refine ⟨.ub w x, ?_, ?_, by simp⟩
    · simp only [ubint, ubUnpack, unpackFrom_be pre post hn, hx]
    · simp [Spec.uint, hx2 w]
  empty := fun d h => absurd h (nonEmpty_uint w _ _ hw d)

/-! ## padding -/

theorem enc_pad (n : Nat) : Enc (padAttr n) (Spec.pad n) where
  pack := by
    intro v d h b
    simp [Spec.pad] at h; subst h
    simp [padAttr, Spec.pad]
  size := by
    intro v d b h hb
    simp [Spec.pad] at h; subst h
    simp [Spec.pad] at hb; subst hb
    simp [padAttr]
  usize := by
    intro v d b _ h hb
    simp [Spec.pad] at h; subst h
    simp [Spec.pad] at hb; subst hb
    simp [padAttr]

theorem dec_pad (n : Nat) : Dec (padAttr n) (Spec.pad n) false where
  unpack := by
    intro d b pre post he _ _ _
    cases d <;> simp [Spec.pad] at he
    exact ⟨.pad n, rfl, rfl, by simp⟩
  empty := by
    intro d he
    cases d <;> simp [Spec.pad] at he
    rfl

/-! ## uninterpreted bytes -/

theorem rest_den_inv {v d} (h : Spec.rest.den v = some d) :
    ∃ b, d = .raw b ∧ binPackRaw v = .ok b ∧ binSizeRaw v = .ok b.length := by
  cases v with
  | bin x =>
    cases x <;> simp [Spec.rest] at h <;> simp_all [binPackRaw, binSizeRaw, eq_comm]
  | _ => simp [Spec.rest] at h <;> simp_all [binPackRaw, binSizeRaw, eq_comm]

theorem enc_rest : Enc (binAttr) Spec.rest where
  pack := by
    intro v d h b
    obtain ⟨x, rfl, hp, _⟩ := rest_den_inv h
    have : (binAttr).pack v = binPackRaw v := by cases v <;> rfl
    rw [this, hp]; simp [Spec.rest]
  size := by
    intro v d b h hb
    obtain ⟨x, rfl, _, hs⟩ := rest_den_inv h
    have : (binAttr).size v = binSizeRaw v := by cases v <;> rfl
    simp [Spec.rest] at hb; subst hb
    rw [this, hs]
  usize := by
    intro v d b _ h hb
    obtain ⟨x, rfl, _, hs⟩ := rest_den_inv h
    simp [Spec.rest] at hb; subst hb
    exact hs

theorem dec_rest : Dec (binAttr) Spec.rest true where
  unpack := by
    intro d b pre post he _ ht _
    cases d <;> simp [Spec.rest] at he
    subst he
    have := ht rfl
    subst this
    refine ⟨_, rfl, ?_, by simp⟩
    simp [Spec.rest]
  empty := by
    intro d he
    cases d <;> simp [Spec.rest] at he
    subst he; rfl

end Pyof
