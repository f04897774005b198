import Verif.Model.Py
/-! Lemmas about byte strings, `struct` and slices. -/
namespace Pyof

@[simp] theorem be_length (w n : Nat) : (be w n).length = w := by
  induction w generalizing n with
  | zero => rfl
  | succ w ih => simp [be, ih]

theorem beVal_append (a : Bytes) (x : UInt8) : beVal (a ++ [x]) = beVal a * 256 + x.toNat := by
  simp [beVal, List.foldl_append]

theorem beVal_be (w n : Nat) : beVal (be w n) = n % 256 ^ w := by
  induction w generalizing n with
  | zero => simp [be, beVal, Nat.mod_one]
  | succ w ih =>
    rw [be, beVal_append, ih, Nat.pow_succ, Nat.mul_comm (256 ^ w) 256, Nat.mod_mul]
    simp only [UInt8.toNat_ofNat']
    omega

theorem beVal_be_of_lt {w n : Nat} (h : n < 256 ^ w) : beVal (be w n) = n := by
  rw [beVal_be, Nat.mod_eq_of_lt h]

theorem foldl_be (b : Bytes) (a : Nat) :
    b.foldl (fun a x => a * 256 + x.toNat) a = a * 256 ^ b.length + beVal b := by
  induction b generalizing a with
  | nil => simp [beVal]
  | cons x b ih =>
    simp only [List.foldl_cons, List.length_cons, beVal]
    rw [ih, ih]
    simp only [Nat.pow_succ, Nat.add_mul, Nat.zero_mul, Nat.zero_add]
    rw [Nat.mul_assoc, Nat.mul_comm 256, Nat.add_assoc]

theorem beVal_cons (x : UInt8) (b : Bytes) : beVal (x :: b) = x.toNat * 256 ^ b.length + beVal b := by
  conv => lhs; rw [beVal, List.foldl_cons, foldl_be]
  simp

theorem beVal_append' (a b : Bytes) : beVal (a ++ b) = beVal a * 256 ^ b.length + beVal b := by
  conv => lhs; rw [beVal, List.foldl_append, foldl_be]
  rfl

theorem beVal_lt (b : Bytes) : beVal b < 256 ^ b.length := by
  induction b with
  | nil => simp [beVal]
  | cons x b ih =>
    rw [beVal_cons, List.length_cons, Nat.pow_succ]
    have hx := x.toNat_lt
    have : x.toNat * 256 ^ b.length ≤ 255 * 256 ^ b.length := Nat.mul_le_mul_right _ (by omega)
    omega

theorem be_beVal_append (w n : Nat) (x : UInt8) : be (w + 1) (n * 256 + x.toNat) = be w n ++ [x] := by
  rw [be]
  have hx := x.toNat_lt
  congr 1
  · congr 1; omega
  · congr 1
    apply UInt8.toNat_inj.mp
    simp only [UInt8.toNat_ofNat']
    omega

theorem be_beVal (b : Bytes) : be b.length (beVal b) = b := by
  induction h : b.length generalizing b with
  | zero => simp_all [be, List.length_eq_zero_iff]
  | succ k ih =>
    rcases List.eq_nil_or_concat b with hb | ⟨l, x, rfl⟩
    · simp [hb] at h
    · have hl : l.length = k := by simpa using h
      subst hl
      rw [List.concat_eq_append, beVal_append, be_beVal_append, ih l rfl]

theorem be_beVal' {b : Bytes} {w : Nat} (h : b.length = w) : be w (beVal b) = b := by
  subst h; exact be_beVal b

theorem be_inj {w m n : Nat} (hm : m < 256 ^ w) (hn : n < 256 ^ w) (h : be w m = be w n) : m = n := by
  rw [← beVal_be_of_lt hm, h, beVal_be_of_lt hn]

/-! ## slices -/

theorem slice_length (b : Bytes) (i j : Nat) : (slice b i j).length = min j b.length - i := by
  simp [slice, List.length_take, List.length_drop]

/-- A window inside `pre ++ b ++ post`. -/
theorem slice_mid (pre b post : Bytes) :
    slice (pre ++ b ++ post) pre.length (pre.length + b.length) = b := by
  unfold slice
  have h : pre.length + b.length = (pre ++ b).length := by simp
  rw [h, List.take_left' rfl]
  simp

theorem slice_mid' (pre b post : Bytes) {n : Nat} (h : n = pre.length + b.length) :
    slice (pre ++ b ++ post) pre.length n = b := by subst h; exact slice_mid ..

theorem slice_full_length {b : Bytes} {i w : Nat} (h : i + w ≤ b.length) : (slice b i (i + w)).length = w := by
  rw [slice_length]; omega

theorem split_window {b : Bytes} {i w : Nat} (h : i + w ≤ b.length) :
    b = b.take i ++ slice b i (i + w) ++ b.drop (i + w) := by
  unfold slice
  have h1 : (b.take (i + w)).take i = b.take i := by simp [List.take_take, Nat.min_eq_left]
  calc b = b.take (i + w) ++ b.drop (i + w) := (List.take_append_drop _ _).symm
    _ = ((b.take (i + w)).take i ++ (b.take (i + w)).drop i) ++ b.drop (i + w) := by
        rw [List.take_append_drop i (b.take (i + w))]
    _ = _ := by rw [h1]

/-! ## struct -/

theorem unpackFrom_mid (pre b post : Bytes) :
    unpackFrom b.length (pre ++ b ++ post) pre.length = some (beVal b) := by
  unfold unpackFrom
  rw [if_pos (by simp), slice_mid]

theorem unpackFrom_be (pre post : Bytes) {w n : Nat} (h : n < 256 ^ w) :
    unpackFrom w (pre ++ be w n ++ post) pre.length = some n := by
  have := unpackFrom_mid pre (be w n) post
  rw [be_length, beVal_be_of_lt h] at this
  exact this

theorem structPack_one {w : Nat} {i : Int} {b : Bytes} :
    structPack w 1 [i] = some b ↔ 0 ≤ i ∧ i.toNat < 256 ^ w ∧ b = be w i.toNat := by
  unfold structPack
  have hc : ((256 : Int) ^ w) = ((256 ^ w : Nat) : Int) := by simp
  rw [hc]
  by_cases h : 0 ≤ i ∧ i < ((256 ^ w : Nat) : Int)
  · rw [if_pos (by simpa using h)]
    simp only [List.flatMap_cons, List.flatMap_nil, List.append_nil, Option.some.injEq]
    constructor
    · intro hb; exact ⟨h.1, by omega, hb.symm⟩
    · intro ⟨_, _, hb⟩; exact hb.symm
  · rw [if_neg (by simpa using h)]
    simp only [reduceCtorEq, false_iff]
    intro ⟨h1, h2, _⟩
    exact h ⟨h1, by omega⟩

theorem structPack_one_none {w : Nat} {i : Int} :
    structPack w 1 [i] = none ↔ ¬ (0 ≤ i ∧ i.toNat < 256 ^ w) := by
  constructor
  · intro h ⟨h1, h2⟩
    have := (structPack_one (w := w) (i := i)).mpr ⟨h1, h2, rfl⟩
    rw [h] at this; cases this
  · intro h
    cases hs : structPack w 1 [i] with
    | none => rfl
    | some b => exact absurd ⟨(structPack_one.mp hs).1, (structPack_one.mp hs).2.1⟩ h

end Pyof
