import Verif.Model.Compare
import Verif.Lemmas.Msg
/-!
# C43 operators of wrapped integers, C49 `is_valid`
-/
namespace Pyof.Props
open Pyof

/-- The integer an operand stands for: an int, an enum member, or a `UBInt` of any width holding one. -/
def operand : Val → Option Int
  | .int i | .enum i => some i
  | .ub _ (.int i) | .ub _ (.enum i) => some i
  | _ => none

/-- The value fits the width of its `UBInt`. -/
def fits : Val → Prop
  | .ub w x => ∃ n : Nat, builtinNum x = some n ∧ n < 256 ^ w
  | _ => True

private theorem operand_cases {a i} (h : operand a = some i) :
    (gclass a = none ∧ builtinNum a = some i) ∨ (∃ w x, a = .ub w x ∧ builtinNum x = some i ∧ unwrap x = .int i) := by
  cases a with
  | int j => cases h; exact .inl ⟨rfl, rfl⟩
  | enum j => cases h; exact .inl ⟨rfl, rfl⟩
  | ub w x => cases x <;> simp only [operand] at h <;> first | contradiction | (cases h; exact .inr ⟨_, _, rfl, rfl, rfl⟩)
  | _ => cases h

private theorem gclass_ub (w x) : gclass (.ub w x) = some (.ub w) := rfl
private theorem graw_ub (w x) : graw (.ub w x) = x := rfl
private theorem gval_ub (w x) : gval (.ub w x) = unwrap x := rfl

private theorem num_int (i : Int) : builtinNum (.int i) = some i := rfl

private theorem builtinEq_num {a b i j} (h1 : builtinNum a = some i) (h2 : builtinNum b = some j) : builtinEq a b = .ok (i == j) := by
  simp only [builtinEq, h1, h2]

private theorem beq_swap (i j : Int) : (i == j) = (j == i) := by
  by_cases h : i = j
  · subst h; rfl
  · have h' : ¬ j = i := fun e => h e.symm
    rw [beq_eq_false_iff_ne.mpr h, beq_eq_false_iff_ne.mpr h']

private theorem ub_eq {w w' : Nat} {x y : Val} {i j : Int} (hx : builtinNum x = some i) (ux : unwrap x = .int i) (hy : builtinNum y = some j)
    (uy : unwrap y = .int j) (hf : w = w' → (∃ n : Nat, i = n ∧ n < 256 ^ w) ∧ ∃ n : Nat, j = n ∧ n < 256 ^ w) :
    pyEq (.ub w x) (.ub w' y) = .ok (i == j) := by
  simp only [pyEq, gclass_ub, Option.isSome_some, if_true, genericEq, Option.some.injEq, GClass.ub.injEq]
  by_cases h : w' = w
  · subst h
    obtain ⟨⟨n, rfl, hn⟩, m, rfl, hm⟩ := hf rfl
    simp only [if_true, gpack, ubPack, ux, uy, packNum_fit hn, packNum_fit hm]
    congr 1
    by_cases e : n = m
    · subst e; simp
    · have : be w' n ≠ be w' m := by
        intro he
        have := congrArg beVal he
        rw [beVal_be_of_lt hn, beVal_be_of_lt hm] at this
        exact e this
      have e' : ¬ ((n : Int) = m) := by omega
      rw [beq_eq_false_iff_ne.mpr this, beq_eq_false_iff_ne.mpr e']
  · simp only [if_neg h, gval_ub, ux, uy]
    exact builtinEq_num rfl rfl

/-- C43.  `==` between wrapped integers, ints and enum members, in both orders, is equality of the integers, provided that two
operands of the same `UBInt` class hold numbers that fit. -/
theorem C43_eq {a b : Val} {i j : Int} (ha : operand a = some i) (hb : operand b = some j)
    (hf : gclass a = gclass b → fits a ∧ fits b) : pyEq a b = .ok (i == j) := by
  rcases operand_cases ha with ⟨ca, na⟩ | ⟨w, x, rfl, na, ua⟩ <;> rcases operand_cases hb with ⟨cb, nb⟩ | ⟨w', y, rfl, nb, ub⟩
  · simp only [pyEq, ca, cb, Option.isSome_none, Bool.false_eq_true, if_false]
    exact builtinEq_num na nb
  · simp only [pyEq, ca, gclass_ub, Option.isSome_none, Option.isSome_some, Bool.false_eq_true, if_false, if_true, genericEq, gval_ub, ub]
    rw [builtinEq_num rfl na, beq_swap]
    simp
  · simp only [pyEq, cb, gclass_ub, Option.isSome_none, Option.isSome_some, Bool.false_eq_true, if_false, if_true, genericEq, gval_ub, ua]
    simp only [builtinEq_num (a := .int i) rfl nb]
    simp
  · refine ub_eq na ua nb ub fun h => ?_
    subst h
    obtain ⟨⟨n, h1, h2⟩, m, h3, h4⟩ := hf rfl
    rw [na] at h1
    rw [nb] at h3
    cases h1
    cases h3
    exact ⟨⟨n, rfl, h2⟩, m, rfl, h4⟩

/-- Two `UBInt16` objects (the hypothesis about the width matters), and a `UBInt16` with an enum member. -/
example : pyEq (.ub 2 (.int 7)) (.ub 2 (.enum 7)) = .ok true :=
  C43_eq (i := 7) (j := 7) rfl rfl fun _ => ⟨⟨7, rfl, by decide⟩, ⟨7, rfl, by decide⟩⟩
example : pyEq (.ub 2 (.int 7)) (.enum 300) = .ok false := C43_eq (i := 7) (j := 300) rfl rfl fun h => absurd h (by decide)

/-- C43.  `!=` is inequality of the integers. -/
theorem C43_ne {a b : Val} {i j : Int} (ha : operand a = some i) (hb : operand b = some j) : pyNe a b = .ok (!(i == j)) := by
  rcases operand_cases ha with ⟨ca, na⟩ | ⟨w, x, rfl, na, ua⟩ <;> rcases operand_cases hb with ⟨cb, nb⟩ | ⟨w', y, rfl, nb, ub⟩
  · simp [pyNe, ca, cb, builtinEq_num na nb, notRes]
  · simp only [pyNe, ca, gclass_ub, graw_ub, builtinEq_num nb na, notRes, beq_swap i j]; rfl
  · simp only [pyNe, cb, gclass_ub, graw_ub, builtinEq_num na nb, notRes]; rfl
  · simp only [pyNe, gclass_ub, graw_ub, builtinEq_num nb na, notRes, beq_swap i j]; rfl

example : pyNe (.ub 2 (.int 7)) (.enum 300) = .ok true := C43_ne (i := 7) (j := 300) rfl rfl

/-- What the four orderings mean. -/
def ordProp : Ord4 → Int → Int → Prop
  | .lt, i, j => i < j
  | .le, i, j => i ≤ j
  | .gt, i, j => i > j
  | .ge, i, j => i ≥ j

private theorem on_iff (o : Ord4) (i j : Int) : o.on i j = true ↔ ordProp o i j := by
  cases o <;> simp [Ord4.on, ordProp]

private theorem swap_on (o : Ord4) (i j : Int) : o.swap.on j i = o.on i j := by cases o <;> rfl

/-- C43.  `<`, `<=`, `>`, `>=` are those of the integers. -/
theorem C43_order (o : Ord4) {a b : Val} {i j : Int} (ha : operand a = some i) (hb : operand b = some j) :
    ∃ r, pyOrd o a b = .ok r ∧ (r = true ↔ ordProp o i j) := by
  refine ⟨o.on i j, ?_, on_iff o i j⟩
  rcases operand_cases ha with ⟨ca, na⟩ | ⟨w, x, rfl, na, ua⟩ <;> rcases operand_cases hb with ⟨cb, nb⟩ | ⟨w', y, rfl, nb, ub⟩
  · simp [pyOrd, ca, cb, builtinOrd, na, nb]
  · simp [pyOrd, ca, gclass_ub, graw_ub, builtinOrd, na, nb, swap_on]
  · simp [pyOrd, cb, gclass_ub, graw_ub, builtinOrd, na, nb]
  · simp [pyOrd, gclass_ub, graw_ub, builtinOrd, na, nb, swap_on]

example := C43_order .lt (a := .ub 2 (.int 7)) (b := .ub 1 (.enum 9)) (i := 7) (j := 9) rfl rfl

private theorem arith_comm {o : Arith} (h : o ≠ .sub) (i j : Int) : o.on i j = o.on j i := by
  cases o with
  | sub => exact absurd rfl h
  | add => exact Int.add_comm i j
  | or => cases i <;> cases j <;> simp [Arith.on, Nat.or_comm, Nat.and_comm]
  | and => cases i <;> cases j <;> simp [Arith.on, Nat.or_comm, Nat.and_comm]
  | xor => cases i <;> cases j <;> simp [Arith.on, Nat.xor_comm]

/-- Bit `k` of an integer in two's complement: whether `i` divided by `2^k`, rounding down, is odd. -/
def bit (i : Int) (k : Nat) : Prop := i / 2 ^ k % 2 = 1

/-- What the operators compute: sum, difference, and the bitwise operations given by their bits. -/
def arithSpec (o : Arith) (i j r : Int) : Prop :=
  match o with
  | .add => r = i + j
  | .sub => r = i - j
  | .or => ∀ k, bit r k ↔ (bit i k ∨ bit j k)
  | .and => ∀ k, bit r k ↔ (bit i k ∧ bit j k)
  | .xor => ∀ k, bit r k ↔ ¬ (bit i k ↔ bit j k)

private theorem cast_div (n k : Nat) : (n : Int) / 2 ^ k = ((n / 2 ^ k : Nat) : Int) := by simp

private theorem bit_nat (n k : Nat) : bit (Int.ofNat n) k ↔ n.testBit k = true := by
  rw [Nat.testBit_eq_decide_div_mod_eq, decide_eq_true_eq]
  unfold bit
  rw [Int.ofNat_eq_natCast, cast_div]
  generalize n / 2 ^ k = m
  omega

private theorem bit_neg (n k : Nat) : bit (Int.negSucc n) k ↔ n.testBit k = false := by
  rw [Nat.testBit_eq_decide_div_mod_eq, decide_eq_false_iff_not]
  have h : (Int.negSucc n) / 2 ^ k = -(((n / 2 ^ k : Nat) : Int) + 1) := by
    rw [← cast_div]
    exact Int.negSucc_ediv n (b := 2 ^ k) (Int.pow_pos (by decide))
  unfold bit
  rw [h]
  generalize n / 2 ^ k = m
  omega

private theorem testBit_without (n m k : Nat) : (Nat.without n m).testBit k = (n.testBit k && !m.testBit k) := by
  simp only [Nat.without, Nat.testBit_xor, Nat.testBit_and]
  cases n.testBit k <;> cases m.testBit k <;> rfl

private theorem on_spec (o : Arith) (i j : Int) : arithSpec o i j (o.on i j) := by
  cases o with
  | add => rfl
  | sub => rfl
  | or =>
    intro k
    cases i <;> cases j <;> rename_i a b <;> simp only [Arith.on, bit_nat, bit_neg, testBit_without, Nat.testBit_and, Nat.testBit_or] <;>
      cases a.testBit k <;> cases b.testBit k <;> decide
  | and =>
    intro k
    cases i <;> cases j <;> rename_i a b <;> simp only [Arith.on, bit_nat, bit_neg, testBit_without, Nat.testBit_and, Nat.testBit_or] <;>
      cases a.testBit k <;> cases b.testBit k <;> decide
  | xor =>
    intro k
    cases i <;> cases j <;> rename_i a b <;> simp only [Arith.on, bit_nat, bit_neg, Nat.testBit_xor] <;>
      cases a.testBit k <;> cases b.testBit k <;> decide

/-- The bits determine the integer, so `arithSpec` leaves only one result. -/
theorem bits_determine {r s : Int} (h : ∀ k, bit r k ↔ bit s k) : r = s := by
  cases r with
  | ofNat a =>
    cases s with
    | ofNat b =>
      congr 1; apply Nat.eq_of_testBit_eq; intro k
      have := h k; simp only [bit_nat] at this
      cases ha : a.testBit k <;> cases hb : b.testBit k <;> simp_all
    | negSucc b =>
      exfalso
      have := h (a + b)
      simp only [bit_nat, bit_neg] at this
      rw [Nat.testBit_lt_two_pow (Nat.lt_of_lt_of_le Nat.lt_two_pow_self (Nat.pow_le_pow_right (by decide) (Nat.le_add_right a b))),
        Nat.testBit_lt_two_pow (Nat.lt_of_lt_of_le Nat.lt_two_pow_self (Nat.pow_le_pow_right (by decide) (Nat.le_add_left b a)))] at this
      simp at this
  | negSucc a =>
    cases s with
    | ofNat b =>
      exfalso
      have := h (a + b)
      simp only [bit_nat, bit_neg] at this
      rw [Nat.testBit_lt_two_pow (Nat.lt_of_lt_of_le Nat.lt_two_pow_self (Nat.pow_le_pow_right (by decide) (Nat.le_add_right a b))),
        Nat.testBit_lt_two_pow (Nat.lt_of_lt_of_le Nat.lt_two_pow_self (Nat.pow_le_pow_right (by decide) (Nat.le_add_left b a)))] at this
      simp at this
    | negSucc b =>
      congr 1; apply Nat.eq_of_testBit_eq; intro k
      have := h k; simp only [bit_neg] at this
      cases ha : a.testBit k <;> cases hb : b.testBit k <;> simp_all

/-- C43.  `+`, `|`, `&`, `^` are those of the integers, negative ones included, in both operand orders, and `-` is when its right
operand is not a `UBInt`. -/
theorem C43_arith (o : Arith) {a b : Val} {i j : Int} (ha : operand a = some i) (hb : operand b = some j)
    (hs : o = .sub → gclass b = none) : ∃ r, pyArith o a b = .ok r ∧ arithSpec o i j r := by
  refine ⟨o.on i j, ?_, on_spec o i j⟩
  rcases operand_cases ha with ⟨ca, na⟩ | ⟨w, x, rfl, na, ua⟩ <;> rcases operand_cases hb with ⟨cb, nb⟩ | ⟨w', y, rfl, nb, ub⟩
  · simp [pyArith, ca, cb, builtinArith, na, nb]
  · have : o ≠ .sub := fun h => by cases hs h
    simp [pyArith, ca, gclass_ub, gval_ub, builtinArith, na, ub, num_int, arith_comm this i j]
  · simp [pyArith, cb, gclass_ub, gval_ub, builtinArith, ua, nb, num_int]
  · have : o ≠ .sub := fun h => by cases hs h
    simp [pyArith, gclass_ub, gval_ub, builtinArith, ua, ub, num_int, arith_comm this i j]

example := C43_arith .add (a := .ub 2 (.int 7)) (b := .ub 1 (.enum 9)) (i := 7) (j := 9) rfl rfl nofun
example := C43_arith .sub (a := .ub 2 (.int 7)) (b := .int 9) (i := 7) (j := 9) rfl rfl fun _ => rfl

/-- C43.  With a `UBInt` on the right `-` has its operands swapped, for every pair of integers. -/
theorem C43_sub_swapped {a b : Val} {i j : Int} (ha : operand a = some i) (hb : operand b = some j) (hc : gclass b ≠ none) :
    pyArith .sub a b = .ok (j - i) := by
  rcases operand_cases ha with ⟨ca, na⟩ | ⟨w, x, rfl, na, ua⟩ <;> rcases operand_cases hb with ⟨cb, nb⟩ | ⟨w', y, rfl, nb, ub⟩
  · exact absurd cb hc
  · simp [pyArith, ca, gclass_ub, gval_ub, builtinArith, na, ub, num_int, Arith.on]
  · exact absurd cb hc
  · simp [pyArith, gclass_ub, gval_ub, builtinArith, ua, ub, num_int, Arith.on]

example : pyArith .sub (.ub 2 (.int 7)) (.ub 1 (.int 9)) = .ok 2 := C43_sub_swapped (i := 7) (j := 9) rfl rfl (by decide)

/-- C43.  Shifting any wrapped integer by an int: multiplication, and division rounding down, by a power of two; a negative shift is a
`ValueError`, and a `UBInt` as the shift is a `TypeError`. -/
theorem C43_shift {a b : Val} {i j : Int} (ha : operand a = some i) (hb : operand b = some j) :
    (gclass b = none → 0 ≤ j → pyShift true a b = .ok (i * 2 ^ j.toNat) ∧ pyShift false a b = .ok (i / 2 ^ j.toNat)) ∧
    (gclass b = none → j < 0 → ∀ left, pyShift left a b = .error .value) ∧
    (gclass b ≠ none → ∀ left, pyShift left a b = .error .type) := by
  rcases operand_cases hb with ⟨cb, nb⟩ | ⟨w', y, rfl, nb, ub⟩
  · refine ⟨fun _ h0 => ?_, fun _ h0 left => ?_, fun h => absurd cb h⟩
    · have h0 : ¬ j < 0 := by omega
      rcases operand_cases ha with ⟨ca, na⟩ | ⟨w, x, rfl, na, ua⟩
      · simp [pyShift, cb, ca, na, nb, h0]
      · simp [pyShift, cb, gclass_ub, gval_ub, ua, num_int, nb, h0]
    · rcases operand_cases ha with ⟨ca, na⟩ | ⟨w, x, rfl, na, ua⟩
      · simp [pyShift, cb, ca, na, nb, h0]
      · simp [pyShift, cb, gclass_ub, gval_ub, ua, num_int, nb, h0]
  · refine ⟨fun h => by simp [gclass_ub] at h, fun h => by simp [gclass_ub] at h, fun _ left => by simp [pyShift, gclass_ub]⟩

/-- The shift of natural numbers. -/
theorem shift_nat {a b : Val} {i j : Nat} (ha : operand a = some (i : Int)) (hb : operand b = some (j : Int)) (hc : gclass b = none) :
    pyShift true a b = .ok (i * 2 ^ j : Nat) ∧ pyShift false a b = .ok (i / 2 ^ j : Nat) := by
  obtain ⟨h1, h2⟩ := (C43_shift ha hb).1 hc (by omega)
  rw [h1, h2]
  simp

/-- The union of the bits of natural numbers. -/
theorem or_nat {a b : Val} {i j : Nat} (ha : operand a = some (i : Int)) (hb : operand b = some (j : Int)) :
    pyArith .or a b = .ok ((i ||| j : Nat) : Int) := by
  obtain ⟨r, h, hs⟩ := C43_arith .or ha hb (fun h => by cases h)
  rw [h]
  congr 1
  refine bits_determine fun k => (hs k).trans ?_
  have := bit_nat (i ||| j) k
  simp only [Int.ofNat_eq_natCast] at this
  rw [this, Nat.testBit_or]
  have h1 := bit_nat i k; have h2 := bit_nat j k
  simp only [Int.ofNat_eq_natCast] at h1 h2
  rw [h1, h2]; simp

/-- Negative operands: `-6 | 3 = -5`, `-6 & 3 = 2`, `-6 ^ 3 = -7`, `-6 >> 1 = -3`. -/
example : pyArith .or (.ub 2 (.int (-6))) (.int 3) = .ok (-5) ∧ pyArith .and (.int (-6)) (.ub 1 (.int 3)) = .ok 2 ∧
    pyArith .xor (.ub 2 (.int (-6))) (.ub 1 (.int 3)) = .ok (-7) ∧ pyShift false (.ub 2 (.int (-6))) (.int 1) = .ok (-3) := by
  decide +kernel

/-- The hypotheses above are met by operands of different kinds. -/
example : operand (.ub 2 (.int 7)) = some ((7 : Nat) : Int) ∧ operand (.enum 300) = some ((300 : Nat) : Int) ∧
    gclass (.enum 300) = none ∧ fits (.ub 2 (.int 7)) ∧ fits (.ub 2 (.enum 65535)) :=
  ⟨rfl, rfl, rfl, ⟨7, rfl, by decide⟩, ⟨65535, rfl, by decide⟩⟩

/-- C43 fails for `-` with a `UBInt` on the right (operands swapped), for shifts by a `UBInt` (`TypeError`), for `==` between two
`UBInt8` of which one does not fit (`PackException`), for a decoded bitmask (`==` and `!=` both true, ordering is a `TypeError`), and
for two spellings of one hardware address (`==` and `!=` both true). -/
theorem C43_counterexamples :
    pyArith .sub (.int 5) (.ub 2 (.int 3)) = .ok (-2) ∧
    pyArith .sub (.ub 2 (.int 5)) (.ub 2 (.int 3)) = .ok (-2) ∧
    pyShift true (.int 1) (.ub 1 (.int 3)) = .error .type ∧
    pyEq (.ub 1 (.int 300)) (.ub 1 (.int 5)) = .error .pack ∧
    (pyEq (.ub 4 (.mask 5)) (.int 5) = .ok true ∧ pyNe (.ub 4 (.mask 5)) (.int 5) = .ok true ∧
      pyOrd .lt (.ub 4 (.mask 5)) (.int 6) = .error .type) ∧
    (pyEq (.hw (.str "0a:00:00:00:00:01".toList)) (.hw (.str "A:0:0:0:0:1".toList)) = .ok true ∧
      pyNe (.hw (.str "0a:00:00:00:00:01".toList)) (.hw (.str "A:0:0:0:0:1".toList)) = .ok true) := by
  refine ⟨rfl, rfl, rfl, by decide +kernel, ⟨rfl, rfl, rfl⟩, by decide +kernel, by decide +kernel⟩

/-! ## C49 -/

private theorem packNum_ne {w v} : packNum w v ≠ .error .badValue := by
  unfold packNum; split
  · split <;> simp
  · simp

private theorem notStr_ne {α : Type} {v : Val} : (.error (notStr v) : Res α) ≠ .error .badValue := by cases v <;> simp [notStr]

/-- C49.  `is_valid()` never returns `False`, for any wrapped type and any value: it returns `True` when `pack()` succeeds and lets
the exception of `pack()` escape otherwise. -/
theorem C49_never_false (x : Val) :
    genericIsValid x ≠ .ok false ∧
    (∀ b, gpack x = .ok b → genericIsValid x = .ok true) ∧ (∀ e, gpack x = .error e → genericIsValid x = .error e) := by
  have key : gpack x ≠ .error .badValue := by
    cases x <;> simp only [gpack] <;> try (simp; done)
    case ub w x => unfold ubPack; split <;> exact packNum_ne
    case hw x =>
      unfold hwPackRaw; split
      · split
        · simp
        · split <;> simp
      · exact notStr_ne
    case ip x =>
      unfold ipPackRaw; split
      · split
        · simp
        · split <;> simp
      · exact notStr_ne
    case ip6 x =>
      unfold ip6PackRaw; split
      · split
        · simp
        · split <;> simp
      · exact notStr_ne
    case dpid x =>
      unfold dpidPackRaw; split
      · split
        · simp
        · split <;> simp
      · exact notStr_ne
    case chr x n =>
      unfold charPackRaw; split
      · split <;> simp
      · simp
    case bin x =>
      induction x using binPackRaw.induct <;> simp_all [binPackRaw]
  unfold genericIsValid
  cases hg : gpack x with
  | ok b => simp
  | error e =>
    have : e ≠ .badValue := fun h => key (h ▸ hg)
    cases e <;> simp_all

example : genericIsValid (.obj "Pair" [.ub 1 (.int 3), .ub 2 (.int 300)]) ≠ .ok false ∧ genericIsValid (.obj "Pair" [.ub 1 (.int 300)]) ≠ .ok false :=
  ⟨(C49_never_false _).1, (C49_never_false _).1⟩

/-- C49.  The documented contract ("whether the value is valid for this type") is refuted: 256 does not fit a `UBInt8` and
`is_valid()` raises `PackException` instead of returning `False`. -/
theorem C49_counterexample : gpack (.ub 1 (.int 256)) = .error .pack ∧ genericIsValid (.ub 1 (.int 256)) = .error .pack := by
  decide +kernel

end Pyof.Props
