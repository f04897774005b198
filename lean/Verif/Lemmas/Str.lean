import Verif.Model.Text
import Verif.Lemmas.Text
/-!
# Lemmas about `str(x)`
-/
namespace Pyof

theorem digitIn_digitChar : ∀ d, d < 10 → digitIn 10 (Nat.digitChar d) = some d := by decide

theorem digitChar_plain : ∀ d, d < 10 → Nat.digitChar d ≠ '_' ∧ isSpace (Nat.digitChar d) = false ∧ Nat.digitChar d ≠ '-' ∧
    Nat.digitChar d ≠ '+' := by decide

theorem parseDigits_snoc {base d : Nat} {c : Char} (hc : c ≠ '_') (hd : digitIn base c = some d) :
    ∀ (s : Str) (acc n : Nat), (∀ x ∈ s, x ≠ '_') → parseDigits base acc s = some n →
      parseDigits base acc (s ++ [c]) = some (n * base + d) := by
  intro s
  induction s with
  | nil =>
    intro acc n _ h
    cases h
    rw [List.nil_append, parseDigits_cons hc hd]
    rfl
  | cons x s ih =>
    intro acc n hs h
    have hx := hs x (by simp)
    cases he : digitIn base x with
    | none =>
      exfalso
      unfold parseDigits at h
      split at h
      · next heq => cases heq
      · next heq => cases heq; exact hx rfl
      · next heq => cases heq; rw [he] at h; cases h
    | some e =>
      rw [parseDigits_cons hx he] at h
      rw [List.cons_append, parseDigits_cons hx he]
      exact ih _ _ (fun y hy => hs y (by simp [hy])) h

theorem decStr_digits (n : Nat) : ∀ c ∈ decStr n, c.isDigit = true := fun c hc =>
  Nat.isDigit_of_mem_toDigits (by decide) (by decide) hc

theorem isDigit_plain {c : Char} (h : c.isDigit = true) : c ≠ '_' ∧ isSpace c = false ∧ c ≠ '-' ∧ c ≠ '+' := by
  refine ⟨?_, ?_, ?_, ?_⟩
  · rintro rfl; simp at h
  · simp only [Char.isDigit, Bool.and_eq_true, decide_eq_true_eq] at h
    simp only [isSpace]
    have h1 : 48 ≤ c.toNat := h.1
    have h2 : c ≠ ' ' := by rintro rfl; exact absurd h1 (by decide)
    simp [h2]
    omega
  · rintro rfl; simp at h
  · rintro rfl; simp at h

theorem parseNat_decStr (n : Nat) : parseNat 10 (decStr n) = some n := by
  induction n using Nat.strongRecOn with
  | _ n ih =>
    unfold decStr
    by_cases h : n < 10
    · rw [Nat.toDigits_of_lt_base h]
      simp only [parseNat, digitIn_digitChar n h, parseDigits]
    · rw [Nat.toDigits_of_base_le (by decide) (by omega)]
      have h1 := ih (n / 10) (by omega)
      have hd := Nat.mod_lt n (show 0 < 10 by decide)
      have hs := decStr_digits (n / 10)
      show parseNat 10 (decStr (n / 10) ++ _) = _
      cases hr : decStr (n / 10) with
      | nil => rw [hr] at h1; cases h1
      | cons c s =>
        rw [hr] at h1 hs
        simp only [parseNat, List.cons_append] at h1 ⊢
        cases hc : digitIn 10 c with
        | none => rw [hc] at h1; cases h1
        | some d =>
          rw [hc] at h1
          simp only at h1 ⊢
          rw [parseDigits_snoc (digitChar_plain _ hd).1 (digitIn_digitChar _ hd) s d _
            (fun x hx => (isDigit_plain (hs x (by simp [hx]))).1) h1]
          congr 1
          omega

theorem pyInt_decStr (n : Nat) : pyInt 10 (decStr n) = some (n : Int) := by
  rw [pyInt_plain fun c hc => (isDigit_plain (decStr_digits n c hc)).2]
  simp only [parseBody]
  rw [if_neg (by decide), parseNat_decStr]
  rfl

theorem pyInt_intStr (i : Int) : pyInt 10 (intStr i) = some i := by
  cases i with
  | ofNat n => exact pyInt_decStr n
  | negSucc n =>
    simp only [intStr, pyInt]
    rw [stripSpaces_none]
    · simp only [parseBody]
      rw [if_neg (by decide), parseNat_decStr]
      rfl
    · intro c hc
      rcases List.mem_cons.1 hc with rfl | hc
      · decide
      · exact (isDigit_plain (decStr_digits _ c hc)).2.1

/-! ## bytes -/

/-- The value of a hexadecimal digit. -/
def unhex (c : Char) : Nat := (digitIn 16 c).getD 0

/-- The first byte of the text of a `bytes` object, and what comes after it. -/
def readByte : Str → Option (UInt8 × Str)
  | [] => none
  | c :: r =>
    if c = '\\' then
      match r with
      | [] => none
      | d :: r =>
        if d = 'x' then
          match r with
          | a :: b :: r => some (UInt8.ofNat (unhex a * 16 + unhex b), r)
          | _ => none
        else some (if d = 't' then 9 else if d = 'n' then 10 else if d = 'r' then 13 else UInt8.ofNat d.toNat, r)
    else some (UInt8.ofNat c.toNat, r)

set_option maxRecDepth 8000 in
theorem readByte_table : ∀ n, n < 256 →
    readByte (byteStr '\'' (UInt8.ofNat n)) = some (UInt8.ofNat n, []) ∧ readByte (byteStr '"' (UInt8.ofNat n)) = some (UInt8.ofNat n, []) ∧
    (byteStr '\'' (UInt8.ofNat n)).head? ≠ some '\'' ∧ (byteStr '"' (UInt8.ofNat n)).head? ≠ some '"' := by
  decide +kernel

theorem readByte_append {s : Str} {x : UInt8} {t : Str} (h : readByte s = some (x, t)) (r : Str) : readByte (s ++ r) = some (x, t ++ r) := by
  cases s with
  | nil => cases h
  | cons c s =>
    simp only [readByte, List.cons_append] at h ⊢
    by_cases hc : c = '\\'
    · rw [if_pos hc] at h ⊢
      cases s with
      | nil => cases h
      | cons d s =>
        simp only [List.cons_append] at h ⊢
        by_cases hd : d = 'x'
        · rw [if_pos hd] at h ⊢
          match s, h with
          | a :: b :: s, h => cases h; rfl
          | [], h => cases h
          | [a], h => cases h
        · rw [if_neg hd] at h ⊢
          cases h; rfl
    · rw [if_neg hc] at h ⊢
      cases h; rfl

theorem quoteOf_cases (b : Bytes) : quoteOf b = '\'' ∨ quoteOf b = '"' := by
  unfold quoteOf; split
  · exact Or.inr rfl
  · exact Or.inl rfl

theorem readByte_byteStr {q : Char} (hq : q = '\'' ∨ q = '"') (x : UInt8) (r : Str) : readByte (byteStr q x ++ r) = some (x, r) := by
  have h := readByte_table x.toNat x.toNat_lt
  rw [UInt8.ofNat_toNat] at h
  rcases hq with rfl | rfl
  · simpa using readByte_append h.1 r
  · simpa using readByte_append h.2.1 r

theorem byteStr_head {q : Char} (hq : q = '\'' ∨ q = '"') (x : UInt8) (r r' : Str) : byteStr q x ++ r ≠ q :: r' := by
  have h := readByte_table x.toNat x.toNat_lt
  rw [UInt8.ofNat_toNat] at h
  have hne : byteStr q x ≠ [] := by
    intro e
    rcases hq with rfl | rfl
    · rw [e] at h; cases h.1
    · rw [e] at h; cases h.2.1
  have hh : (byteStr q x).head? ≠ some q := by 
    rcases hq with rfl | rfl
    · exact h.2.2.1
    · exact h.2.2.2
  intro e
  cases hb : byteStr q x with
  | nil => exact hne hb
  | cons c s => rw [hb] at e hh; cases e; exact hh rfl

theorem flatMap_byteStr {q : Char} (hq : q = '\'' ∨ q = '"') : ∀ (b b' : Bytes) (r r' : Str),
    b.flatMap (byteStr q) ++ q :: r = b'.flatMap (byteStr q) ++ q :: r' → b = b' := by
  intro b
  induction b with
  | nil =>
    intro b' r r' h
    cases b' with
    | nil => rfl
    | cons y b' =>
      simp only [List.flatMap_nil, List.nil_append, List.flatMap_cons, List.append_assoc] at h
      exact absurd h.symm (byteStr_head hq y _ _)
  | cons x b ih =>
    intro b' r r' h
    cases b' with
    | nil =>
      simp only [List.flatMap_nil, List.nil_append, List.flatMap_cons, List.append_assoc] at h
      exact absurd h (byteStr_head hq x _ _)
    | cons y b' =>
      simp only [List.flatMap_cons, List.append_assoc] at h
      have h1 := readByte_byteStr hq x (b.flatMap (byteStr q) ++ q :: r)
      rw [h, readByte_byteStr hq y] at h1
      simp only [Option.some.injEq, Prod.mk.injEq] at h1
      obtain ⟨rfl, h2⟩ := h1
      rw [ih b' r r' h2.symm]

theorem bytesStr_inj {b b' : Bytes} (h : bytesStr b = bytesStr b') : b = b' := by
  simp only [bytesStr, List.cons_append, List.cons.injEq, true_and] at h
  obtain ⟨hq, h⟩ := h
  rw [← hq] at h
  exact flatMap_byteStr (quoteOf_cases b) b b' [] [] h

end Pyof
