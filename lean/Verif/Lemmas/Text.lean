import Verif.Lemmas.Leaf
/-! Lemmas about `split`, `join`, `int(s, base)` and number formatting; the address types. -/
namespace Pyof
open Spec

/-! ## split and join -/

theorem splitC_ne_nil (sep : Char) (s : Str) : splitC sep s ≠ [] := by
  induction s with
  | nil => simp [splitC]
  | cons c r ih =>
    simp only [splitC]
    split
    · simp
    · split <;> simp_all

theorem splitC_part {sep : Char} {p : Str} (h : sep ∉ p) : splitC sep p = [p] := by
  induction p with
  | nil => rfl
  | cons c r ih =>
    have hc : c ≠ sep := fun e => h (by simp [e])
    have hr : sep ∉ r := fun e => h (by simp [e])
    simp [splitC, hc, ih hr]

theorem splitC_part_sep {sep : Char} {p r : Str} (h : sep ∉ p) :
    splitC sep (p ++ sep :: r) = p :: splitC sep r := by
  induction p with
  | nil => simp [splitC]
  | cons c q ih =>
    have hc : c ≠ sep := fun e => h (by simp [e])
    have hq : sep ∉ q := fun e => h (by simp [e])
    simp [splitC, hc, ih hq]

theorem splitC_joinC {sep : Char} {ps : List Str} (hne : ps ≠ []) (h : ∀ p ∈ ps, sep ∉ p) :
    splitC sep (joinC sep ps) = ps := by
  induction ps with
  | nil => exact absurd rfl hne
  | cons p r ih =>
    cases r with
    | nil => simp [joinC, splitC_part (h p (by simp))]
    | cons q r =>
      rw [joinC, splitC_part_sep (h p (by simp)), ih (by simp) (fun x hx => h x (by simp [hx]))]

theorem mem_joinC {sep c : Char} {ps : List Str} (h : c ∈ joinC sep ps) : c = sep ∨ ∃ p ∈ ps, c ∈ p := by
  induction ps with
  | nil => simp [joinC] at h
  | cons p r ih =>
    cases r with
    | nil => exact .inr ⟨p, by simp, by simpa [joinC] using h⟩
    | cons q r =>
      rw [joinC] at h
      rcases List.mem_append.mp h with h | h
      · exact .inr ⟨p, by simp, h⟩
      · rcases List.mem_cons.mp h with h | h
        · exact .inl h
        · rcases ih h with h | ⟨x, hx, hc⟩
          · exact .inl h
          · exact .inr ⟨x, by simp [hx], hc⟩

theorem splitC_head {sep : Char} (s : Str) : (splitC sep s).headD [] = s.takeWhile (· ≠ sep) := by
  induction s with
  | nil => rfl
  | cons c r ih =>
    by_cases hc : c = sep
    · simp [splitC, hc]
    · simp only [splitC, hc, if_false]
      have hne := splitC_ne_nil sep r
      cases hs : splitC sep r with
      | nil => exact absurd hs hne
      | cons h t =>
        rw [hs] at ih
        simp at ih
        simp [hc, ih]

theorem takeWhile_ne_self {sep : Char} {s : Str} (h : sep ∉ s) : s.takeWhile (· ≠ sep) = s := by
  induction s with
  | nil => rfl
  | cons c r ih =>
    have hc : c ≠ sep := fun e => h (by simp [e])
    have hr : sep ∉ r := fun e => h (by simp [e])
    simp [hc] at ih ⊢
    exact ih hr

theorem beforeSlash_eq (s : Str) : beforeSlash s = s.takeWhile (· ≠ '/') := by
  unfold beforeSlash
  split
  · exact splitC_head s
  · next h => exact (takeWhile_ne_self h).symm

/-! ## integers -/

theorem digitIn_hexChar : ∀ d, d < 16 → digitIn 16 (hexChar d) = some d := by decide

theorem hexChar_plain : ∀ d, d < 16 →
    hexChar d ≠ '_' ∧ isSpace (hexChar d) = false ∧ hexChar d ≠ '-' ∧ hexChar d ≠ '+' ∧
    hexChar d ≠ 'x' ∧ hexChar d ≠ 'X' ∧ hexChar d ≠ ':' ∧ hexChar d ≠ '.' ∧ hexChar d ≠ '/' := by decide

theorem parseDigits_cons {base acc c r d} (hc : c ≠ '_') (hd : digitIn base c = some d) :
    parseDigits base acc (c :: r) = parseDigits base (acc * base + d) r := by
  conv => lhs; unfold parseDigits
  split <;> simp_all

theorem parseDigits_hex (ds : List Nat) (hds : ∀ d ∈ ds, d < 16) (acc : Nat) :
    parseDigits 16 acc (ds.map hexChar) = some (ds.foldl (fun a d => a * 16 + d) acc) := by
  induction ds generalizing acc with
  | nil => simp [parseDigits]
  | cons d ds ih =>
    have hd := hds d (by simp)
    rw [List.map_cons, parseDigits_cons (hexChar_plain d hd).1 (digitIn_hexChar d hd)]
    rw [ih (fun x hx => hds x (by simp [hx]))]
    rfl

/-- The `k` lowest hexadecimal digits of a number, most significant first. -/
def hexDigits : Nat → Nat → List Nat
  | 0, _ => []
  | k + 1, n => hexDigits k (n / 16) ++ [n % 16]

theorem hexFix_eq (k n : Nat) : hexFix k n = (hexDigits k n).map hexChar := by
  induction k generalizing n with
  | zero => rfl
  | succ k ih => simp [hexFix, hexDigits, ih]

theorem hexDigits_lt (k n : Nat) : ∀ d ∈ hexDigits k n, d < 16 := by
  induction k generalizing n with
  | zero => simp [hexDigits]
  | succ k ih =>
    intro d hd
    simp [hexDigits] at hd
    rcases hd with hd | hd
    · exact ih _ d hd
    · omega

theorem hexDigits_val (k n : Nat) (h : n < 16 ^ k) : (hexDigits k n).foldl (fun a d => a * 16 + d) 0 = n := by
  induction k generalizing n with
  | zero => simp at h; simp [hexDigits, h]
  | succ k ih =>
    rw [hexDigits, List.foldl_append, ih (n / 16) (by rw [Nat.pow_succ] at h; omega)]
    simp; omega

theorem hexDigits_length (k n : Nat) : (hexDigits k n).length = k := by
  induction k generalizing n with
  | zero => rfl
  | succ k ih => simp [hexDigits, ih]

theorem dropWhile_none {p : Char → Bool} {s : Str} (h : ∀ c ∈ s, p c = false) : s.dropWhile p = s := by
  cases s with
  | nil => rfl
  | cons c r => simp [h c (by simp)]

theorem stripSpaces_none {s : Str} (h : ∀ c ∈ s, isSpace c = false) : stripSpaces s = s := by
  unfold stripSpaces
  rw [dropWhile_none h, dropWhile_none (fun c hc => h c (by simpa using hc)), List.reverse_reverse]

theorem dropHexPrefix_plain {s : Str} (h : ∀ c ∈ s, c ≠ 'x' ∧ c ≠ 'X') : dropHexPrefix s = s := by
  unfold dropHexPrefix
  split <;> simp_all

theorem pyInt_plain {base : Nat} {s : Str} (hs : ∀ c ∈ s, isSpace c = false ∧ c ≠ '-' ∧ c ≠ '+') :
    pyInt base s = (parseBody base s).map fun n => (n : Int) := by
  unfold pyInt
  rw [stripSpaces_none (fun c hc => (hs c hc).1)]
  split <;> simp_all

theorem hexFix_chars {k n : Nat} : ∀ c ∈ hexFix k n, ∃ d, d < 16 ∧ c = hexChar d := by
  intro c hc
  rw [hexFix_eq] at hc
  obtain ⟨d, hd, rfl⟩ := List.mem_map.mp hc
  exact ⟨d, hexDigits_lt k n d hd, rfl⟩

theorem pyInt_hexFix {k n : Nat} (hk : 0 < k) (h : n < 16 ^ k) : pyInt 16 (hexFix k n) = some (n : Int) := by
  rw [pyInt_plain]
  · unfold parseBody
    rw [if_pos rfl, dropHexPrefix_plain]
    · rw [hexFix_eq]
      cases hd : hexDigits k n with
      | nil => have := hexDigits_length k n; rw [hd] at this; simp at this; omega
      | cons d ds =>
        have hlt := hexDigits_lt k n
        rw [hd] at hlt
        have hv := hexDigits_val k n h
        rw [hd] at hv
        simp only [List.map_cons, parseNat, digitIn_hexChar d (hlt d (by simp))]
        rw [parseDigits_hex ds (fun x hx => hlt x (by simp [hx]))]
        simp at hv
        simp [hv]
    · intro c hc
      obtain ⟨d, hd, rfl⟩ := hexFix_chars c hc
      have := hexChar_plain d hd
      exact ⟨this.2.2.2.2.1, this.2.2.2.2.2.1⟩
  · intro c hc
    obtain ⟨d, hd, rfl⟩ := hexFix_chars c hc
    have := hexChar_plain d hd
    exact ⟨this.2.1, this.2.2.1, this.2.2.2.1⟩

theorem hexFix_no_colon {k n : Nat} : ':' ∉ hexFix k n := by
  intro h
  obtain ⟨d, hd, he⟩ := hexFix_chars _ h
  exact (hexChar_plain d hd).2.2.2.2.2.2.1 he.symm

theorem hexFix_no_slash {k n : Nat} : '/' ∉ hexFix k n := by
  intro h
  obtain ⟨d, hd, he⟩ := hexFix_chars _ h
  exact (hexChar_plain d hd).2.2.2.2.2.2.2.2 he.symm

set_option maxRecDepth 8000 in
theorem decStr_table : ∀ n, n < 256 →
    pyInt 10 (decStr n) = some (n : Int) ∧ '.' ∉ decStr n ∧ '/' ∉ decStr n := by
  decide +kernel

/-! ## groups of numbers -/

theorem chunks_lt {w k : Nat} {b : Bytes} (h : w * k ≤ b.length) : ∀ x ∈ chunks w k b, x < 256 ^ w := by
  induction k generalizing b with
  | zero => simp [chunks]
  | succ k ih =>
    intro x hx
    simp only [chunks, List.mem_cons] at hx
    have hw : w ≤ b.length := by rw [Nat.mul_succ] at h; omega
    rcases hx with rfl | hx
    · have := beVal_lt (b.take w)
      rwa [List.length_take, Nat.min_eq_left hw] at this
    · exact ih (by rw [List.length_drop]; rw [Nat.mul_succ] at h; omega) x hx

theorem chunks_flat {w k : Nat} {b : Bytes} (h : b.length = w * k) :
    (chunks w k b).flatMap (be w) = b := by
  induction k generalizing b with
  | zero => simp at h; simp [chunks, h]
  | succ k ih =>
    rw [Nat.mul_succ] at h
    simp only [chunks, List.flatMap_cons]
    rw [ih (by rw [List.length_drop]; omega), be_beVal' (by rw [List.length_take]; omega), List.take_append_drop]

theorem chunks_length (w k : Nat) (b : Bytes) : (chunks w k b).length = k := by
  induction k generalizing b with
  | zero => rfl
  | succ k ih => simp [chunks, ih]

theorem optMap_eq_map {α β} {f : α → Option β} {g : α → β} {l : List α} (h : ∀ a ∈ l, f a = some (g a)) :
    optMap f l = some (l.map g) := by
  induction l with
  | nil => rfl
  | cons a r ih => simp [optMap, h a (by simp), ih (fun x hx => h x (by simp [hx]))]

/-- Writing `k` numbers of `w` bytes as text and reading the text gives back the bytes. -/
theorem groups_join {sep : Char} {base w k : Nat} {fmt : Nat → Str} {b : Bytes} (hk : 0 < k)
    (hb : b.length = w * k)
    (hf : ∀ n, n < 256 ^ w → pyInt base (fmt n) = some (n : Int) ∧ sep ∉ fmt n) :
    groups sep base w k (joinC sep ((chunks w k b).map fmt)) = some b := by
  have hlt : ∀ x ∈ chunks w k b, x < 256 ^ w := chunks_lt (Nat.le_of_eq hb.symm)
  unfold groups
  rw [splitC_joinC]
  · have : optMap (pyInt base) ((chunks w k b).map fmt) = some ((chunks w k b).map Int.ofNat) := by
      have := optMap_eq_map (f := fun n => pyInt base (fmt n)) (g := Int.ofNat) (l := chunks w k b)
        (fun n hn => (hf n (hlt n hn)).1)
      rw [← this]
      clear hlt
      induction chunks w k b with
      | nil => rfl
      | cons a r ih => simp only [List.map_cons, optMap, ih]
    rw [this]
    have hp : ((256 : Int) ^ w) = ((256 ^ w : Nat) : Int) := by simp
    simp only [List.length_map, chunks_length, true_and]
    rw [if_pos]
    · rw [List.flatMap_map]
      simp only [Int.ofNat_eq_natCast, Int.toNat_natCast]
      rw [chunks_flat hb]
    · intro x hx
      obtain ⟨n, hn, rfl⟩ := List.mem_map.mp hx
      rw [hp]
      have := hlt n hn
      constructor
      · simp
      · simp only [Int.ofNat_eq_natCast]; omega
  · intro h
    have := congrArg List.length h
    simp [chunks_length] at this; omega
  · intro p hp
    obtain ⟨n, hn, rfl⟩ := List.mem_map.mp hp
    exact (hf n (hlt n hn)).2

theorem groups_length {sep base w k s b} (h : groups sep base w k s = some b) : b.length = w * k := by
  unfold groups at h
  split at h
  · split at h
    · next hx =>
      cases h
      have : ∀ xs : List Int, (xs.flatMap fun x => be w x.toNat).length = w * xs.length := by
        intro xs
        induction xs with
        | nil => simp
        | cons a r ih => simp [ih, Nat.mul_succ]; omega
      rw [this, hx.1]
    · cases h
  · cases h

/-- The model's parse-then-`struct.pack` agrees with the specification's reading of the text. -/
theorem splitInts_groups (sep : Char) (base w k : Nat) (s : Str) :
    groups sep base w k s = (splitInts sep base s).bind (structPack w k) := by
  unfold groups splitInts structPack
  cases optMap (pyInt base) (splitC sep s) <;> rfl

end Pyof
