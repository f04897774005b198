import Verif.Model.Match01
import Verif.Props.Compare
import Verif.Lemmas.Reads
/-!
# C24 wildcards of a v0x01 `Match` after any assignments
-/
namespace Pyof.Props
open Pyof V01

/-! ## Specification: `enum ofp_flow_wildcards` of OpenFlow 1.0 -/

/-- The bit that wildcards a field. -/
def flagBit : String → Option Nat
  | "in_port" => some 0
  | "dl_vlan" => some 1
  | "dl_src" => some 2
  | "dl_dst" => some 3
  | "dl_type" => some 4
  | "nw_proto" => some 5
  | "tp_src" => some 6
  | "tp_dst" => some 7
  | "dl_vlan_pcp" => some 20
  | "nw_tos" => some 21
  | _ => none

/-- The lowest of the six bits that count the ignored bits of an address. -/
def counterBit : String → Option Nat
  | "nw_src" => some 8
  | "nw_dst" => some 14
  | _ => none

/-- Bytes of the numeric fields. -/
def width : String → Option Nat
  | "in_port" | "dl_vlan" | "dl_type" | "tp_src" | "tp_dst" => some 2
  | "dl_vlan_pcp" | "nw_tos" | "nw_proto" => some 1
  | _ => none

/-- `Says f v on`: `v` is a value for the field `f`, and `on` tells whether it differs from the default (the number 0 or the address
of six zero bytes).  The zero address only counts in its canonical spelling, see `C24_counterexamples`. -/
inductive Says : String → Val → Bool → Prop
  | num {f k v} {i : Int} : width f = some k → operand v = some i → (gclass v = some (.ub k) → fits v) → Says f v (!(i == 0))
  | text {f s} {b : Bytes} : f = "dl_src" ∨ f = "dl_dst" → hwPackRaw (.str s) = .ok b →
      (b = List.replicate 6 0 → s = "00:00:00:00:00:00".toList) → Says f (.str s) (!(b == List.replicate 6 0))
  | addr {f s} {b : Bytes} : f = "dl_src" ∨ f = "dl_dst" → hwPackRaw (.str s) = .ok b →
      (b = List.replicate 6 0 → s = "00:00:00:00:00:00".toList) → Says f (.hw (.str s)) (!(b == List.replicate 6 0))
  | bytes {f} {b : Bytes} {t} : f = "dl_src" ∨ f = "dl_dst" → b.length = 6 →
      Says f (.list t (b.map fun x => .int x.toNat)) (!(b == List.replicate 6 0))

/-- `Net v m`: `v` is an address with a netmask of `m` bits. -/
inductive Net : Val → Int → Prop
  | addr {x m} : Net (.ip x m) m
  | text {s x m} : ipInit s = .ok (.ip x m) → Net (.str s) m
  | bytes {b : Bytes} {t} : b.length = 4 → Net (.list t (b.map fun x => .int x.toNat)) 32

/-- Assigning to an address field, an address does not come with a netmask outside 0..32. -/
def MaskOk (p : String × Val) : Prop :=
  ∀ s, counterBit p.1 = some s → ∀ x m, convert (.ip s) p.2 = .ok (.ip x m) → 0 ≤ m ∧ m ≤ 32

/-- The value last assigned to `f`. -/
def lastTo (f : String) : List (String × Val) → Option Val
  | [] => none
  | (g, v) :: h =>
    match lastTo f h with
    | some u => some u
    | none => if g = f then some v else none

/-- `wildcards` is the number `n`: an int, or a decoded `UBInt32`. -/
def Wild (vs : List Val) (n : Nat) : Prop :=
  ∃ w rest, vs = w :: rest ∧ (w = .int n ∨ w = .enum n ∨ w = .ub 4 (.int n) ∨ w = .ub 4 (.enum n) ∨ w = .ub 4 (.mask n))

/-! ## Helper lemmas -/

private theorem wildNum_of {vs n} (h : Wild vs n) : wildNum (vs.headD .none) = .ok n := by
  obtain ⟨w, rest, rfl, h⟩ := h
  rcases h with rfl | rfl | rfl | rfl | rfl <;> simp [wildNum, gclass, builtinNum, gval, graw, unwrap]

private theorem wild_int (n : Nat) (rest) : Wild (.int n :: rest) n := ⟨_, _, rfl, .inl rfl⟩

/-- The bits that belong to a field. -/
private def owns (f : String) (b : Nat) : Prop :=
  flagBit f = some b ∨ ∃ s, counterBit f = some s ∧ s ≤ b ∧ b < s + 6

private structure StepOk (n n' : Nat) (f : String) (v : Val) : Prop where
  other : ∀ b < 22, ¬ owns f b → n'.testBit b = n.testBit b
  flag : ∀ bit, flagBit f = some bit → ∀ on, Says f v on → n'.testBit bit = !on
  count : ∀ s, counterBit f = some s → ∀ m, Net v m → ∀ j < 6, n'.testBit (s + j) = (32 - m).toNat.testBit j

private theorem testBit_one_shl (b j : Nat) : (1 <<< b).testBit j = decide (j = b) := by
  rw [Nat.one_shiftLeft, Nat.testBit_two_pow]
  exact decide_eq_decide.2 eq_comm

private theorem and_bit (n b : Nat) : (n &&& (1 <<< b) == 0) = !n.testBit b := by
  cases h : n.testBit b
  · have : n &&& (1 <<< b) = 0 := by
      apply Nat.eq_of_testBit_eq
      intro j
      rw [Nat.testBit_and, testBit_one_shl, Nat.zero_testBit]
      by_cases e : j = b
      · subst e; simp [h]
      · simp [e]
    simp [this]
  · have : n &&& (1 <<< b) ≠ 0 := by
      intro e
      have := congrArg (Nat.testBit · b) e
      simp [Nat.testBit_and, testBit_one_shl, h] at this
    simp [this]

/-- fill_wildcards for a flag field, when `==` and `!=` with the default say `eq` and `ne`. -/
private theorem toggle_spec {vs n bit dflt v} (hw : Wild vs n) {eq : Bool} (he : pyEq v dflt = .ok eq)
    (hn : pyNe v dflt = .ok (!eq)) :
    ∃ w', fillWildcards.toggle (vs.headD .none) bit dflt v = .ok w' ∧
      ((w' = vs.headD .none ∧ n.testBit bit = eq) ∨ (w' = .int ((n ^^^ (1 <<< bit) : Nat) : Int) ∧ n.testBit bit = !eq)) := by
  unfold fillWildcards.toggle
  simp only [he, hn, wildNum_of hw, and_bit, fillWildcards.flip]
  cases eq <;> cases hb : n.testBit bit <;> simp [and_bit, hb]

private theorem xor_bit (n b j : Nat) : (n ^^^ (1 <<< b)).testBit j = if j = b then !n.testBit j else n.testBit j := by
  rw [Nat.testBit_xor, testBit_one_shl]
  by_cases h : j = b <;> simp [h]

private theorem toggle_any {vs n bit dflt v w'} (hw : Wild vs n) (h : fillWildcards.toggle (vs.headD .none) bit dflt v = .ok w') :
    w' = vs.headD .none ∨ w' = .int ((n ^^^ (1 <<< bit) : Nat) : Int) := by
  unfold fillWildcards.toggle at h
  simp only [wildNum_of hw, fillWildcards.flip] at h
  split at h
  · cases h
  · split at h
    · cases h
    · split at h
      · exact .inr (Except.ok.inj h).symm
      · split at h
        · cases h
        · split at h
          · split at h
            · exact .inl (Except.ok.inj h).symm
            · exact .inr (Except.ok.inj h).symm
          · exact .inl (Except.ok.inj h).symm

/-- What the model's table says about a field, next to the specification's. -/
private inductive SlotCases (f : String) : Prop
  | none : slot f = none → flagBit f = none → counterBit f = none → SlotCases f
  | wild : f = "wildcards" → SlotCases f
  | num (i k b) : slot f = some (i + 1, .num k b) → flagBit f = some b → width f = some k → counterBit f = none → SlotCases f
  | hw (i b) : slot f = some (i + 1, .hw b) → flagBit f = some b → width f = none → counterBit f = none → SlotCases f
  | ip (i s) : slot f = some (i + 1, .ip s) → flagBit f = none → counterBit f = some s → s = 8 ∨ s = 14 → SlotCases f
  | pad (i) : slot f = some (i + 1, .pad) → flagBit f = none → counterBit f = none → SlotCases f

private theorem slotCases (f : String) : SlotCases f := by
  have key : f ∈ ["wildcards", "in_port", "dl_src", "dl_dst", "dl_vlan", "dl_vlan_pcp", "pad1", "dl_type", "nw_tos", "nw_proto",
      "pad2", "nw_src", "nw_dst", "tp_src", "tp_dst"] ∨ slot f = none ∧ flagBit f = none ∧ counterBit f = none := by
    by_cases h : f ∈ ["wildcards", "in_port", "dl_src", "dl_dst", "dl_vlan", "dl_vlan_pcp", "pad1", "dl_type", "nw_tos", "nw_proto",
      "pad2", "nw_src", "nw_dst", "tp_src", "tp_dst"]
    · exact .inl h
    · refine .inr ?_
      simp only [List.mem_cons, List.not_mem_nil, not_or, or_false] at h
      refine ⟨?_, ?_, ?_⟩
      · unfold slot; split <;> simp_all
      · unfold flagBit; split <;> simp_all
      · unfold counterBit; split <;> simp_all
  rcases key with h | ⟨h1, h2, h3⟩
  · simp only [List.mem_cons, List.not_mem_nil, or_false] at h
    rcases h with rfl | rfl | rfl | rfl | rfl | rfl | rfl | rfl | rfl | rfl | rfl | rfl | rfl | rfl | rfl
    · exact .wild rfl
    · exact .num 0 2 0 rfl rfl rfl rfl
    · exact .hw 1 2 rfl rfl rfl rfl
    · exact .hw 2 3 rfl rfl rfl rfl
    · exact .num 3 2 1 rfl rfl rfl rfl
    · exact .num 4 1 20 rfl rfl rfl rfl
    · exact .pad 5 rfl rfl rfl
    · exact .num 6 2 4 rfl rfl rfl rfl
    · exact .num 7 1 21 rfl rfl rfl rfl
    · exact .num 8 1 5 rfl rfl rfl rfl
    · exact .pad 9 rfl rfl rfl
    · exact .ip 10 8 rfl rfl rfl (.inl rfl)
    · exact .ip 11 14 rfl rfl rfl (.inr rfl)
    · exact .num 12 2 6 rfl rfl rfl rfl
    · exact .num 13 2 7 rfl rfl rfl rfl
  · exact .none h1 h2 h3

private theorem wild_set {vs n} (i : Nat) (u : Val) (h : Wild vs n) : Wild (vs.set (i + 1) u) n := by
  obtain ⟨w, rest, rfl, h⟩ := h
  exact ⟨w, rest.set i u, rfl, h⟩

private theorem head_set (vs : List Val) (i : Nat) (u : Val) : (vs.set (i + 1) u).headD .none = vs.headD .none := by
  cases vs <;> rfl

private theorem wild_set0 {vs : List Val} {n m : Nat} (h : Wild vs n) : Wild (vs.set 0 (.int m)) m := by
  obtain ⟨w, rest, rfl, h⟩ := h
  exact ⟨_, _, rfl, .inl rfl⟩

private theorem wild_same {vs : List Val} {n} (h : Wild vs n) : Wild (vs.set 0 (vs.headD .none)) n := by
  obtain ⟨w, rest, rfl, h⟩ := h
  exact ⟨_, _, rfl, h⟩

private theorem stepOk_refl {n f v} (hf : flagBit f = none) (hc : counterBit f = none) : StepOk n n f v :=
  ⟨fun _ _ _ => rfl, fun _ h => by simp [hf] at h, fun _ h => by simp [hc] at h⟩

private theorem hwPackRaw_zero : hwPackRaw (.str hwZero) = .ok (List.replicate 6 0) := by decide +kernel

private theorem hw_compare {s : Str} {b : Bytes} (hp : hwPackRaw (.str s) = .ok b) (hz : b = List.replicate 6 0 → s = hwZero) :
    pyEq (.hw (.str s)) (.hw (.str hwZero)) = .ok (b == List.replicate 6 0) ∧
    pyNe (.hw (.str s)) (.hw (.str hwZero)) = .ok (!(b == List.replicate 6 0)) := by
  constructor
  · have : pyEq (.hw (.str s)) (.hw (.str hwZero)) = genericEq (.hw (.str s)) (.hw (.str hwZero)) := rfl
    rw [this]
    have e : gclass (.hw (.str hwZero)) = gclass (.hw (.str s)) := rfl
    simp only [genericEq, e, if_true, gpack, hp, hwPackRaw_zero]
  · have : pyNe (.hw (.str s)) (.hw (.str hwZero)) = .ok (!(hwZero == s)) := rfl
    rw [this]
    congr 2
    by_cases h : b = List.replicate 6 0
    · rw [hz h, h]; rfl
    · have : hwZero ≠ s := by
        intro e
        rw [← e, hwPackRaw_zero] at hp
        exact h (Except.ok.inj hp).symm
      rw [beq_eq_false_iff_ne.mpr h, beq_eq_false_iff_ne.mpr this]

private theorem hexItems_bytes (b : Bytes) : hexItems (b.map fun x => .int x.toNat) = .ok (b.map fun x => hexFix 2 x.toNat) := by
  induction b with
  | nil => rfl
  | cons x b ih => simp [hexItems, hexItem, ih]

private theorem strItems_bytes (b : Bytes) : strItems (b.map fun x => .int x.toNat) = .ok (b.map fun x => decStr x.toNat) := by
  induction b with
  | nil => rfl
  | cons x b ih => simp [strItems, strItem, ih]

/-- The value stored for a legal assignment to a numeric field or hardware address compares with the default as expected. -/
private theorem says_num {f k v on} (hk : width f = some k) (h : Says f v on) :
    pyEq v (.ub k (.int 0)) = .ok (!on) ∧ pyNe v (.ub k (.int 0)) = .ok on := by
  have hne : ¬ (f = "dl_src" ∨ f = "dl_dst") := by
    rintro (e | e) <;> (rw [e] at hk; exact absurd hk (by decide +revert))
  cases h with
  | @num k' _ i hw ho hf =>
    cases Option.some.inj (hk.symm.trans hw)
    have h0 : operand (.ub k (.int 0)) = some 0 := rfl
    refine ⟨?_, C43_ne ho h0⟩
    rw [C43_eq ho h0 fun e => ⟨hf e, 0, rfl, Nat.pow_pos (by decide)⟩, Bool.not_not]
  | text hd => exact absurd hd hne
  | addr hd => exact absurd hd hne
  | bytes hd => exact absurd hd hne

private theorem says_hw {f v on} (bit : Nat) (hk : width f = none) (h : Says f v on) :
    ∃ s, convert (.hw bit) v = .ok (.hw (.str s)) ∧ pyEq (.hw (.str s)) (.hw (.str hwZero)) = .ok (!on) ∧
      pyNe (.hw (.str s)) (.hw (.str hwZero)) = .ok on := by
  cases h with
  | num hw => rw [hk] at hw; cases hw
  | text hd hp hz => exact ⟨_, rfl, by rw [Bool.not_not]; exact hw_compare hp hz⟩
  | addr hd hp hz => exact ⟨_, rfl, by rw [Bool.not_not]; exact hw_compare hp hz⟩
  | @bytes b t hd hl =>
    refine ⟨colonHex b, ?_, ?_⟩
    · simp only [convert, hexItems_bytes]
      have := colonHex_eq hl
      rw [← this, ← hl, chunks_one, List.map_map]
      rfl
    · rw [Bool.not_not]
      exact hw_compare (hwPackRaw_colonHex hl) fun e => by subst e; decide +kernel

private theorem net_convert {v m} (s : Nat) (h : Net v m) : ∃ x, convert (.ip s) v = .ok (.ip x m) := by
  cases h with
  | addr => exact ⟨_, rfl⟩
  | text h => exact ⟨_, h⟩
  | @bytes b t hl =>
    refine ⟨.str (joinC '.' ((chunks 1 4 b).map decStr)), ?_⟩
    simp only [convert, strItems_bytes]
    have e : (b.map fun x => decStr x.toNat) = (chunks 1 4 b).map decStr := by
      rw [← hl, chunks_one, List.map_map]; rfl
    rw [e, ipInit]
    simp [splitMask, ipText_no_slash hl, pyIntOf]

private theorem mask8 : ∀ b < 22, (allBits ^^^ (63 <<< 8)).testBit b = !decide (8 ≤ b ∧ b < 14) := by decide
private theorem mask14 : ∀ b < 22, (allBits ^^^ (63 <<< 14)).testBit b = !decide (14 ≤ b ∧ b < 20) := by decide

private theorem counter_bits {n c s : Nat} (hs : s = 8 ∨ s = 14) (hc : c ≤ 32) (b : Nat) (hb : b < 22) :
    ((n &&& (allBits ^^^ (63 <<< s))) ||| (c <<< s)).testBit b =
      if s ≤ b ∧ b < s + 6 then c.testBit (b - s) else n.testBit b := by
  have hm : (allBits ^^^ (63 <<< s)).testBit b = !decide (s ≤ b ∧ b < s + 6) := by
    rcases hs with rfl | rfl
    · exact mask8 b hb
    · exact mask14 b hb
  rw [Nat.testBit_or, Nat.testBit_and, hm, Nat.testBit_shiftLeft]
  by_cases h : s ≤ b ∧ b < s + 6
  · simp [h]
  · simp only [h, decide_false, Bool.not_false, Bool.and_true, if_false]
    by_cases h1 : b ≥ s
    · have : c.testBit (b - s) = false := by
        apply Nat.testBit_lt_two_pow
        have : 2 ^ 6 ≤ 2 ^ (b - s) := Nat.pow_le_pow_right (by decide) (by omega)
        omega
      simp [this]
    · simp [h1]

private theorem toggle_step {vs n bit f v u dflt} (hw : Wild vs n) (h1 : flagBit f = some bit) (h3 : counterBit f = none)
    (hs : ∀ on, Says f v on → isPad u = false ∧ pyEq u dflt = .ok (!on) ∧ pyNe u dflt = .ok on) {r : Res Val}
    (hr : r = if isPad u then .ok (vs.headD .none) else fillWildcards.toggle (vs.headD .none) bit dflt u) :
    ∃ n', (∀ e, r = .error e → n' = n) ∧ (∀ w, r = .ok w → Wild (vs.set 0 w) n') ∧ StepOk n n' f v := by
  have hc : ∀ (n' : Nat), ∀ s, counterBit f = some s → ∀ m, Net v m → ∀ j < 6, n'.testBit (s + j) = (32 - m).toNat.testBit j :=
    fun _ s h => by rw [h3] at h; cases h
  by_cases hex : ∃ on, Says f v on
  · obtain ⟨on, ho⟩ := hex
    obtain ⟨p1, p2, p3⟩ := hs on ho
    have uniq : ∀ on', Says f v on' → on' = on := by
      intro on' h'
      have e := (hs on' h').2.2
      rw [p3] at e
      exact (Except.ok.inj e).symm
    obtain ⟨w', t1, t2⟩ := toggle_spec (bit := bit) hw p2 (by rw [Bool.not_not]; exact p3)
    simp only [p1, Bool.false_eq_true, if_false] at hr
    rw [t1] at hr
    rcases t2 with ⟨rfl, hb⟩ | ⟨rfl, hb⟩
    · refine ⟨n, fun _ _ => rfl, fun w h => ?_, fun _ _ _ => rfl, fun bit' hb' on' h' => ?_, hc n⟩
      · rw [hr] at h; cases h; exact wild_same hw
      · rw [h1] at hb'; cases hb'; rw [uniq on' h', hb]
    · refine ⟨n ^^^ (1 <<< bit), fun e h => (by rw [hr] at h; cases h), fun w h => ?_, fun b _ hb' => ?_, fun bit' hb' on' h' => ?_, hc _⟩
      · rw [hr] at h; cases h; exact wild_set0 hw
      · rw [xor_bit, if_neg]; rintro rfl; exact hb' (.inl h1)
      · rw [h1] at hb'; cases hb'; rw [uniq on' h', xor_bit, if_pos rfl, hb, Bool.not_not]
  · have hno : ∀ (n' : Nat) bit', flagBit f = some bit' → ∀ on, Says f v on → n'.testBit bit' = !on :=
      fun _ _ _ on h => absurd ⟨on, h⟩ hex
    cases r with
    | error e => exact ⟨n, fun _ _ => rfl, fun w h => (by cases h), fun _ _ _ => rfl, hno n, hc n⟩
    | ok w' =>
      have : w' = vs.headD .none ∨ w' = .int ((n ^^^ (1 <<< bit) : Nat) : Int) := by
        split at hr
        · exact .inl (Except.ok.inj hr)
        · exact toggle_any hw hr.symm
      rcases this with rfl | rfl
      · exact ⟨n, fun _ _ => rfl, fun w h => by cases h; exact wild_same hw, fun _ _ _ => rfl, hno n, hc n⟩
      · refine ⟨n ^^^ (1 <<< bit), fun e h => (by cases h), fun w h => by cases h; exact wild_set0 hw, fun b _ hb' => ?_, hno _, hc _⟩
        rw [xor_bit, if_neg]; rintro rfl; exact hb' (.inl h1)

private theorem not_pad {f v on} (h : Says f v on) : isPad v = false := by
  cases h with
  | num _ ho => cases v <;> first | rfl | cases ho
  | _ => rfl

private theorem convert_ip {s v u} (h : convert (.ip s) v = .ok u) : ∃ x m, u = .ip x m := by
  have key : ∀ t u, ipInit t = .ok u → ∃ x m, u = .ip x m := by
    intro t u h
    unfold ipInit at h
    split at h
    · cases h
    · split at h
      · cases h
      · exact ⟨_, _, (Except.ok.inj h).symm⟩
  simp only [convert] at h
  split at h
  · exact ⟨_, _, (Except.ok.inj h).symm⟩
  · split at h
    · cases h
    · exact key _ _ h
  · exact key _ _ h
  · cases h

/-- One assignment. -/
private theorem step {vs n} (hw : Wild vs n) {f : String} {v : Val} (hf : f ≠ "wildcards") (hm : MaskOk (f, v)) :
    ∃ n', Wild (matchSet vs f v).1 n' ∧ StepOk n n' f v := by
  unfold matchSet
  cases slotCases f with
  | wild h => exact absurd h hf
  | none hs h1 h2 => rw [hs]; exact ⟨n, hw, stepOk_refl h1 h2⟩
  | pad i hs h1 h2 =>
    rw [hs]
    refine ⟨n, ?_, stepOk_refl h1 h2⟩
    simp only [convert, fillWildcards]
    split
    · exact wild_set i _ hw
    · rename_i heq
      split at heq
      · cases heq; exact wild_same (wild_set i _ hw)
      · cases heq
  | num i k bit hs h1 h2 h3 =>
    rw [hs]
    simp only [convert]
    have hw' := wild_set i v hw
    obtain ⟨n', a, b, c⟩ := toggle_step (u := v) (dflt := .ub k (.int 0)) hw' h1 h3 (fun on h => ⟨not_pad h, says_num h2 h⟩) rfl
    · refine ⟨n', ?_, c⟩
      cases hr : fillWildcards (.num k bit) ((vs.set (i + 1) v).headD .none) v with
      | error e => simp only [hr]; rw [a e hr]; exact hw'
      | ok w => simp only [hr]; exact b w hr
  | hw i bit hs h1 h2 h3 =>
    rw [hs]
    cases hcv : convert (.hw bit) v with
    | error e =>
      simp only [hcv]
      refine ⟨n, hw, fun _ _ _ => rfl, fun _ _ on h => ?_, fun s h => by rw [h3] at h; cases h⟩
      obtain ⟨s, e1, _⟩ := says_hw bit h2 h
      rw [hcv] at e1; cases e1
    | ok u =>
      simp only [hcv]
      have hw' := wild_set i u hw
      obtain ⟨n', a, b, c⟩ := toggle_step (f := f) (v := v) (u := u) (dflt := .hw (.str hwZero)) hw' h1 h3 (fun on h => by
        obtain ⟨s, e1, e2⟩ := says_hw bit h2 h
        rw [hcv] at e1; cases e1
        exact ⟨rfl, e2⟩) rfl
      refine ⟨n', ?_, c⟩
      cases hr : fillWildcards (.hw bit) ((vs.set (i + 1) u).headD .none) u with
      | error e => simp only [hr]; rw [a e hr]; exact hw'
      | ok w => simp only [hr]; exact b w hr
  | ip i s hs h1 h2 h3 =>
    rw [hs]
    have hfl : ∀ (n' : Nat) bit', flagBit f = some bit' → ∀ on, Says f v on → n'.testBit bit' = !on :=
      fun _ bit' h => by rw [h1] at h; cases h
    cases hcv : convert (.ip s) v with
    | error e =>
      simp only [hcv]
      refine ⟨n, hw, fun _ _ _ => rfl, hfl n, fun s' h m hn => ?_⟩
      rw [h2] at h; cases h
      obtain ⟨x, hx⟩ := net_convert s hn
      rw [hcv] at hx; cases hx
    | ok u =>
      obtain ⟨x, m, rfl⟩ : ∃ x m, u = .ip x m := convert_ip hcv
      obtain ⟨m0, m1⟩ := hm s h2 x m hcv
      have hw' := wild_set i (.ip x m) hw
      simp only [hcv, fillWildcards, isPad, Bool.false_eq_true, if_false, wildNum_of hw', if_pos m1]
      refine ⟨_, wild_set0 hw', fun b hb hno => ?_, hfl _, fun s' h m' hn j hj => ?_⟩
      · rw [counter_bits h3 (by omega) b hb, if_neg]
        exact fun hh => hno (.inr ⟨s, h2, hh⟩)
      · rw [h2] at h; cases h
        obtain ⟨x', hx'⟩ := net_convert s hn
        rw [hcv] at hx'; cases hx'
        rw [counter_bits h3 (by omega) (s + j) (by rcases h3 with rfl | rfl <;> omega), if_pos (by omega)]
        congr 1; omega

private theorem flag_lt {f bit} (h : flagBit f = some bit) : bit < 22 ∧ (0x3820ff).testBit bit = true := by
  unfold flagBit at h
  split at h <;> cases h <;> decide

private theorem count_lt {f s} (h : counterBit f = some s) : s ≤ 14 := by
  unfold counterBit at h
  split at h <;> cases h <;> decide

private theorem owns_inj {f g b} (h : owns f b) (h' : owns g b) : f = g := by
  have flag : ∀ {f g : String} {b}, flagBit f = some b → flagBit g = some b → f = g := by
    intro f g b h h'
    unfold flagBit at h h'
    split at h <;> cases h <;> split at h' <;> cases h' <;> rfl
  have cnt : ∀ {f g : String} {s s' b : Nat}, counterBit f = some s → counterBit g = some s' → s ≤ b → b < s + 6 → s' ≤ b → b < s' + 6 → f = g := by
    intro f g s s' b h h'
    unfold counterBit at h h'
    split at h <;> cases h <;> split at h' <;> cases h' <;> first | (intros; rfl) | (intros; omega)
  have mix : ∀ {f g : String} {s b : Nat}, flagBit f = some b → counterBit g = some s → s ≤ b → b < s + 6 → False := by
    intro f g s b h h'
    unfold flagBit at h
    unfold counterBit at h'
    split at h <;> cases h <;> split at h' <;> cases h' <;> (intros; omega)
  rcases h with h | ⟨s, h, h1, h2⟩ <;> rcases h' with h' | ⟨s', h', h3, h4⟩
  · exact flag h h'
  · exact (mix h h' h3 h4).elim
  · exact (mix h' h h1 h2).elim
  · exact cnt h h' h1 h2 h3 h4

private theorem run {h : List (String × Val)} : ∀ {vs n}, Wild vs n → (∀ p ∈ h, p.1 ≠ "wildcards" ∧ MaskOk p) →
    ∃ n', Wild (matchRun vs h) n' ∧
      (∀ f bit, flagBit f = some bit → (lastTo f h = none → n'.testBit bit = n.testBit bit) ∧
        ∀ v on, lastTo f h = some v → Says f v on → n'.testBit bit = !on) ∧
      (∀ f s, counterBit f = some s → (lastTo f h = none → ∀ j < 6, n'.testBit (s + j) = n.testBit (s + j)) ∧
        ∀ v m, lastTo f h = some v → Net v m → ∀ j < 6, n'.testBit (s + j) = (32 - m).toNat.testBit j) := by
  induction h with
  | nil =>
    intro vs n hw _
    exact ⟨n, hw, fun _ _ _ => ⟨fun _ => rfl, fun _ _ h => by cases h⟩, fun _ _ _ => ⟨fun _ _ _ => rfl, fun _ _ h => by cases h⟩⟩
  | cons p h ih =>
    intro vs n hw hh
    obtain ⟨g, u⟩ := p
    obtain ⟨hg, hm⟩ := hh _ (List.mem_cons_self ..)
    obtain ⟨n1, w1, s1⟩ := step hw hg hm
    obtain ⟨n', w', a, b⟩ := ih w1 fun p hp => hh p (List.mem_cons_of_mem _ hp)
    refine ⟨n', w', fun f bit hb => ?_, fun f s hs => ?_⟩
    · have hb22 := flag_lt hb
      obtain ⟨a1, a2⟩ := a f bit hb
      cases hl : lastTo f h with
      | some v0 =>
        simp only [lastTo, hl]
        exact ⟨fun h => (by cases h), fun v on h => by cases h; exact a2 _ _ hl⟩
      | none =>
        simp only [lastTo, hl]
        rw [a1 hl]
        by_cases e : g = f
        · subst e
          simp only [if_true]
          exact ⟨fun h => (by cases h), fun v on h hs => by cases h; exact s1.flag bit hb on hs⟩
        · simp only [if_neg e]
          refine ⟨fun _ => s1.other bit hb22.1 fun ho => e ?_, fun v on h => by cases h⟩
          exact owns_inj ho (.inl hb)
    · obtain ⟨b1, b2⟩ := b f s hs
      cases hl : lastTo f h with
      | some v0 =>
        simp only [lastTo, hl]
        exact ⟨fun h => (by cases h), fun v on h => by cases h; exact b2 _ _ hl⟩
      | none =>
        simp only [lastTo, hl]
        by_cases e : g = f
        · subst e
          simp only [if_true]
          exact ⟨fun h => (by cases h), fun v m h hn j hj => by cases h; rw [b1 hl j hj]; exact s1.count s hs m hn j hj⟩
        · simp only [if_neg e]
          refine ⟨fun _ j hj => ?_, fun v on h => by cases h⟩
          rw [b1 hl j hj]
          refine s1.other _ (by have := count_lt hs; omega) fun ho => e ?_
          exact owns_inj ho (.inr ⟨s, hs, by omega, by omega⟩)

private theorem count_eq {n c s : Nat} (hc : c < 64) (h : ∀ j < 6, n.testBit (s + j) = c.testBit j) : n / 2 ^ s % 64 = c := by
  apply Nat.eq_of_testBit_eq
  intro j
  rw [show (64 : Nat) = 2 ^ 6 from rfl, Nat.testBit_mod_two_pow, Nat.testBit_div_two_pow]
  by_cases hj : j < 6
  · simp [hj, Nat.add_comm j s, h j hj]
  · have : c.testBit j = false := by
      apply Nat.testBit_lt_two_pow
      have : 2 ^ 6 ≤ 2 ^ j := Nat.pow_le_pow_right (by decide) (by omega)
      omega
    simp [hj, this]

/-! ## C24 -/

/-- C24.  Start from a `Match` in any state whose wildcards are a number `n`, and make any assignments, in any order and with any
values, except to `wildcards` (assignments may raise; the netmasks of addresses are within 0..32).  Then the wildcards are again a
number.  The bit of each flag field is clear iff the value last assigned to it differs from the default, and the counter of an address
field is 32 minus the netmask of the address last assigned; a field that was not assigned keeps its bits. -/
theorem C24_history {vs : List Val} {n : Nat} (hw : Wild vs n) (h : List (String × Val))
    (hh : ∀ p ∈ h, p.1 ≠ "wildcards" ∧ MaskOk p) :
    ∃ n', Wild (matchRun vs h) n' ∧
      (∀ f bit, flagBit f = some bit → (lastTo f h = none → n'.testBit bit = n.testBit bit) ∧
        ∀ v on, lastTo f h = some v → Says f v on → (n'.testBit bit = false ↔ on = true)) ∧
      (∀ f s, counterBit f = some s → (lastTo f h = none → n' / 2 ^ s % 64 = n / 2 ^ s % 64) ∧
        ∀ v m, lastTo f h = some v → Net v m → 0 ≤ m → m ≤ 32 → ((n' / 2 ^ s % 64 : Nat) : Int) = 32 - m) := by
  obtain ⟨n', w, a, b⟩ := run hw hh
  refine ⟨n', w, fun f bit hb => ⟨(a f bit hb).1, fun v on hl hs => ?_⟩, fun f s hs => ⟨fun hl => ?_, fun v m hl hn m0 m1 => ?_⟩⟩
  · rw [(a f bit hb).2 v on hl hs]; cases on <;> simp
  · refine count_eq (Nat.mod_lt _ (by decide)) fun j hj => ?_
    rw [(b f s hs).1 hl j hj, show (64 : Nat) = 2 ^ 6 from rfl, Nat.testBit_mod_two_pow, Nat.testBit_div_two_pow]
    simp [hj, Nat.add_comm j s]
  · rw [count_eq (c := (32 - m).toNat) (by omega) ((b f s hs).2 v m hl hn)]
    omega

/-- A match that was decoded (its wildcards are a `UBInt32`) and then given a port. -/
example := C24_history (vs := .ub 4 (.int 0x3820ff) :: matchNew.drop 1) (n := 0x3820ff) ⟨_, _, rfl, .inr (.inr (.inl rfl))⟩
  [("in_port", .int 3), ("in_port", .ub 2 (.int 4))]
  (by rintro p (_ | ⟨_, _ | ⟨_, ⟨⟩⟩⟩) <;> exact ⟨by decide, fun s h => by simp [counterBit] at h⟩)

/-- C24.  `Match(**kwargs)` followed by any assignments: a flag field that never got a value is wildcarded, one that did is wildcarded
iff its last value is the default; an address that was never given is ignored completely (counter 32). -/
theorem C24_match (h : List (String × Val)) (hh : ∀ p ∈ h, p.1 ≠ "wildcards" ∧ MaskOk p) :
    ∃ n, Wild (matchRun matchNew h) n ∧
      (∀ f bit, flagBit f = some bit → (lastTo f h = none → n.testBit bit = true) ∧
        ∀ v on, lastTo f h = some v → Says f v on → (n.testBit bit = false ↔ on = true)) ∧
      (∀ f s, counterBit f = some s → (lastTo f h = none → n / 2 ^ s % 64 = 32) ∧
        ∀ v m, lastTo f h = some v → Net v m → 0 ≤ m → m ≤ 32 → ((n / 2 ^ s % 64 : Nat) : Int) = 32 - m) := by
  have e : matchNew = matchInit := by decide +kernel
  rw [e]
  have hw : Wild matchInit 0x3820ff := ⟨_, _, rfl, .inl rfl⟩
  obtain ⟨n, w, a, b⟩ := C24_history hw h hh
  refine ⟨n, w, fun f bit hb => ⟨fun hl => ?_, (a f bit hb).2⟩, fun f s hs => ⟨fun hl => ?_, (b f s hs).2⟩⟩
  · rw [(a f bit hb).1 hl]; exact (flag_lt hb).2
  · rw [(b f s hs).1 hl]
    unfold counterBit at hs
    split at hs <;> cases hs <;> rfl

/-- A history with every kind of value, including assignments that raise. -/
example : let h := [("in_port", .int 3), ("dl_src", .str "0a:00:00:00:00:01".toList), ("nw_src", .str "10.0.0.0/8".toList), ("nope", .none),
    ("tp_dst", .ub 2 (.int 80)), ("dl_dst", .list false [.int 1, .int 2, .int 3, .int 4, .int 5, .int 6]), ("pad1", .int 1), ("in_port", .int 0)]
    (matchRun matchNew h).headD .none = .int (0x3820ff - 4 - 8 - 128 - 0x2000 + 24 * 256) ∧
    Says "in_port" (.int 0) false ∧ Says "tp_dst" (.ub 2 (.int 80)) true ∧ Says "dl_src" (.str "0a:00:00:00:00:01".toList) true ∧
    Says "dl_dst" (.list false [.int 1, .int 2, .int 3, .int 4, .int 5, .int 6]) true ∧ Net (.str "10.0.0.0/8".toList) 8 := by
  refine ⟨by decide +kernel, .num (k := 2) (i := 0) rfl rfl (fun h => by cases h), .num (k := 2) (i := 80) rfl rfl (fun _ => ⟨80, rfl, by decide⟩),
    .text (b := [10, 0, 0, 0, 0, 1]) (.inl rfl) (by decide +kernel) (fun h => absurd h (by decide)),
    .bytes (b := [1, 2, 3, 4, 5, 6]) (.inr rfl) rfl, .text (by decide +kernel : ipInit _ = .ok (.ip (.str "10.0.0.0".toList) 8))⟩

/-- The attributes of `Match`. -/
def fieldNames01 : List String :=
  ["wildcards", "in_port", "dl_src", "dl_dst", "dl_vlan", "dl_vlan_pcp", "pad1", "dl_type", "nw_tos", "nw_proto", "pad2", "nw_src",
   "nw_dst", "tp_src", "tp_dst"]

/-- C24.  Assigning to a name the class does not have is an `AttributeError`, and assigning to an address what is neither an address,
text nor a list a `TypeError`; the match is unchanged. -/
theorem C24_rejected (vs : List Val) (f : String) (v : Val) :
    (f ∉ fieldNames01 → matchSet vs f v = (vs, some .attribute)) ∧
    (f = "nw_src" ∨ f = "nw_dst" → (∀ x m, v ≠ .ip x m) → (∀ s, v ≠ .str s) → (∀ t xs, v ≠ .list t xs) →
      matchSet vs f v = (vs, some .type)) := by
  constructor
  · intro h
    have : slot f = none := by
      simp only [fieldNames01, List.mem_cons, List.not_mem_nil, or_false, not_or] at h
      unfold slot
      split <;> simp_all
    simp only [matchSet, this]
  · intro h h1 h2 h3
    have hc : ∀ k, convert (.ip k) v = .error .type := by
      intro k
      cases v <;> simp_all [convert]
    rcases h with rfl | rfl <;> simp only [matchSet, slot, hc]

example := (C24_rejected matchNew "in_prt" (.int 1)).1 (by decide)
example := (C24_rejected matchNew "nw_src" (.int 1)).2 (.inl rfl) nofun nofun nofun

/-- C24.  Text that is no address with a netmask is refused and leaves the match unchanged. -/
theorem C24_bad_text (vs : List Val) {f : String} (hf : f = "nw_src" ∨ f = "nw_dst") {s : Str} {e : Err} (h : ipInit s = .error e) :
    matchSet vs f (.str s) = (vs, some e) := by
  rcases hf with rfl | rfl <;> simp only [matchSet, slot, convert, h]

example : ipInit "10.0.0.1/x".toList = .error .value := by decide +kernel

/-- C24.  If `wildcards` was set to something that is no number, assigning a number or an address is a `TypeError`, but the attribute has its new
value and `wildcards` is as it was. -/
theorem C24_no_wildcards {w : Val} (hw : w = .none ∨ (∃ s, w = .str s) ∨ (∃ b, w = .bytes b)) (vs : List Val) (m i : Int) (x : Val) :
    matchSet (w :: vs) "nw_src" (.ip x m) = (w :: vs.set 10 (.ip x m), some .type) ∧
    matchSet (w :: vs) "nw_dst" (.ip x m) = (w :: vs.set 11 (.ip x m), some .type) ∧
    ∀ f ∈ ["in_port", "dl_vlan", "dl_vlan_pcp", "dl_type", "nw_tos", "nw_proto", "tp_src", "tp_dst"],
      ∃ k, fieldNames01[k + 1]? = some f ∧ matchSet (w :: vs) f (.int i) = (w :: vs.set k (.int i), some .type) := by
  have hn : wildNum w = .error .type := by
    rcases hw with rfl | ⟨s, rfl⟩ | ⟨b, rfl⟩ <;> rfl
  have ht : ∀ k bit, fillWildcards (.num k bit) w (.int i) = .error .type := by
    intro k bit
    simp only [fillWildcards, isPad, fillWildcards.toggle, hn]
    by_cases h0 : i = 0
    · subst h0; rfl
    · have h1 : pyEq (.int i) (.ub k (.int 0)) = .ok false := by
        show Except.ok ((0 : Int) == i) = _
        simp [Ne.symm h0]
      have h2 : pyNe (.int i) (.ub k (.int 0)) = .ok true := by
        show Except.ok (!((0 : Int) == i)) = _
        simp [Ne.symm h0]
      rw [h1, h2]; rfl
  refine ⟨?_, ?_, ?_⟩
  · simp [matchSet, slot, convert, fillWildcards, isPad, hn]
  · simp [matchSet, slot, convert, fillWildcards, isPad, hn]
  · intro f hf
    simp only [List.mem_cons, List.not_mem_nil, or_false] at hf
    rcases hf with rfl | rfl | rfl | rfl | rfl | rfl | rfl | rfl
    · exact ⟨0, rfl, by simp [matchSet, slot, convert, ht]⟩
    · exact ⟨3, rfl, by simp [matchSet, slot, convert, ht]⟩
    · exact ⟨4, rfl, by simp [matchSet, slot, convert, ht]⟩
    · exact ⟨6, rfl, by simp [matchSet, slot, convert, ht]⟩
    · exact ⟨7, rfl, by simp [matchSet, slot, convert, ht]⟩
    · exact ⟨8, rfl, by simp [matchSet, slot, convert, ht]⟩
    · exact ⟨12, rfl, by simp [matchSet, slot, convert, ht]⟩
    · exact ⟨13, rfl, by simp [matchSet, slot, convert, ht]⟩

example : matchRun matchNew [("wildcards", .none), ("in_port", .int 3)] = .none :: (matchNew.drop 1).set 0 (.int 3) := by decide +kernel

/-- C24 fails outside these values.  Another spelling of the zero address toggles the bit with every assignment; `None` (which is packed
as 0) clears the bit; a netmask of -40 changes the bits of other fields. -/
theorem C24_counterexamples :
    (let odd : List (String × Val) := [("dl_src", .str "0:0:0:0:0:0".toList)]
     (matchRun matchNew odd).headD .none = .int 0x3820fb ∧ (matchRun matchNew (odd ++ odd)).headD .none = .int 0x3820ff) ∧
    (hwPackRaw (.str "0:0:0:0:0:0".toList) = .ok (List.replicate 6 0)) ∧
    ((matchRun matchNew [("in_port", .none)]).headD .none = .int 0x3820fe ∧ (ubint 2 .none (.int 0)).pack .none = .ok [0, 0]) ∧
    (matchRun matchNew [("nw_src", .str "1.2.3.4/-40".toList), ("nw_dst", .str "1.2.3.4/32".toList)]).headD .none = .int 0x3008ff ∧
    (matchRun matchNew [("nw_dst", .str "1.2.3.4/32".toList), ("nw_src", .str "1.2.3.4/-40".toList)]).headD .none = .int 0x3048ff := by
  decide +kernel

/-! ## C25 -/

private def StepsOk : Fields → Nat → Prop
  | [], _ => True
  | (name, c) :: fs, i => (∃ s, i ≠ 0 ∧ slot name = some (i, s) ∧ convert s c.proto = .ok c.proto ∧
      ∀ vs n, Wild vs n → ∃ w, fillWildcards s (vs.headD .none) c.proto = .ok w ∧ ∃ n', Wild (vs.set 0 w) n') ∧ StepsOk fs (i + 1)

private theorem steps_eq {buff : Bytes} : ∀ (fs : Fields) (i : Nat) (vs : List Val) (n off : Nat), StepsOk fs i → Wild vs n →
    vs.length = i + fs.length → 0 < i →
    (∀ e, unpackAttrs fs buff off = .error e → unpackSteps fs i vs buff off = .error e) ∧
    (∀ us e, unpackAttrs fs buff off = .ok (us, e) → ∃ vs', unpackSteps fs i vs buff off = .ok (vs', e) ∧
      vs'.drop 1 = (vs.take i).drop 1 ++ us ∧ ∃ n', Wild vs' n')
  | [], i, vs, n, off, _, hw, hl, hi => by
    refine ⟨fun e h => (by cases h), fun us e h => ?_⟩
    cases h
    refine ⟨vs, rfl, ?_, n, hw⟩
    rw [List.take_of_length_le (by simp at hl; omega)]; simp
  | (name, c) :: fs, i, vs, n, off, ho, hw, hl, hi => by
    obtain ⟨⟨s, hi0, hs, hc, hf⟩, ho⟩ := ho
    obtain ⟨j, rfl⟩ : ∃ j, i = j + 1 := ⟨i - 1, by omega⟩
    obtain ⟨w, f1, n', f2⟩ := hf _ n (wild_set j c.proto hw)
    have hset : matchSet vs name c.proto = ((vs.set (j + 1) c.proto).set 0 w, none) := by
      simp only [matchSet, hs, hc, f1]
    have hlen : ((vs.set (j + 1) c.proto).set 0 w).length = vs.length := by simp
    generalize hv1 : (vs.set (j + 1) c.proto).set 0 w = vs1 at *
    have htake : (vs1.take (j + 1)).drop 1 = (vs.take (j + 1)).drop 1 := by
      obtain ⟨w0, rest, rfl, _⟩ := hw
      subst hv1
      simp only [List.set_cons_succ, List.set_cons_zero, List.take_succ_cons, List.drop_succ_cons, List.drop_zero]
      rw [List.take_set_of_le (Nat.le_refl _)]
    simp only [unpackAttrs, unpackSteps, hset]
    cases hu : unpackAttr c buff off with
    | error e => exact ⟨fun _ h => h, fun us e h => by cases h⟩
    | ok un =>
      obtain ⟨u, k⟩ := un
      simp only
      simp only [List.length_cons] at hl
      obtain ⟨a, b⟩ := steps_eq (buff := buff) fs (j + 1 + 1) (vs1.set (j + 1) u) n' (off + k) ho (wild_set j u f2)
        (by simp only [List.length_set]; omega) (by omega)
      have ht2 : ((vs1.set (j + 1) u).take (j + 1 + 1)).drop 1 = (vs.take (j + 1)).drop 1 ++ [u] := by
        rw [← htake]
        obtain ⟨w0, rest, rfl, _⟩ := f2
        simp only [List.length_cons] at hlen
        simp only [List.set_cons_succ, List.take_succ_cons, List.drop_succ_cons, List.drop_zero]
        rw [List.take_succ_eq_append_getElem (by simp only [List.length_set]; omega), List.take_set_of_le (Nat.le_refl _)]
        simp
      cases hr : unpackAttrs fs buff (off + k) with
      | error e => exact ⟨fun e' h => by cases h; exact a e hr, fun us e' h => by cases h⟩
      | ok p =>
        obtain ⟨us, e⟩ := p
        refine ⟨fun e' h => (by cases h), fun us' e' h => ?_⟩
        cases h
        obtain ⟨vs', b1, b2, b3⟩ := b us e hr
        exact ⟨vs', b1, by rw [b2, ht2]; simp, b3⟩

private theorem stepsOk_match : StepsOk (matchFields.drop 1) 1 := by
  have num : ∀ k bit, ∀ vs n, Wild vs n → ∃ w, fillWildcards (.num k bit) (vs.headD .none) (.ub k (.int 0)) = .ok w ∧ ∃ n', Wild (vs.set 0 w) n' := by
    intro k bit vs n hw
    have h0 : operand (.ub k (.int 0)) = some 0 := rfl
    obtain ⟨w', t1, t2⟩ := toggle_spec (bit := bit) hw (C43_eq h0 h0 fun _ => ⟨⟨0, rfl, Nat.pow_pos (by decide)⟩, 0, rfl, Nat.pow_pos (by decide)⟩)
      (C43_ne h0 h0)
    refine ⟨w', t1, ?_⟩
    rcases t2 with ⟨rfl, _⟩ | ⟨rfl, _⟩
    · exact ⟨n, wild_same hw⟩
    · exact ⟨_, wild_set0 hw⟩
  have hwa : ∀ bit, ∀ vs n, Wild vs n → ∃ w, fillWildcards (.hw bit) (vs.headD .none) (.hw (.str hwZero)) = .ok w ∧ ∃ n', Wild (vs.set 0 w) n' := by
    intro bit vs n hw
    obtain ⟨e1, e2⟩ := hw_compare hwPackRaw_zero fun _ => rfl
    obtain ⟨w', t1, t2⟩ := toggle_spec (bit := bit) hw e1 e2
    refine ⟨w', t1, ?_⟩
    rcases t2 with ⟨rfl, _⟩ | ⟨rfl, _⟩
    · exact ⟨n, wild_same hw⟩
    · exact ⟨_, wild_set0 hw⟩
  have pad : ∀ s k, ∀ vs n, Wild vs n → ∃ w, fillWildcards s (vs.headD .none) (.pad k) = .ok w ∧ ∃ n', Wild (vs.set 0 w) n' :=
    fun s k vs n hw => ⟨_, rfl, n, wild_same hw⟩
  have ip : ∀ shift a, ∀ vs n, Wild vs n → ∃ w, fillWildcards (.ip shift) (vs.headD .none) (.ip a 0) = .ok w ∧ ∃ n', Wild (vs.set 0 w) n' := by
    intro shift a vs n hw
    simp only [fillWildcards, isPad, Bool.false_eq_true, if_false, wildNum_of hw]
    exact ⟨_, if_pos (by decide), _, wild_set0 hw⟩
  refine ⟨⟨_, by decide, rfl, rfl, num _ _⟩, ⟨_, by decide, rfl, rfl, hwa _⟩, ⟨_, by decide, rfl, rfl, hwa _⟩, ⟨_, by decide, rfl, rfl, num _ _⟩,
    ⟨_, by decide, rfl, rfl, num _ _⟩, ⟨_, by decide, rfl, rfl, pad _ _⟩, ⟨_, by decide, rfl, rfl, num _ _⟩, ⟨_, by decide, rfl, rfl, num _ _⟩,
    ⟨_, by decide, rfl, rfl, num _ _⟩, ⟨_, by decide, rfl, rfl, pad _ _⟩, ⟨_, by decide, rfl, rfl, ip _ _⟩, ⟨_, by decide, rfl, rfl, ip _ _⟩,
    ⟨_, by decide, rfl, rfl, num _ _⟩, ⟨_, by decide, rfl, rfl, num _ _⟩, trivial⟩

/-- C25.  Decoding assignment by assignment into any `Match`, with `__setattr__` rewriting the wildcards along the way, gives the same
result as decoding the attributes and then the wildcards. -/
theorem C25_steps (vs : List Val) (hl : vs.length = 15) (buff : Bytes) (off : Nat) :
    matchUnpackSteps vs buff off = matchUnpack buff off := by
  obtain ⟨v0, rest, rfl⟩ : ∃ v0 rest, vs = v0 :: rest := by
    cases vs with
    | nil => cases hl
    | cons v r => exact ⟨v, r, rfl⟩
  have hset : matchSet (v0 :: rest) "wildcards" (.ub 4 (.int 4194303)) = (.ub 4 (.int 4194303) :: rest, none) := rfl
  unfold matchUnpackSteps matchUnpack
  have hm : matchFields = ("wildcards", ubint 4 .mask (.int 4194303)) :: matchFields.drop 1 := rfl
  rw [hm]
  simp only [unpackSteps, unpackAttrs]
  rw [show (ubint 4 Ref.mask (.int 4194303)).proto = .ub 4 (.int 4194303) from rfl, hset]
  simp only
  cases hu : unpackAttr (ubint 4 .mask (.int 4194303)) buff off with
  | error e => rfl
  | ok p =>
    obtain ⟨u, k⟩ := p
    have hwild : ∃ n, Wild (u :: rest) n := by
      unfold unpackAttr at hu
      split at hu
      · cases hu; exact ⟨4194303, _, _, rfl, .inr (.inr (.inl rfl))⟩
      · simp only [ubint, ubUnpack, refApply] at hu
        cases hx : unpackFrom 4 buff off with
        | none => simp [hx] at hu
        | some n => simp [hx] at hu; exact ⟨n, _, _, rfl, .inr (.inr (.inr (.inr hu.1.symm)))⟩
    obtain ⟨n, hw⟩ := hwild
    obtain ⟨a, b⟩ := steps_eq (buff := buff) (matchFields.drop 1) 1 (u :: rest) n (off + k) stepsOk_match hw
      (by simp only [List.length_cons] at hl ⊢; rw [show (matchFields.drop 1).length = 14 from rfl]; omega) (by decide)
    simp only [List.set_cons_zero, Nat.zero_add]
    cases hr : unpackAttrs (matchFields.drop 1) buff (off + k) with
    | error e => rw [a e hr]
    | ok p =>
      obtain ⟨us, e⟩ := p
      obtain ⟨vs', b1, b2, n', w', r', rfl, _⟩ := b us e hr
      rw [b1]
      simp only [List.drop_succ_cons, List.drop_zero, List.take_succ_cons, List.take_zero, List.nil_append] at b2
      subst b2
      simp only
      cases ubUnpack 4 Ref.mask buff off <;> rfl

example := C25_steps matchNew rfl ([9] ++ List.replicate 40 0) 1

/-- C25.  In every window of 40 bytes of every buffer: `Match().unpack` succeeds, its wildcards are the number in the first four bytes
whatever the other 36 are, each field is read from its place in `struct ofp_match`, and packing the object gives the same 40 bytes with
the three padding bytes cleared. -/
theorem C25_decode (buff : Bytes) (off : Nat) (h : off + 40 ≤ buff.length) :
    let s := fun i n => slice buff (off + i) (off + i + n)
    let m := Val.obj "01.Match" [.ub 4 (.mask (beVal (s 0 4))), .ub 2 (.int (beVal (s 4 2))), .hw (.str (colonHex (s 6 6))),
      .hw (.str (colonHex (s 12 6))), .ub 2 (.int (beVal (s 18 2))), .ub 1 (.int (beVal (s 20 1))), .pad 1,
      .ub 2 (.int (beVal (s 22 2))), .ub 1 (.int (beVal (s 24 1))), .ub 1 (.int (beVal (s 25 1))), .pad 2,
      .ip (.str (dotted (s 28 4))) 0, .ip (.str (dotted (s 32 4))) 0, .ub 2 (.int (beVal (s 36 2))), .ub 2 (.int (beVal (s 38 2)))]
    matchUnpackSteps matchNew buff off = .ok m ∧ V01.match.unpack buff off = .ok m ∧
      V01.match.pack m = .ok (s 0 21 ++ [0] ++ s 22 4 ++ [0, 0] ++ s 28 12) := by
  intro s m
  have hne : buff ≠ [] := by intro e; subst e; simp at h
  have key : unpackAttrs matchFields buff off = .ok (_, _) ∧ packAttrs matchFields _ = .ok _ :=
    reads_cons (reads_mask _ (by omega) hne) <|
    reads_cons (reads_num _ (by omega) hne) <|
    reads_cons (reads_hw (by omega) hne) <|
    reads_cons (reads_hw (by omega) hne) <|
    reads_cons (reads_num _ (by omega) hne) <|
    reads_cons (reads_num _ (by omega) hne) <|
    reads_cons (reads_pad _ hne) <|
    reads_cons (reads_num _ (by omega) hne) <|
    reads_cons (reads_num _ (by omega) hne) <|
    reads_cons (reads_num _ (by omega) hne) <|
    reads_cons (reads_pad _ hne) <|
    reads_cons (reads_ip _ _ (by omega) hne) <|
    reads_cons (reads_ip _ _ (by omega) hne) <|
    reads_cons (reads_num _ (by omega) hne) <|
    reads_cons (reads_num _ (by omega) hne) ⟨rfl, rfl⟩
  have hun : V01.match.unpack buff off = .ok m := by
    show matchUnpack buff off = _
    rw [matchUnpack, key.1]
    have h4 : ubUnpack 4 .mask buff off = .ok (.ub 4 (.mask (beVal (s 0 4)))) := by
      simp only [ubUnpack, unpackFrom, if_pos (show off + 4 ≤ buff.length by omega), refApply]; rfl
    simp only [h4]
    rfl
  refine ⟨?_, hun, ?_⟩
  · rw [C25_steps matchNew (by decide +kernel)]; exact hun
  · have hp : ∀ vs, V01.match.pack (.obj "01.Match" vs) = packAttrs matchFields vs := fun vs => by
      simp [V01.match, structAttr]
    refine (hp _).trans (key.2.trans ?_)
    congr 1
    have e21 : s 0 21 = slice buff off (off + 4) ++ (slice buff (off + 4) (off + 4 + 2) ++ (slice buff (off + 4 + 2) (off + 4 + 2 + 6) ++
        (slice buff (off + 4 + 2 + 6) (off + 4 + 2 + 6 + 6) ++ (slice buff (off + 4 + 2 + 6 + 6) (off + 4 + 2 + 6 + 6 + 2) ++
        slice buff (off + 4 + 2 + 6 + 6 + 2) (off + 4 + 2 + 6 + 6 + 2 + 1))))) := by
      rw [slice_join, slice_join, slice_join, slice_join, slice_join] <;> first | omega | rfl
    have e4 : s 22 4 = slice buff (off + 22) (off + 22 + 2) ++ (slice buff (off + 22 + 2) (off + 22 + 2 + 1) ++
        slice buff (off + 22 + 2 + 1) (off + 22 + 2 + 1 + 1)) := by
      rw [slice_join, slice_join] <;> first | omega | rfl
    have e12 : s 28 12 = slice buff (off + 28) (off + 28 + 4) ++ (slice buff (off + 28 + 4) (off + 28 + 4 + 4) ++
        (slice buff (off + 28 + 4 + 4) (off + 28 + 4 + 4 + 2) ++ slice buff (off + 28 + 4 + 4 + 2) (off + 28 + 4 + 4 + 2 + 2))) := by
      rw [slice_join, slice_join, slice_join] <;> first | omega | rfl
    rw [e21, e4, e12]
    simp only [List.append_assoc, List.append_nil]
    rfl

/-- All fields at their defaults but wildcards 0 on the wire, junk in the padding: the wildcards stay 0. -/
example :
    (match V01.match.unpack ([9] ++ List.replicate 21 0 ++ [7] ++ List.replicate 18 0) 1 with
    | .ok m => (match m with | .obj _ (w :: _) => w == .ub 4 (.mask 0) | _ => false) &&
        V01.match.pack m == .ok (List.replicate 40 0)
    | .error _ => false) = true := by decide +kernel

end Pyof.Props
