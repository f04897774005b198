import Verif.Props.Basic

/-!
C04, C05, C06: exactly which texts `IPAddress`, `IPv6Address` and `DPID` pack, to which bytes, and what is raised for the others.
`C03_mac_values` (Props/Basic.lean) says it for `HWAddress`.
-/

namespace Pyof.Props
open Spec

private theorem optMap_none {f : α → Option β} : ∀ {l : List α}, optMap f l = none ↔ ∃ p ∈ l, f p = none
  | [] => by simp [optMap]
  | a :: r => by
    have ih := optMap_none (f := f) (l := r)
    cases ha : f a <;> cases hr : optMap f r <;> simp_all [optMap]

private theorem takeWhile_slash (s : Str) : beforeSlash s = s.takeWhile (· ≠ '/') := by rw [beforeSlash_eq]

/-- Parse, then `struct.pack`, with the two errors. -/
private theorem parse {sep : Char} {base w k : Nat} {s : Str} {e : Err} (he : e ≠ .value) {r : Res Bytes}
    (hr : r = match splitInts sep base s with
      | none => .error .value
      | some xs => match structPack w k xs with
        | none => .error e
        | some b => .ok b) :
    (∀ b, r = .ok b ↔ groups sep base w k s = some b) ∧
    (r = .error .value ↔ ∃ p ∈ splitC sep s, pyInt base p = none) ∧
    (r = .error e ↔ (∀ p ∈ splitC sep s, pyInt base p ≠ none) ∧ groups sep base w k s = none) := by
  have hn : splitInts sep base s = none ↔ ∃ p ∈ splitC sep s, pyInt base p = none := optMap_none
  have hn' : (∀ p ∈ splitC sep s, pyInt base p ≠ none) ↔ ¬ splitInts sep base s = none := by rw [hn]; simp
  rw [hn', ← hn, splitInts_groups]
  subst hr
  cases hx : splitInts sep base s with
  | none => simp [he.symm]
  | some xs => cases hb : structPack w k xs <;> simp [hb, he]

/-- C04 (what is accepted).  An `IPAddress` that holds a text packs exactly when what stands before the first slash is four numbers from 0
to 255 in decimal, separated by dots, which are then the bytes.  When a part is no number it raises ValueError, when there are more or
fewer than four or one does not fit in a byte PackException.  One that holds no text never packs. -/
theorem C04_ipv4_values (addr : Str) (m m' : Int) :
    (∀ s : Str, let t := s.takeWhile (· ≠ '/')
      (∀ b, (ipAttr addr m).pack (.ip (.str s) m') = .ok b ↔ groups '.' 10 1 4 t = some b) ∧
      ((ipAttr addr m).pack (.ip (.str s) m') = .error .value ↔ ∃ p ∈ splitC '.' t, pyInt 10 p = none) ∧
      ((ipAttr addr m).pack (.ip (.str s) m') = .error .pack ↔ (∀ p ∈ splitC '.' t, pyInt 10 p ≠ none) ∧ groups '.' 10 1 4 t = none)) ∧
    ∀ x, (∀ s, x ≠ .str s) → ∀ b, (ipAttr addr m).pack (.ip x m') ≠ .ok b := by
  refine ⟨fun s => ?_, fun x hx b => ?_⟩
  · simp only [← takeWhile_slash]
    exact parse (by simp) rfl
  · cases x <;> first | exact absurd rfl (hx _) | simp [ipAttr, ipPack, ipPackRaw]

example := ((C04_ipv4_values "0.0.0.0".toList 32 24).1 "10.0.3.255/24".toList).1 [10, 0, 3, 255] |>.1 (by decide +kernel)
example := ((C04_ipv4_values "0.0.0.0".toList 32 24).1 "10.0.x.255/24".toList).2.1.1 (by decide +kernel)
example := ((C04_ipv4_values "0.0.0.0".toList 32 24).1 "10.0.3.256/24".toList).2.2.1 (by decide +kernel)
example := (C04_ipv4_values "0.0.0.0".toList 32 24).2 (.int 7) (fun _ h => by cases h) [0, 0, 0, 7]

/-- C05 (what is accepted).  The same for IPv6: the constructor has written out the abbreviation, so the object packs exactly when its
text before the first slash is eight numbers below 65536 in hexadecimal, separated by colons. -/
theorem C05_ipv6_values (m' : Int) :
    (∀ s : Str, let t := s.takeWhile (· ≠ '/')
      (∀ b, ip6Attr.pack (.ip6 (.str s) m') = .ok b ↔ groups ':' 16 2 8 t = some b) ∧
      (ip6Attr.pack (.ip6 (.str s) m') = .error .value ↔ ∃ p ∈ splitC ':' t, pyInt 16 p = none) ∧
      (ip6Attr.pack (.ip6 (.str s) m') = .error .pack ↔ (∀ p ∈ splitC ':' t, pyInt 16 p ≠ none) ∧ groups ':' 16 2 8 t = none)) ∧
    ∀ x, (∀ s, x ≠ .str s) → ∀ b, ip6Attr.pack (.ip6 x m') ≠ .ok b := by
  refine ⟨fun s => ?_, fun x hx b => ?_⟩
  · simp only [← takeWhile_slash]
    exact parse (by simp) rfl
  · cases x <;> first | exact absurd rfl (hx _) | simp [ip6Attr, ip6Pack, ip6PackRaw]

example := ((C05_ipv6_values 128).1 "fe80:0:0:0:0:0:1:ab/64".toList).1
  [0xfe, 0x80, 0, 0, 0, 0, 0, 0, 0, 0, 0, 0, 0, 1, 0, 0xab] |>.1 (by decide +kernel)
/-- An abbreviated text assigned past the constructor is refused. -/
example := ((C05_ipv6_values 128).1 "fe80::1".toList).2.1.2 ⟨[], by decide +kernel, by decide +kernel⟩
example := ((C05_ipv6_values 128).1 "fe80:0:0:0:0:0:1:1ffff".toList).2.2.1 (by decide +kernel)

/-- C06 (what is accepted).  A `DPID` that holds a text packs exactly when it is eight numbers from 0 to 255 in hexadecimal, separated by
colons.  When a part is no number it raises ValueError, when there are more or fewer than eight or one does not fit in a byte
`struct.error`, as its docstring says.  One that holds no text never packs. -/
theorem C06_dpid_values :
    (∀ s : Str,
      (∀ b, dpidAttr.pack (.dpid (.str s)) = .ok b ↔ groups ':' 16 1 8 s = some b) ∧
      (dpidAttr.pack (.dpid (.str s)) = .error .value ↔ ∃ p ∈ splitC ':' s, pyInt 16 p = none) ∧
      (dpidAttr.pack (.dpid (.str s)) = .error .struct ↔ (∀ p ∈ splitC ':' s, pyInt 16 p ≠ none) ∧ groups ':' 16 1 8 s = none)) ∧
    ∀ x, (∀ s, x ≠ .str s) → ∀ b, dpidAttr.pack (.dpid x) ≠ .ok b := by
  refine ⟨fun s => parse (by simp) rfl, fun x hx b => ?_⟩
  cases x <;> first | exact absurd rfl (hx _) | simp [dpidAttr, dpidPack, dpidPackRaw]

example := (C06_dpid_values.1 "00:00:00:00:00:00:00:0f".toList).1 [0, 0, 0, 0, 0, 0, 0, 15] |>.1 (by decide +kernel)
example := (C06_dpid_values.1 "00:00:00:00:00:00:0f".toList).2.2.1 (by decide +kernel)
example := (C06_dpid_values.1 "switch one".toList).2.1.1 (by decide +kernel)

end Pyof.Props
