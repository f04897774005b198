import Verif.Lemmas.Addr
/-!
# C01–C07: the basic types
-/
namespace Pyof.Props
open Pyof.Spec

/-! ## C01 `UBIntN.pack` -/

/-- The number a Python value stands for when given to a `UBInt`: an int, an enum member, a `UBInt` holding a
number, an enum member or a bitmask, or another wrapped type whose `value` is an int. -/
def number : Val → Option Int
  | .int i | .enum i => some i
  | .ub _ (.int i) | .ub _ (.enum i) | .ub _ (.mask i) => some i
  | .hw (.int i) | .ip (.int i) _ | .ip6 (.int i) _ | .dpid (.int i) | .chr (.int i) _ | .bin (.int i) => some i
  | _ => none

theorem ubPack_number (w : Nat) (dflt v : Val) :
    ubPack w dflt v =
      match number (match v with | .none => .ub w dflt | v => v) with
      | some i => packNum w (.int i)
      | none => .error .pack := by
  cases v <;> simp only [ubPack, dotValue, number]
  case none => cases dflt <;> simp [number, unwrap, packNum]
  case ub w x => cases x <;> simp [number, unwrap, packNum]
  case hw x => cases x <;> simp [number, packNum]
  case ip x m => cases x <;> simp [number, packNum]
  case ip6 x m => cases x <;> simp [number, packNum]
  case dpid x => cases x <;> simp [number, packNum]
  case chr x n => cases x <;> simp [number, packNum]
  case bin x => cases x <;> simp [number, packNum]
  all_goals rfl

/-- C01.  `pack` succeeds exactly on the numbers `0 ≤ n < 2^(8w)`, with the `w` bytes whose big-endian value is
`n`; every other value is refused with `PackException`.  `dflt` is the value of the attribute itself, used for
`None`. -/
theorem C01_ubint_pack (w : Nat) (ref : Ref) (dflt v : Val) :
    (∀ b, (ubint w ref dflt).pack v = .ok b ↔
      ∃ n : Nat, number (match v with | .none => .ub w dflt | v => v) = some (n : Int) ∧ n < 2 ^ (8 * w) ∧
        b.length = w ∧ beVal b = n) ∧
    (∀ e, (ubint w ref dflt).pack v = .error e → e = .pack) := by
  have hp : (2 : Nat) ^ (8 * w) = 256 ^ w := by rw [Nat.pow_mul]
  simp only [ubint, ubPack_number, hp]
  cases hn : number (match v with | .none => .ub w dflt | v => v) with
  | none => simp
  | some i =>
    simp only [packNum]
    cases hs : structPack w 1 [i] with
    | none =>
      have := structPack_one_none.mp hs
      refine ⟨fun b => ⟨by simp, ?_⟩, by simp⟩
      rintro ⟨n, h1, h2, _⟩
      cases h1
      exact absurd ⟨by omega, by simpa using h2⟩ this
    | some x =>
      obtain ⟨h0, h1, rfl⟩ := structPack_one.mp hs
      refine ⟨fun b => ⟨?_, ?_⟩, by simp⟩
      · intro h; cases h
        exact ⟨i.toNat, by rw [Int.toNat_of_nonneg h0], h1, be_length .., beVal_be_of_lt h1⟩
      · rintro ⟨n, h2, h3, h4, h5⟩
        cases h2
        subst h5
        simp only [Int.toNat_natCast, be_beVal' h4]

/-- Packing `65534` and packing the default. -/
example : (ubint 2).pack (.int 65534) = .ok [255, 254] ∧ (ubint 2 .none (.int 7)).pack .none = .ok [0, 7] ∧
    (ubint 1).pack (.int 256) = .error .pack ∧ (ubint 4).pack (.int (-1)) = .error .pack := by decide +kernel

/-! ## C02 `UBIntN.unpack` -/

/-- The numbers an attribute accepts from the wire. -/
def accepts : Ref → Nat → Prop
  | .enum ms, n => n ∈ ms
  | _, _ => True

/-- C02.  `unpack` at an offset succeeds exactly when `w` bytes are there and the number is accepted; then the
object is a `UBInt` of that width standing for the number on the wire and packs to the same bytes.  The only
exception is `UnpackException`. -/
theorem C02_ubint_unpack (w : Nat) (ref : Ref) (dflt : Val) (buff : Bytes) (off : Nat) :
    (∀ u, (ubint w ref dflt).unpack buff off = .ok u →
      off + w ≤ buff.length ∧ accepts ref (beVal (slice buff off (off + w))) ∧
      number u = some (beVal (slice buff off (off + w)) : Int) ∧
      ∀ ref' dflt', (ubint w ref' dflt').pack u = .ok (slice buff off (off + w))) ∧
    (off + w ≤ buff.length → accepts ref (beVal (slice buff off (off + w))) →
      ∃ u, (ubint w ref dflt).unpack buff off = .ok u) ∧
    (∀ e, (ubint w ref dflt).unpack buff off = .error e → e = .unpack) := by
  simp only [ubint, ubUnpack, unpackFrom]
  by_cases h : off + w ≤ buff.length
  · simp only [if_pos h]
    have hl := slice_full_length h
    generalize slice buff off (off + w) = s at hl
    have hlt : beVal s < 256 ^ w := by rw [← hl]; exact beVal_lt s
    have hpk : ∀ dflt' x, unwrap x = .int (beVal s) → ubPack w dflt' (.ub w x) = .ok s := by
      intro d x hx
      simp only [ubPack, dotValue, hx, packNum]
      have := (structPack_one (w := w) (i := (beVal s : Int))).mpr ⟨by omega, by simpa using hlt, rfl⟩
      rw [this]; simp [be_beVal' hl]
    cases ref with
    | none => simp [refApply, accepts, number, hpk _ _ (rfl : unwrap (.int _) = _), h]
    | mask => simp [refApply, accepts, number, hpk _ _ (rfl : unwrap (.mask _) = _), h]
    | enum ms =>
      simp only [refApply, accepts]
      by_cases hm : beVal s ∈ ms
      · simp [hm, number, hpk _ _ (rfl : unwrap (.enum _) = _), h]
      · simp [hm]
  · simp [h]

example : ∃ u, (ubint 2 (.enum [1, 513])).unpack [9, 2, 1, 7] 1 = .ok u :=
  (C02_ubint_unpack 2 (.enum [1, 513]) .none [9, 2, 1, 7] 1).2.1 (by decide) (show 513 ∈ [1, 513] by decide)

/-- C02, second part: bytes outside the window do not matter. -/
theorem C02_ubint_window (w : Nat) (ref : Ref) (dflt : Val) (pre pre' win post post' : Bytes)
    (h : win.length = w) :
    (ubint w ref dflt).unpack (pre ++ win ++ post) pre.length =
      (ubint w ref dflt).unpack (pre' ++ win ++ post') pre'.length := by
  subst h
  simp only [ubint, ubUnpack, unpackFrom_mid]

example : (ubint 2 (.enum [1, 513])).unpack [9, 2, 1, 7] 1 = .ok (.ub 2 (.enum 513)) ∧
    (ubint 2 (.enum [1])).unpack [9, 2, 1, 7] 1 = .error .unpack ∧
    (ubint 2).unpack [9, 2] 1 = .error .unpack := by decide +kernel

/-! ## Text of addresses -/

/-- Two lower-case hexadecimal digits. -/
def hex2 (x : UInt8) : Str :=
  ["0123456789abcdef".toList[x.toNat / 16]!, "0123456789abcdef".toList[x.toNat % 16]!]

theorem hex2_eq : ∀ n, n < 256 → hex2 (UInt8.ofNat n) = hexFix 2 n := by decide +kernel

theorem hex2_eq' (x : UInt8) : hexFix 2 x.toNat = hex2 x := by
  have := hex2_eq x.toNat x.toNat_lt
  rw [← this]; simp

theorem beVal_one (x : UInt8) : beVal [x] = x.toNat := by simp [beVal]

theorem chunks_one (b : Bytes) : chunks 1 b.length b = b.map UInt8.toNat := by
  induction b with
  | nil => rfl
  | cons x b ih => simp [chunks, ih, beVal_one]

/-- Lower-case hexadecimal bytes separated by colons. -/
def colonHex (b : Bytes) : Str := joinC ':' (b.map hex2)

theorem colonHex_eq {b : Bytes} {k : Nat} (h : b.length = k) :
    joinC ':' ((chunks 1 k b).map (hexFix 2)) = colonHex b := by
  subst h
  rw [chunks_one, List.map_map]
  unfold colonHex
  congr 1
  exact List.map_congr_left fun x _ => hex2_eq' x

theorem structPack_length {w k xs b} (h : structPack w k xs = some b) : b.length = w * k := by
  unfold structPack at h
  split at h
  · next hc =>
    cases h
    obtain ⟨rfl, hc⟩ := hc
    clear hc
    induction xs with
    | nil => simp
    | cons x xs ih => rw [List.flatMap_cons, List.length_append, ih, be_length, List.length_cons, Nat.mul_succ]; omega
  · cases h

/-! ## C03 `HWAddress` -/

theorem hwPackRaw_length {v b} (h : hwPackRaw v = .ok b) : b.length = 6 := by
  unfold hwPackRaw at h
  split at h
  · split at h
    · cases h
    · split at h
      · cases h
      · next hs => cases h; simpa using structPack_length hs
  · cases h

theorem hwPack_length {dv v b} (h : (hwAttr dv).pack v = .ok b) : b.length = 6 := by
  cases v <;> exact hwPackRaw_length (v := _) (by simpa only [hwAttr, hwPack] using h)

theorem hwPackRaw_colonHex {b : Bytes} (h : b.length = 6) : hwPackRaw (.str (colonHex b)) = .ok b := by
  have := groups_hw h
  rw [colonHex_eq h] at this
  exact (hwPackRaw_read (v := .str _) this).1

/-- C03 (decoding).  At any offset of any buffer: with six bytes there, the object holds their lower-case
colon-separated text, which packs to the same bytes; with fewer, `UnpackException`. -/
theorem C03_mac_unpack (dv : Val) (buff : Bytes) (off : Nat) :
    (off + 6 ≤ buff.length →
      (hwAttr dv).unpack buff off = .ok (.hw (.str (colonHex (slice buff off (off + 6))))) ∧
      ∀ dv', (hwAttr dv').pack (.hw (.str (colonHex (slice buff off (off + 6))))) = .ok (slice buff off (off + 6))) ∧
    (¬ off + 6 ≤ buff.length → (hwAttr dv).unpack buff off = .error .unpack) := by
  constructor
  · intro h
    have hl := slice_full_length h
    refine ⟨?_, fun dv' => hwPackRaw_colonHex hl⟩
    have := hwUnpack_mid (buff.take off) (buff.drop (off + 6)) hl
    rw [← split_window h, colonHex_eq hl] at this
    have ht : (buff.take off).length = off := by rw [List.length_take]; omega
    rw [ht] at this
    exact this
  · intro h
    simp only [hwAttr, hwUnpack, structUnpack]
    rw [if_neg (by rw [slice_length]; omega)]

example := (C03_mac_unpack .none [7, 0xaa, 0x0b, 0x0c, 0, 1, 0xff, 9] 1).1 (by decide)
example := (C03_mac_unpack .none [0xaa, 0x0b, 0x0c, 0, 1] 0).2 (by decide)

/-- C03 (encoding).  Whatever `pack` accepts gives six bytes, and decoding them anywhere gives the canonical
spelling of the same address: it packs to the same bytes, which is what `==` compares. -/
theorem C03_mac_pack (dv v : Val) (b : Bytes) (h : (hwAttr dv).pack v = .ok b) :
    b.length = 6 ∧ ∀ dv' pre post,
      (hwAttr dv').unpack (pre ++ b ++ post) pre.length = .ok (.hw (.str (colonHex b))) ∧
      (hwAttr dv').pack (.hw (.str (colonHex b))) = .ok b := by
  have hl := hwPack_length h
  refine ⟨hl, fun dv' pre post => ⟨?_, hwPackRaw_colonHex hl⟩⟩
  have := hwUnpack_mid pre post hl
  rw [colonHex_eq hl] at this
  exact this

example := C03_mac_pack .none (.hw (.str "AA:0b:C:00:1:ff".toList)) [0xaa, 0x0b, 0x0c, 0, 1, 0xff] (by decide +kernel)

/-- The number zero, by itself or held by an object of another basic class. -/
inductive HoldsZero : Val → Prop
  | int : HoldsZero (.int 0)
  | enum : HoldsZero (.enum 0)
  | ubInt {w} : HoldsZero (.ub w (.int 0))
  | ubEnum {w} : HoldsZero (.ub w (.enum 0))
  | ubMask {w} : HoldsZero (.ub w (.mask 0))
  | hw {x} : HoldsZero x → HoldsZero (.hw x)
  | dpid {x} : HoldsZero x → HoldsZero (.dpid x)
  | chr {x n} : HoldsZero x → HoldsZero (.chr x n)
  | bin {x} : HoldsZero x → HoldsZero (.bin x)

private theorem isZero_iff : ∀ {x : Val}, isZero x = true ↔ HoldsZero x := by
  intro x
  constructor
  · intro h
    induction x using Val.rec (motive_2 := fun _ => True) with
    | int i => simp only [isZero, decide_eq_true_eq] at h; subst h; exact .int
    | enum i => simp only [isZero, decide_eq_true_eq] at h; subst h; exact .enum
    | ub w x _ => cases x <;> simp only [isZero, unwrap, decide_eq_true_eq, Bool.false_eq_true] at h <;> subst h <;> constructor
    | hw x ih => exact .hw (ih h)
    | dpid x ih => exact .dpid (ih h)
    | chr x n ih => exact .chr (ih h)
    | bin x ih => exact .bin (ih h)
    | nil => trivial
    | cons => trivial
    | _ => simp [isZero] at h
  · intro h
    induction h <;> simp_all [isZero, unwrap]

/-- C03 (what is accepted).  An `HWAddress` packs exactly when it holds the text of six numbers from 0 to 255 in hexadecimal, separated by
colons, which are then the bytes, or a zero, which stands for six zero bytes. -/
theorem C03_mac_values (dv x : Val) (b : Bytes) : (hwAttr dv).pack (.hw x) = .ok b ↔
    (∃ s, x = .str s ∧ groups ':' 16 1 6 s = some b) ∨ (HoldsZero x ∧ b = [0, 0, 0, 0, 0, 0]) := by
  show hwPackRaw x = .ok b ↔ _
  by_cases hz : HoldsZero x
  · have : hwPackRaw x = .ok [0, 0, 0, 0, 0, 0] := by
      simp only [hwPackRaw, isZero_iff.2 hz, if_true]
      decide +kernel
    rw [this]
    constructor
    · intro h; cases h; exact .inr ⟨hz, rfl⟩
    · rintro (⟨s, rfl, _⟩ | ⟨_, rfl⟩)
      · cases hz
      · rfl
  · have hf : isZero x = false := by rw [Bool.eq_false_iff]; exact fun h => hz (isZero_iff.1 h)
    simp only [hwPackRaw, hf, Bool.false_eq_true, if_false]
    constructor
    · intro h
      split at h
      · rename_i s
        refine .inl ⟨s, rfl, ?_⟩
        rw [splitInts_groups]
        split at h
        · cases h
        · rename_i xs hx
          split at h
          · cases h
          · rename_i hb
            cases h
            rw [hx]
            exact hb
      · cases h
    · rintro (⟨s, rfl, h⟩ | ⟨h, _⟩)
      · rw [splitInts_groups] at h
        cases hx : splitInts ':' 16 s with
        | none => simp [hx] at h
        | some xs =>
          simp only [hx, Option.bind_some] at h
          simp only [hx, h]
      · exact absurd h hz

example := (C03_mac_values .none (.str "AA:0b:C:00:1:ff".toList) [0xaa, 0x0b, 0x0c, 0, 1, 0xff]).1 (by decide +kernel)

/-- C03 (broadcast).  A decoded address says it is the broadcast address exactly when its six bytes are `ff`; what holds no text never does. -/
theorem C03_mac_broadcast :
    (∀ dv buff off u, (hwAttr dv).unpack buff off = .ok (.hw u) →
      (hwIsBroadcast u = true ↔ slice buff off (off + 6) = [0xff, 0xff, 0xff, 0xff, 0xff, 0xff])) ∧
    ∀ v, (∀ s, v ≠ .str s) → hwIsBroadcast v = false := by
  constructor
  · intro dv buff off u hu
    by_cases h : off + 6 ≤ buff.length
    · have hl := slice_full_length h
      have h1 := ((C03_mac_unpack dv buff off).1 h).1
      rw [hu] at h1
      cases h1
      have hb : colonHex [0xff, 0xff, 0xff, 0xff, 0xff, 0xff] = "ff:ff:ff:ff:ff:ff".toList := by decide +kernel
      simp only [hwIsBroadcast, decide_eq_true_eq, ← hb]
      refine ⟨fun he => ?_, fun he => by rw [he]⟩
      have h2 := hwPackRaw_colonHex hl
      rw [he] at h2
      have h3 := hwPackRaw_colonHex (b := [0xff, 0xff, 0xff, 0xff, 0xff, 0xff]) rfl
      exact Except.ok.inj (h2.symm.trans h3)
    · rw [(C03_mac_unpack dv buff off).2 h] at hu
      cases hu
  · intro v hv
    cases v <;> first | rfl | exact absurd rfl (hv _)

example : hwAttr.unpack [1, 0xff, 0xff, 0xff, 0xff, 0xff, 0xff] 1 = .ok (.hw (.str "ff:ff:ff:ff:ff:ff".toList)) := by decide +kernel

/-- C03 (where the code departs).  The text the user gave is compared as it is: another spelling of the broadcast address packs to the same
six bytes but does not count as broadcast until it was sent and received. -/
theorem C03_mac_broadcast_counterexample :
    hwAttr.pack (.hw (.str "FF:FF:FF:FF:FF:FF".toList)) = .ok [0xff, 0xff, 0xff, 0xff, 0xff, 0xff] ∧
    hwIsBroadcast (.str "FF:FF:FF:FF:FF:FF".toList) = false := by decide +kernel

example : hwAttr.pack (.hw (.str "AA:0b:C:00:1:ff".toList)) = .ok [0xaa, 0x0b, 0x0c, 0, 1, 0xff] ∧
    colonHex [0xaa, 0x0b, 0x0c, 0, 1, 0xff] = "aa:0b:0c:00:01:ff".toList := by decide +kernel

/-! ## C04 `IPAddress` -/

/-- Dotted decimal. -/
def dotted (b : Bytes) : Str := joinC '.' (b.map fun x => (toString x.toNat).toList)

theorem dotted_eq {b : Bytes} {k : Nat} (h : b.length = k) :
    joinC '.' ((chunks 1 k b).map decStr) = dotted b := by
  subst h
  rw [chunks_one, List.map_map]
  unfold dotted
  congr 1
  refine List.map_congr_left fun x _ => ?_
  show Nat.toDigits 10 x.toNat = (String.ofList (Nat.toDigits 10 x.toNat)).toList
  simp

theorem ipPackRaw_length {v b} (h : ipPackRaw v = .ok b) : b.length = 4 := by
  unfold ipPackRaw at h
  split at h
  · split at h
    · cases h
    · split at h
      · cases h
      · next hs => cases h; simpa using structPack_length hs
  · cases h

theorem ipPackRaw_dotted {b : Bytes} (h : b.length = 4) : ipPackRaw (.str (dotted b)) = .ok b := by
  have h1 := groups_ip h
  have h2 := ipText_no_slash h
  rw [dotted_eq h] at h1 h2
  refine (ipPackRaw_read (v := .str _) ?_).1
  simp only [ipRead]
  rw [takeWhile_ne_self h2, h1]

/-- C04 (decoding). -/
theorem C04_ipv4_unpack (addr : Str) (m : Int) (buff : Bytes) (off : Nat) :
    (off + 4 ≤ buff.length →
      (ipAttr addr m).unpack buff off = .ok (.ip (.str (dotted (slice buff off (off + 4)))) m) ∧
      ∀ addr' m' m'', (ipAttr addr' m').pack (.ip (.str (dotted (slice buff off (off + 4)))) m'') =
        .ok (slice buff off (off + 4))) ∧
    (¬ off + 4 ≤ buff.length → (ipAttr addr m).unpack buff off = .error .unpack) := by
  constructor
  · intro h
    have hl := slice_full_length h
    refine ⟨?_, fun _ _ _ => ipPackRaw_dotted hl⟩
    have := ipUnpack_mid m (buff.take off) (buff.drop (off + 4)) hl
    rw [← split_window h, dotted_eq hl] at this
    have ht : (buff.take off).length = off := by rw [List.length_take]; omega
    rw [ht] at this
    exact this
  · intro h
    simp only [ipAttr, ipUnpack, structUnpack]
    rw [if_neg (by rw [slice_length]; omega)]

example := (C04_ipv4_unpack "0.0.0.0".toList 32 [7, 10, 0, 3, 255, 9] 1).1 (by decide)
example := (C04_ipv4_unpack "0.0.0.0".toList 32 [10, 0, 3, 255] 1).2 (by decide)

/-- C04 (encoding): with or without a `/prefix`. -/
theorem C04_ipv4_pack (addr : Str) (m : Int) (v : Val) (b : Bytes) (h : (ipAttr addr m).pack v = .ok b) :
    b.length = 4 ∧ ∀ addr' m' pre post,
      (ipAttr addr' m').unpack (pre ++ b ++ post) pre.length = .ok (.ip (.str (dotted b)) m') ∧
      (ipAttr addr' m').pack (.ip (.str (dotted b)) m') = .ok b := by
  have hl : b.length = 4 := by
    cases v <;> exact ipPackRaw_length (by simpa only [ipAttr, ipPack] using h)
  refine ⟨hl, fun addr' m' pre post => ⟨?_, ipPackRaw_dotted hl⟩⟩
  have := ipUnpack_mid m' pre post hl
  rw [dotted_eq hl] at this
  exact this

example := C04_ipv4_pack "0.0.0.0".toList 32 (.str "10.0.3.255/24".toList) [10, 0, 3, 255] (by decide +kernel)

/-- C04: the constructor splits off the prefix length and keeps the address text. -/
theorem C04_ipv4_prefix (a p : Str) (n : Int) (ha : '/' ∉ a) (hp : '/' ∉ p) (hn : pyInt 10 p = some n) :
    ipInit (a ++ '/' :: p) = .ok (.ip (.str a) n) ∧
    ∀ m m', (ipAttr a m).pack (.str (a ++ '/' :: p)) = (ipAttr a m).pack (.ip (.str a) m') := by
  have hs : splitC '/' (a ++ '/' :: p) = [a, p] := by rw [splitC_part_sep ha, splitC_part hp]
  constructor
  · simp [ipInit, splitMask, hs, pyIntOf, hn]
  · intro m m'
    simp only [ipAttr, ipPack, ipPackRaw]
    have e1 : beforeSlash (a ++ '/' :: p) = a := by simp [beforeSlash, hs]
    have e2 : beforeSlash a = a := by simp [beforeSlash, ha]
    rw [e1, e2]

example := C04_ipv4_prefix "10.0.0.1".toList "24".toList 24 (by decide) (by decide) (by decide +kernel)

private theorem splitC_length (c : Char) (s : Str) : (splitC c s).length = s.count c + 1 := by
  induction s with
  | nil => rfl
  | cons d r ih =>
    simp only [splitC]
    by_cases h : d = c
    · subst h; simp [ih]
    · rw [if_neg h, List.count_cons_of_ne h]
      cases hr : splitC c r with
      | nil => rw [hr] at ih; cases ih
      | cons x y => rw [hr] at ih; simpa using ih

/-- The text has no slash, or one with a number after it, or it is refused with ValueError. -/
private theorem splitMask_cases (dflt : Int) (s : Str) :
    ('/' ∉ s → splitMask dflt s .none = .ok (s, .int dflt)) ∧
    (∀ a p, '/' ∉ a → '/' ∉ p → splitMask dflt (a ++ '/' :: p) .none = .ok (a, .str p)) ∧
    (2 ≤ s.count '/' → splitMask dflt s .none = .error .value) := by
  refine ⟨?_, ?_, ?_⟩
  · intro h; simp [splitMask, h]
  · intro a p ha hp
    have hs : splitC '/' (a ++ '/' :: p) = [a, p] := by rw [splitC_part_sep ha, splitC_part hp]
    simp [splitMask, hs]
  · intro h
    have hm : '/' ∈ s := List.count_pos_iff.1 (by omega)
    have hl := splitC_length '/' s
    simp only [splitMask, if_pos hm]
    match hq : splitC '/' s with
    | [] | [_] => rfl
    | [_, _] => rw [hq] at hl; simp at hl; omega
    | _ :: _ :: _ :: _ => rfl

/-- C04: every text that the constructor does not accept is refused with ValueError: one whose prefix length is not a number, or with a
second slash.  Without a slash the prefix length is 32. -/
theorem C04_ipv4_text (s : Str) :
    ('/' ∉ s → ipInit s = .ok (.ip (.str s) 32)) ∧
    (∀ a p, s = a ++ '/' :: p → '/' ∉ a → '/' ∉ p → pyInt 10 p = none → ipInit s = .error .value) ∧
    (2 ≤ s.count '/' → ipInit s = .error .value) := by
  obtain ⟨h1, h2, h3⟩ := splitMask_cases 32 s
  refine ⟨?_, ?_, ?_⟩
  · intro h; simp only [ipInit, h1 h, pyIntOf]
  · rintro a p rfl ha hp hn; simp only [ipInit, (splitMask_cases 32 []).2.1 a p ha hp, pyIntOf, hn]
  · intro h; simp only [ipInit, h3 h]

example := (C04_ipv4_text "10.0.3.255".toList).1 (by decide)
example := (C04_ipv4_text "10.0.3.255/x".toList).2.1 "10.0.3.255".toList "x".toList rfl (by decide) (by decide) (by decide)
example := (C04_ipv4_text "10.0.3.255/24/".toList).2.2 (by decide)

example : ipInit "10.0.3.255/24".toList = .ok (.ip (.str "10.0.3.255".toList) 24) ∧
    ipAttr.pack (.str "10.0.3.255/24".toList) = .ok [10, 0, 3, 255] ∧
    dotted [10, 0, 3, 255] = "10.0.3.255".toList := by decide +kernel

/-! ## C05 `IPv6Address` -/

/-- C05: the same for IPv6, where the prefix length is 128 without a slash. -/
theorem C05_ipv6_text (s : Str) :
    ('/' ∉ s → ip6Init s = .ok (.ip6 (.str (ip6Expand s)) 128)) ∧
    (∀ a p n, s = a ++ '/' :: p → '/' ∉ a → '/' ∉ p → pyInt 10 p = some n → ip6Init s = .ok (.ip6 (.str (ip6Expand a)) n)) ∧
    (∀ a p, s = a ++ '/' :: p → '/' ∉ a → '/' ∉ p → pyInt 10 p = none → ip6Init s = .error .value) ∧
    (2 ≤ s.count '/' → ip6Init s = .error .value) := by
  obtain ⟨h1, h2, h3⟩ := splitMask_cases 128 s
  refine ⟨?_, ?_, ?_, ?_⟩
  · intro h; simp only [ip6Init, h1 h, pyIntOf]
  · rintro a p n rfl ha hp hn; simp only [ip6Init, (splitMask_cases 128 []).2.1 a p ha hp, pyIntOf, hn]
  · rintro a p rfl ha hp hn; simp only [ip6Init, (splitMask_cases 128 []).2.1 a p ha hp, pyIntOf, hn]
  · intro h; simp only [ip6Init, h3 h]

example := (C05_ipv6_text "fe80::1".toList).1 (by decide)
example := (C05_ipv6_text "fe80::1/64".toList).2.1 "fe80::1".toList "64".toList 64 rfl (by decide) (by decide) (by decide)
example := (C05_ipv6_text "fe80::1/".toList).2.2.1 "fe80::1".toList [] rfl (by decide) (by decide) (by decide)
example := (C05_ipv6_text "/fe80::1/64".toList).2.2.2 (by decide)

/-- Consecutive byte pairs as four-digit lower-case hexadecimal groups. -/
def hexPairs : Bytes → List Str
  | x :: y :: r => (hex2 x ++ hex2 y) :: hexPairs r
  | _ => []

def ip6Text (b : Bytes) : Str := joinC ':' (hexPairs b)

theorem hexFix_four (x y : UInt8) : hexFix 4 (beVal [x, y]) = hex2 x ++ hex2 y := by
  rw [← hex2_eq', ← hex2_eq']
  have hx := x.toNat_lt
  have hy := y.toNat_lt
  simp only [beVal, List.foldl_cons, List.foldl_nil, hexFix, List.nil_append, List.append_assoc, List.singleton_append,
    List.cons_append]
  generalize x.toNat = p at *
  generalize y.toNat = q at *
  have h1 : (0 * 256 + p) * 256 + q = p * 256 + q := by omega
  rw [h1]
  have a1 : (p * 256 + q) % 16 = q % 16 := by omega
  have a2 : (p * 256 + q) / 16 % 16 = q / 16 % 16 := by omega
  have a3 : (p * 256 + q) / 16 / 16 % 16 = p % 16 := by omega
  have a4 : (p * 256 + q) / 16 / 16 / 16 % 16 = p / 16 % 16 := by omega
  rw [a1, a2, a3, a4]

theorem chunks_two : ∀ (k : Nat) (b : Bytes), b.length = 2 * k → (chunks 2 k b).map (hexFix 4) = hexPairs b
  | 0, [], _ => rfl
  | k + 1, x :: y :: r, h => by
    have := chunks_two k r (by simp at h; omega)
    simp [chunks, hexPairs, hexFix_four, this]
  | 0, _ :: _, h => by simp at h
  | k + 1, [], h => by simp at h; 
  | k + 1, [_], h => by simp at h; omega

theorem ip6Text_eq {b : Bytes} (h : b.length = 16) :
    joinC ':' ((chunks 2 8 b).map (hexFix 4)) = ip6Text b := by
  rw [chunks_two 8 b (by omega)]; rfl

theorem ip6PackRaw_length {v b} (h : ip6PackRaw v = .ok b) : b.length = 16 := by
  unfold ip6PackRaw at h
  split at h
  · split at h
    · cases h
    · split at h
      · cases h
      · next hs => cases h; simpa using structPack_length hs
  · cases h

theorem ip6PackRaw_text {b : Bytes} (h : b.length = 16) : ip6PackRaw (.str (ip6Text b)) = .ok b := by
  have h1 := groups_ip6 h
  have h2 := ip6Text_no_slash (b := b)
  rw [ip6Text_eq h] at h1 h2
  refine (ip6PackRaw_read (v := .str _) ?_).1
  simp only [ip6Read]
  rw [takeWhile_ne_self h2, h1]

/-- C05 (decoding). -/
theorem C05_ipv6_unpack (buff : Bytes) (off : Nat) :
    (off + 16 ≤ buff.length →
      ip6Attr.unpack buff off = .ok (.ip6 (.str (ip6Text (slice buff off (off + 16)))) 128) ∧
      ∀ m, ip6Attr.pack (.ip6 (.str (ip6Text (slice buff off (off + 16)))) m) =
        .ok (slice buff off (off + 16))) ∧
    (¬ off + 16 ≤ buff.length → ip6Attr.unpack buff off = .error .unpack) := by
  constructor
  · intro h
    have hl := slice_full_length h
    refine ⟨?_, fun _ => ip6PackRaw_text hl⟩
    have := ip6Unpack_mid 128 (buff.take off) (buff.drop (off + 16)) hl
    rw [← split_window h, ip6Text_eq hl] at this
    have ht : (buff.take off).length = off := by rw [List.length_take]; omega
    rw [ht] at this
    exact this
  · intro h
    simp only [ip6Attr, ip6Unpack, structUnpack]
    rw [if_neg (by rw [slice_length]; omega)]

example := (C05_ipv6_unpack [7, 0xfe, 0x80, 0, 0, 0, 0, 0, 0, 0, 0, 0, 0, 0, 1, 0, 0xff, 9] 1).1 (by decide)
example := (C05_ipv6_unpack [0xfe, 0x80] 0).2 (by decide)

/-- C05 (encoding). -/
theorem C05_ipv6_pack (v : Val) (b : Bytes) (h : ip6Attr.pack v = .ok b) :
    b.length = 16 ∧ ∀ pre post,
      ip6Attr.unpack (pre ++ b ++ post) pre.length = .ok (.ip6 (.str (ip6Text b)) 128) ∧
      ip6Attr.pack (.ip6 (.str (ip6Text b)) 128) = .ok b := by
  have hl : b.length = 16 := by
    cases v <;> exact ip6PackRaw_length (by simpa only [ip6Attr, ip6Pack] using h)
  refine ⟨hl, fun pre post => ⟨?_, ip6PackRaw_text hl⟩⟩
  have := ip6Unpack_mid 128 pre post hl
  rw [ip6Text_eq hl] at this
  exact this

example := C05_ipv6_pack (.ip6 (.str "fe80:0:0:0:0:0:1:ff".toList) 128) [0xfe, 0x80, 0, 0, 0, 0, 0, 0, 0, 0, 0, 0, 0, 1, 0, 0xff]
  (by decide +kernel)

theorem joinC_cons_ne {sep : Char} {p : Str} {r : List Str} (h : r ≠ []) :
    joinC sep (p :: r) = p ++ sep :: joinC sep r := by
  cases r with
  | nil => exact absurd rfl h
  | cons q r => rfl

theorem joinC_append {sep : Char} {l r : List Str} (hl : l ≠ []) (hr : r ≠ []) :
    joinC sep (l ++ r) = joinC sep l ++ sep :: joinC sep r := by
  induction l with
  | nil => exact absurd rfl hl
  | cons p l ih =>
    cases l with
    | nil => simp [joinC, joinC_cons_ne hr]
    | cons q l => 
      rw [List.cons_append, joinC_cons_ne (by simp), ih (by simp), joinC_cons_ne (sep := sep) (p := p) (r := q :: l) (by simp)]
      simp

theorem hasColons_mid (a r : Str) : hasColons (a ++ ':' :: ':' :: r) = true := by
  induction a with
  | nil => rfl
  | cons c a ih =>
    rw [List.cons_append]
    unfold hasColons
    split
    · rfl
    · next h => cases h; exact ih
    · next h => cases h

/-- Splitting `left::right`. -/
theorem splitC_colons {l r : List Str} (hl : ∀ p ∈ l, ':' ∉ p) (hr : ∀ p ∈ r, ':' ∉ p) :
    splitC ':' (joinC ':' l ++ ':' :: ':' :: joinC ':' r) =
      (if l = [] then [[]] else l) ++ [[]] ++ (if r = [] then [[]] else r) := by
  have h1 : ':' :: joinC ':' r = joinC ':' ([] :: (if r = [] then [[]] else r)) := by
    by_cases h : r = []
    · subst h; rfl
    · rw [if_neg h, joinC_cons_ne h]; rfl
  have h2 : joinC ':' l = joinC ':' (if l = [] then [[]] else l) := by
    by_cases h : l = []
    · subst h; rfl
    · rw [if_neg h]
  rw [h1, h2, ← joinC_append (by split <;> simp_all) (by simp), splitC_joinC (by simp)]
  · simp
  · intro p hp
    simp only [List.mem_append, List.mem_cons] at hp
    rcases hp with hp | rfl | hp
    · split at hp
      · simp at hp; subst hp; simp
      · exact hl p hp
    · simp
    · split at hp
      · simp at hp; subst hp; simp
      · exact hr p hp

theorem indexEmpty_append {l r : List Str} (h : ∀ p ∈ l, p ≠ []) : indexEmpty (l ++ [] :: r) = l.length := by
  induction l with
  | nil => rfl
  | cons p l ih =>
    cases p with
    | nil => exact absurd rfl (h [] (by simp))
    | cons c p => simp [indexEmpty, ih (fun q hq => h q (by simp [hq]))]

theorem filter_nonempty {l : List Str} (h : ∀ p ∈ l, p ≠ []) : l.filter (fun x => x ≠ []) = l := by
  rw [List.filter_eq_self]; intro p hp; simpa using h p hp

/-- C05 (abbreviation).  `left::right` stands for the left groups, then as many zero groups as are missing to
eight, then the right groups: `::` may be at the start, at the end, in the middle or alone. -/
theorem C05_ipv6_abbreviation (l r : List Str)
    (hl : ∀ p ∈ l, p ≠ [] ∧ ':' ∉ p) (hr : ∀ p ∈ r, p ≠ [] ∧ ':' ∉ p) :
    ip6Expand (joinC ':' l ++ ':' :: ':' :: joinC ':' r) =
      joinC ':' (l ++ List.replicate (8 - (l.length + r.length)) ['0'] ++ r) := by
  have hsplit := splitC_colons (fun p hp => (hl p hp).2) (fun p hp => (hr p hp).2)
  unfold ip6Expand
  by_cases h0 : joinC ':' l ++ ':' :: ':' :: joinC ':' r = [':', ':']
  · rw [if_pos h0]
    rw [h0] at hsplit
    have e1 : l = [] := by
      cases l with
      | nil => rfl
      | cons p l' =>
        exfalso
        rw [if_neg (by simp)] at hsplit
        have hh : ([[], [], []] : List Str) = p :: (l' ++ ([[]] ++ if r = [] then [[]] else r)) := by
          rw [show splitC ':' [':', ':'] = [[], [], []] from rfl] at hsplit
          simpa using hsplit
        have := (List.cons.inj hh).1
        exact (hl p (by simp)).1 this.symm
    subst e1
    have e2 : r = [] := by
      cases r with
      | nil => rfl
      | cons p r' =>
        exfalso
        have hlen := congrArg List.length h0
        cases p with
        | nil => exact (hr [] (by simp)).1 rfl
        | cons c p =>
          cases r' <;> simp [joinC] at hlen
    subst e2
    rfl
  · rw [if_neg h0, if_pos (hasColons_mid _ _), hsplit]
    have hne : ∀ x : List Str, (if x = [] then ([[]] : List Str) else x).filter (fun x => x ≠ []) =
        x.filter (fun x => x ≠ []) := by
      intro x; split
      · next h => subst h; rfl
      · rfl
    have hfl := filter_nonempty (fun p hp => (hl p hp).1)
    have hfr := filter_nonempty (fun p hp => (hr p hp).1)
    have hfilter : ((if l = [] then [[]] else l) ++ [[]] ++ (if r = [] then [[]] else r)).filter
        (fun x => x ≠ []) = l ++ r := by
      rw [List.filter_append, List.filter_append, hne, hne, hfl, hfr]; simp
    have hidx : indexEmpty ((if l = [] then [[]] else l) ++ [[]] ++ (if r = [] then [[]] else r)) = l.length := by
      by_cases h : l = []
      · subst h; rfl
      · rw [if_neg h, List.append_assoc]
        exact indexEmpty_append (fun p hp => (hl p hp).1)
    simp only [hfilter, hidx]
    simp

example : ip6Expand "fe80::1:ff".toList = "fe80:0:0:0:0:0:1:ff".toList :=
  C05_ipv6_abbreviation ["fe80".toList] ["1".toList, "ff".toList] (by decide) (by decide)

/-- C05: the packed bytes of an abbreviated address.  `ls` and `rs` are the numbers of the left and right groups;
at most eight groups in total. -/
theorem C05_ipv6_abbreviation_bytes (l r : List Str) (ls rs : List Nat)
    (hl : ∀ p ∈ l, p ≠ [] ∧ ':' ∉ p ∧ '/' ∉ p) (hr : ∀ p ∈ r, p ≠ [] ∧ ':' ∉ p ∧ '/' ∉ p)
    (hls : optMap (pyInt 16) l = some (ls.map Int.ofNat)) (hrs : optMap (pyInt 16) r = some (rs.map Int.ofNat))
    (hlt : ∀ n ∈ ls ++ rs, n < 2 ^ 16) (hcnt : l.length + r.length ≤ 8) (m : Int) :
    ∃ v, ip6Init (joinC ':' l ++ ':' :: ':' :: joinC ':' r) (.int m) = .ok v ∧
      ip6Attr.pack v = .ok ((ls ++ List.replicate (8 - (l.length + r.length)) 0 ++ rs).flatMap (be 2)) := by
  have habb := C05_ipv6_abbreviation l r (fun p hp => ⟨(hl p hp).1, (hl p hp).2.1⟩)
    (fun p hp => ⟨(hr p hp).1, (hr p hp).2.1⟩)
  have hlen : ∀ (a : List Str) (b : List Int), optMap (pyInt 16) a = some b → b.length = a.length := by
    intro a
    induction a with
    | nil => intro b h; cases h; rfl
    | cons x a ih =>
      intro b h
      obtain ⟨y, s, _, h2, rfl⟩ := optMap_cons_inv h
      simp [ih s h2]
  have hll := hlen _ _ hls
  have hrl := hlen _ _ hrs
  simp at hll hrl
  have hns : ∀ a : List Str, (∀ p ∈ a, '/' ∉ p) → '/' ∉ joinC ':' a := by
    intro a h hm
    rcases mem_joinC hm with h1 | ⟨p, hp, hc⟩
    · exact absurd h1 (by decide)
    · exact h p hp hc
  have hslash : '/' ∉ joinC ':' l ++ ':' :: ':' :: joinC ':' r := by
    intro hm
    simp only [List.mem_append, List.mem_cons] at hm
    rcases hm with hm | hm | hm | hm
    · exact hns l (fun p hp => (hl p hp).2.2) hm
    · exact absurd hm (by decide)
    · exact absurd hm (by decide)
    · exact hns r (fun p hp => (hr p hp).2.2) hm
  refine ⟨.ip6 (.str (ip6Expand (joinC ':' l ++ ':' :: ':' :: joinC ':' r))) m, ?_, ?_⟩
  · simp only [ip6Init, splitMask, if_neg hslash, pyIntOf]
  · have happ : ∀ (a b : List Str) (x y : List Int), optMap (pyInt 16) a = some x → optMap (pyInt 16) b = some y →
        optMap (pyInt 16) (a ++ b) = some (x ++ y) := by
      intro a
      induction a with
      | nil => intro b x y h1 h2; cases h1; exact h2
      | cons c a ih =>
        intro b x y h1 h2
        obtain ⟨z, s, h3, h4, rfl⟩ := optMap_cons_inv h1
        simp [optMap, h3, ih b s y h4 h2]
    have hz : ∀ k, optMap (pyInt 16) (List.replicate k ['0']) = some (List.replicate k (0 : Int)) := by
      intro k
      induction k with
      | zero => rfl
      | succ k ih =>
        rw [List.replicate_succ, List.replicate_succ, optMap, show pyInt 16 ['0'] = some 0 from rfl, ih]
    generalize hk : 8 - (l.length + r.length) = k at habb
    have hall : ∀ p ∈ l ++ List.replicate k ['0'] ++ r, ':' ∉ p ∧ '/' ∉ p := by
      intro p hp
      simp only [List.mem_append, List.mem_replicate] at hp
      rcases hp with (hp | ⟨_, rfl⟩) | hp
      · exact (hl p hp).2
      · decide
      · exact (hr p hp).2
    have hne : l ++ List.replicate k ['0'] ++ r ≠ [] := by
      intro h
      have := congrArg List.length h
      simp only [List.length_append, List.length_replicate, List.length_nil] at this; omega
    have hval := happ _ _ _ _ (happ _ _ _ _ hls (hz k)) hrs
    have hbefore : beforeSlash (joinC ':' (l ++ List.replicate k ['0'] ++ r)) =
        joinC ':' (l ++ List.replicate k ['0'] ++ r) := by
      unfold beforeSlash
      rw [if_neg (hns _ (fun p hp => (hall p hp).2))]
    have hsp : structPack 2 8 (ls.map Int.ofNat ++ List.replicate k (0 : Int) ++ rs.map Int.ofNat) =
        some ((ls ++ List.replicate k 0 ++ rs).flatMap (be 2)) := by
      unfold structPack
      rw [if_pos]
      · congr 1
        have : ls.map Int.ofNat ++ List.replicate k (0 : Int) ++ rs.map Int.ofNat =
            (ls ++ List.replicate k 0 ++ rs).map Int.ofNat := by simp
        rw [this, List.flatMap_map]
        simp
      · refine ⟨by simp only [List.length_append, List.length_map, List.length_replicate]; omega, ?_⟩
        intro x hx
        simp only [List.mem_append, List.mem_map, List.mem_replicate] at hx
        rcases hx with (⟨n, hn, rfl⟩ | ⟨_, rfl⟩) | ⟨n, hn, rfl⟩
        · have := hlt n (by simp [hn]); exact ⟨by simp, by simp; omega⟩
        · exact ⟨by simp, by decide⟩
        · have := hlt n (by simp [hn]); exact ⟨by simp, by simp; omega⟩
    simp only [ip6Attr, ip6Pack, ip6PackRaw, habb, hbefore]
    simp only [splitInts, splitC_joinC hne (fun p hp => (hall p hp).1), hval, hsp]

example : ip6Init "fe80::1:ff".toList = .ok (.ip6 (.str "fe80:0:0:0:0:0:1:ff".toList) 128) ∧
    ip6Init "::".toList = .ok (.ip6 (.str "0:0:0:0:0:0:0:0".toList) 128) ∧
    ip6Init "::1/64".toList = .ok (.ip6 (.str "0:0:0:0:0:0:0:1".toList) 64) := by decide +kernel

/-! ## C06 `DPID` -/

theorem dpidPackRaw_length {v b} (h : dpidPackRaw v = .ok b) : b.length = 8 := by
  unfold dpidPackRaw at h
  split at h
  · split at h
    · cases h
    · split at h
      · cases h
      · next hs => cases h; simpa using structPack_length hs
  · cases h

theorem dpidPackRaw_colonHex {b : Bytes} (h : b.length = 8) : dpidPackRaw (.str (colonHex b)) = .ok b := by
  have := groups_dpid h
  rw [colonHex_eq h] at this
  exact (dpidPackRaw_read (v := .str _) this).1

theorem dpidLoop_short {buff : Bytes} : ∀ k off, ¬ off + k ≤ buff.length → 0 < k →
    dpidLoop buff k off = .error .struct := by
  intro k
  induction k with
  | zero => intro off _ h; omega
  | succ k ih =>
    intro off h _
    simp only [dpidLoop, structUnpack]
    by_cases h1 : off + 1 ≤ buff.length
    · rw [if_pos (by rw [slice_length]; omega)]
      simp only [chunks]
      rw [ih (off + 1) (by omega) (by omega)]
    · rw [if_neg (by rw [slice_length]; omega)]

/-- C06 (decoding).  With fewer than eight bytes the code raises `struct.error`, not `UnpackException`. -/
theorem C06_dpid_unpack (buff : Bytes) (off : Nat) :
    (off + 8 ≤ buff.length →
      dpidAttr.unpack buff off = .ok (.dpid (.str (colonHex (slice buff off (off + 8))))) ∧
      dpidAttr.pack (.dpid (.str (colonHex (slice buff off (off + 8))))) = .ok (slice buff off (off + 8))) ∧
    (¬ off + 8 ≤ buff.length → dpidAttr.unpack buff off = .error .struct) := by
  constructor
  · intro h
    have hl := slice_full_length h
    refine ⟨?_, dpidPackRaw_colonHex hl⟩
    have := dpidUnpack_mid (buff.take off) (buff.drop (off + 8)) hl
    rw [← split_window h, colonHex_eq hl] at this
    have ht : (buff.take off).length = off := by rw [List.length_take]; omega
    rw [ht] at this
    exact this
  · intro h
    simp only [dpidAttr, dpidUnpack, dpidLoop_short 8 off h (by omega)]

example := (C06_dpid_unpack [7, 0, 0, 0, 0, 0, 0, 1, 0xab, 9] 1).1 (by decide)
example := (C06_dpid_unpack [0, 0, 0, 0, 0, 0, 1] 0).2 (by decide)

/-- C06 (encoding). -/
theorem C06_dpid_pack (v : Val) (b : Bytes) (h : dpidAttr.pack v = .ok b) :
    b.length = 8 ∧ ∀ pre post,
      dpidAttr.unpack (pre ++ b ++ post) pre.length = .ok (.dpid (.str (colonHex b))) ∧
      dpidAttr.pack (.dpid (.str (colonHex b))) = .ok b := by
  have hl : b.length = 8 := by
    cases v <;> exact dpidPackRaw_length (by simpa only [dpidAttr, dpidPack] using h)
  refine ⟨hl, fun pre post => ⟨?_, dpidPackRaw_colonHex hl⟩⟩
  have := dpidUnpack_mid pre post hl
  rw [colonHex_eq hl] at this
  exact this

example : dpidAttr.pack (.str "00:00:00:00:0:0:0:aB".toList) = .ok [0, 0, 0, 0, 0, 0, 0, 0xab] := by decide +kernel

/-! ## C07 `Char` -/

/-- C07 (encoding).  Any ASCII string gives `n` bytes: its first `n - 1` characters, then NULs (at least one). -/
theorem C07_char_pack (n : Nat) (hn : 0 < n) (s : Str) (hs : ∀ c ∈ s, c.toNat < 128) :
    ∃ b, (charAttr n).pack (.str s) = .ok b ∧ b.length = n ∧ b.getLast? = some 0 ∧
      (∀ i, i < n → b[i]? = some (if i < n - 1 then (s[i]?.map fun c => UInt8.ofNat c.toNat).getD 0 else 0)) := by
  refine ⟨_, charPackRaw_eq hn hs, by simp; omega, ?_, ?_⟩
  · rw [List.getLast?_eq_getElem?]
    rw [List.getElem?_append_right (by simp; omega), List.getElem?_replicate]
    simp; omega
  · intro i hi
    by_cases h1 : i < n - 1
    · rw [if_pos h1]
      by_cases h2 : i < s.length
      · rw [List.getElem?_append_left (by simp; omega)]
        simp [h2, h1, asciiByte]
      · rw [List.getElem?_append_right (by simp; omega)]
        have : s[i]? = none := by simp; omega
        rw [this, List.getElem?_replicate, if_pos (by simp; omega)]; simp
    · rw [if_neg h1, List.getElem?_append_right (by simp; omega), List.getElem?_replicate, if_pos (by simp; omega)]

example := C07_char_pack 4 (by decide) "eth0".toList (by decide)

/-- C07: a string with a non-ASCII character is refused (`UnicodeEncodeError`, a `ValueError`). -/
theorem C07_char_refuse (n : Nat) (s : Str) (hs : ∃ c ∈ s, ¬ c.toNat < 128) :
    (charAttr n).pack (.str s) = .error .value := by
  simp only [charAttr, charPack, charPackRaw, asciiEncode]
  rw [if_neg]
  intro h; obtain ⟨c, hc, hc'⟩ := hs; exact hc' (h c hc)

example : (charAttr 4).pack (.str "é0".toList) = .error .value := C07_char_refuse 4 "é0".toList ⟨'é', by decide, by decide⟩

/-- `s` without its trailing NULs: the shortest prefix after which there are only NULs. -/
def IsStripped (s t : Str) : Prop :=
  (∃ k, s = t ++ List.replicate k (Char.ofNat 0)) ∧ t.getLast? ≠ some (Char.ofNat 0)

theorem rstripNul_isStripped (s : Str) : IsStripped s (rstripNul s) := by
  refine ⟨rstripNul_split s, ?_⟩
  unfold rstripNul
  rw [List.getLast?_reverse]
  generalize s.reverse = r
  induction r with
  | nil => simp
  | cons c r ih =>
    by_cases hc : c = Char.ofNat 0
    · simpa [hc] using ih
    · simp [hc]

/-- C07 (decoding what was encoded).  The decoded object holds the kept prefix without its trailing NULs. -/
theorem C07_char_round_trip (n : Nat) (hn : 0 < n) (s : Str) (hs : ∀ c ∈ s, c.toNat < 128)
    (b pre post : Bytes) (h : (charAttr n).pack (.str s) = .ok b) :
    ∃ t, (charAttr n).unpack (pre ++ b ++ post) pre.length = .ok (.chr (.str t) n) ∧
      IsStripped (s.take (n - 1)) t := by
  have hp := charPack_enc hn hs
  have : b = (clip n s).map asciiByte ++ List.replicate (n - (clip n s).length) 0 := by
    have h' : charPackRaw n (.str s) = .ok b := h
    rw [hp] at h'; cases h'; rfl
  obtain ⟨h1, h2, h3⟩ := clip_props (s := s) hn
  have henc := text_enc_eq.mpr ⟨h1, fun c hc => hs c (h3 c hc), h2, this⟩
  have hb : b ≠ [] := by
    intro hb; rw [hb] at this
    have := congrArg List.length this
    simp at this; omega
  obtain ⟨u, hu, hd, _⟩ := (dec_text hn).unpack _ b pre post henc trivial (by simp) (by simp [hb])
  refine ⟨clip n s, ?_, rstripNul_isStripped _⟩
  obtain ⟨t, ht⟩ : ∃ t, u = .chr (.str t) n ∧ rstripNul t = t ∧ t.length < n := by
    simp only [charAttr, charUnpack] at hu
    rw [slice_mid' _ _ _ (by rw [this]; simp; omega), if_pos (by rw [this]; simp; omega)] at hu
    split at hu
    · cases hu
    · next s' hs' =>
      cases hu
      refine ⟨_, rfl, rstripNul_idem _, ?_⟩
      have e : b = ((clip n s) ++ List.replicate (n - (clip n s).length) (Char.ofNat 0)).map asciiByte := by
        rw [this]; simp [asciiByte_nul]
      have hall : ∀ c ∈ (clip n s) ++ List.replicate (n - (clip n s).length) (Char.ofNat 0), c.toNat < 128 := by
        intro c hc
        rcases List.mem_append.mp hc with hc | hc
        · exact hs c (h3 c hc)
        · rw [(List.mem_replicate.mp hc).2]; decide
      rw [e, asciiDecode_encode _ hall] at hs'
      cases hs'
      rw [rstripNul_append_nuls, h2]; exact h1
  obtain ⟨rfl, ht1, ht2⟩ := ht
  simp only [Spec.text] at hd
  split at hd
  · have : clip n t = t := by unfold clip; rw [List.take_of_length_le (by omega), ht1]
    rw [hu]; simp_all
  · cases hd

example := C07_char_round_trip 4 (by decide) "eth0".toList (by decide) [101, 116, 104, 0] [1] [2, 3] (by decide +kernel)

/-- C07: in particular a string that fits and does not end in NUL comes back unchanged. -/
theorem C07_char_unchanged (n : Nat) (s : Str) (hs : ∀ c ∈ s, c.toNat < 128)
    (hl : s.length < n) (hz : s.getLast? ≠ some (Char.ofNat 0)) (pre post : Bytes) :
    ∃ b, (charAttr n).pack (.str s) = .ok b ∧
      (charAttr n).unpack (pre ++ b ++ post) pre.length = .ok (.chr (.str s) n) := by
  obtain ⟨b, hb, _⟩ := C07_char_pack n (by omega) s hs
  obtain ⟨t, ht, ⟨k, hk⟩, htl⟩ := C07_char_round_trip n (by omega) s hs b pre post hb
  rw [List.take_of_length_le (by omega)] at hk
  refine ⟨b, hb, ?_⟩
  have : k = 0 := by
    cases k with
    | zero => rfl
    | succ k =>
      exfalso; apply hz
      rw [hk, List.getLast?_append, List.getLast?_replicate]; simp
  subst this
  simp at hk; subst hk; exact ht

example := C07_char_unchanged 16 "eth0".toList (by decide) (by decide) (by decide) [1] [2, 3]

/-- C07 (decoding arbitrary input): too short a buffer raises a plain `Exception`, non-ASCII bytes a
`ValueError`; otherwise the text without trailing NULs. -/
theorem C07_char_unpack (n : Nat) (buff : Bytes) (off : Nat) :
    (charAttr n).unpack buff off =
      if off + n ≤ buff.length ∨ n = 0 then
        if ∀ x ∈ slice buff off (off + n), x.toNat < 128 then
          .ok (.chr (.str (rstripNul ((slice buff off (off + n)).map fun x => Char.ofNat x.toNat))) n)
        else .error .value
      else .error .plain := by
  simp only [charAttr, charUnpack, asciiDecode]
  by_cases h : off + n ≤ buff.length ∨ n = 0
  · rw [if_pos h, if_pos (by rw [slice_length]; omega)]
    split <;> simp_all
  · rw [if_neg h, if_neg (by rw [slice_length]; omega)]

example : (charAttr 4).pack (.str "eth0".toList) = .ok [101, 116, 104, 0] ∧
    (charAttr 4).unpack [9, 101, 116, 0, 0] 1 = .ok (.chr (.str "et".toList) 4) ∧
    (charAttr 4).unpack [1, 2] 0 = .error .plain := by decide +kernel

end Pyof.Props
