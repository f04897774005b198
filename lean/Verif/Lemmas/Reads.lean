import Verif.Props.Basic
import Verif.Model.Struct
/-!
# Decoding attribute by attribute at given places
-/
namespace Pyof.Props
open Pyof

/-- The attribute class `c` decodes `u`, of `n` bytes, at an offset, and packs it to `out`. -/
def Reads (buff : Bytes) (off : Nat) (c : Attr) (u : Val) (n : Nat) (out : Bytes) : Prop :=
  unpackAttr c buff off = .ok (u, n) ∧ c.pack u = .ok out

/-- One more attribute in front. -/
theorem reads_cons {buff : Bytes} {off n e name c u out fs us outs} (h : Reads buff off c u n out)
    (ht : unpackAttrs fs buff (off + n) = .ok (us, e) ∧ packAttrs fs us = .ok outs) :
    unpackAttrs ((name, c) :: fs) buff off = .ok (u :: us, e) ∧ packAttrs ((name, c) :: fs) (u :: us) = .ok (out ++ outs) := by
  simp only [unpackAttrs, packAttrs, h.1, h.2, ht.1, ht.2, and_self]

theorem reads_num {buff : Bytes} {off w : Nat} (dflt : Val) (h : off + w ≤ buff.length) (hne : buff ≠ []) :
    Reads buff off (ubint w .none dflt) (.ub w (.int (beVal (slice buff off (off + w))))) w (slice buff off (off + w)) := by
  have hu : (ubint w .none dflt).unpack buff off = .ok (.ub w (.int (beVal (slice buff off (off + w))))) := by
    simp only [ubint, ubUnpack, unpackFrom, if_pos h, refApply]
  refine ⟨?_, ((C02_ubint_unpack w .none dflt buff off).1 _ hu).2.2.2 _ _⟩
  simp only [unpackAttr, if_neg hne, hu]; rfl

theorem reads_mask {buff : Bytes} {off w : Nat} (dflt : Val) (h : off + w ≤ buff.length) (hne : buff ≠ []) :
    Reads buff off (ubint w .mask dflt) (.ub w (.mask (beVal (slice buff off (off + w))))) w (slice buff off (off + w)) := by
  have hu : (ubint w .mask dflt).unpack buff off = .ok (.ub w (.mask (beVal (slice buff off (off + w))))) := by
    simp only [ubint, ubUnpack, unpackFrom, if_pos h, refApply]
  refine ⟨?_, ((C02_ubint_unpack w .mask dflt buff off).1 _ hu).2.2.2 _ _⟩
  simp only [unpackAttr, if_neg hne, hu]; rfl

theorem reads_hw {buff : Bytes} {off : Nat} (h : off + 6 ≤ buff.length) (hne : buff ≠ []) :
    Reads buff off hwAttr (.hw (.str (colonHex (slice buff off (off + 6))))) 6 (slice buff off (off + 6)) := by
  obtain ⟨hu, hp⟩ := (C03_mac_unpack (.str hwZero) buff off).1 h
  refine ⟨?_, hp _⟩
  simp only [unpackAttr, if_neg hne, hu]; rfl

theorem reads_ip {buff : Bytes} {off : Nat} (a m) (h : off + 4 ≤ buff.length) (hne : buff ≠ []) :
    Reads buff off (ipAttr a m) (.ip (.str (dotted (slice buff off (off + 4)))) m) 4 (slice buff off (off + 4)) := by
  obtain ⟨hu, hp⟩ := (C04_ipv4_unpack a m buff off).1 h
  refine ⟨?_, hp _ _ _⟩
  simp only [unpackAttr, if_neg hne, hu]; rfl

theorem reads_pad {buff : Bytes} {off : Nat} (n) (hne : buff ≠ []) :
    Reads buff off (padAttr n) (.pad n) n (List.replicate n 0) := by
  refine ⟨?_, rfl⟩
  simp only [unpackAttr, if_neg hne]; rfl

theorem slice_join {b : Bytes} {i j k : Nat} (h1 : i ≤ j) (h2 : j ≤ k) : slice b i j ++ slice b j k = slice b i k := by
  simp only [slice, List.drop_take]
  obtain ⟨p, rfl⟩ : ∃ p, j = i + p := ⟨j - i, by omega⟩
  obtain ⟨q, rfl⟩ : ∃ q, k = i + p + q := ⟨k - (i + p), by omega⟩
  rw [show i + p - i = p by omega, show i + p + q - (i + p) = q by omega, show i + p + q - i = p + q by omega]
  rw [List.take_add, List.drop_drop]

/-! ## Decoding packed attributes in any context -/

/-- `c` decodes the bytes `b`, wherever they are, to `u` with size `b.length`. -/
def At (c : Attr) (b : Bytes) (u : Val) : Prop :=
  ∀ pre post, pre ++ b ++ post ≠ [] → unpackAttr c (pre ++ b ++ post) pre.length = .ok (u, b.length)

/-- The attributes `fs` decode the bytes `b` to `us`; with `closed` nothing may follow. -/
def FieldsAt (fs : Fields) (b : Bytes) (us : List Val) (closed : Bool) : Prop :=
  ∀ pre post, (closed = true → post = []) → pre ++ b ++ post ≠ [] →
    unpackAttrs fs (pre ++ b ++ post) pre.length = .ok (us, pre.length + b.length)

theorem fieldsAt_nil {closed} : FieldsAt [] [] [] closed := by
  intro pre post _ _; simp [unpackAttrs]

theorem fieldsAt_cons {name c b u fs bs us closed} (h : At c b u) (ht : FieldsAt fs bs us closed) :
    FieldsAt ((name, c) :: fs) (b ++ bs) (u :: us) closed := by
  intro pre post hc hne
  have e : pre ++ (b ++ bs) ++ post = pre ++ b ++ (bs ++ post) := by simp only [List.append_assoc]
  have e2 : pre ++ (b ++ bs) ++ post = (pre ++ b) ++ bs ++ post := by simp only [List.append_assoc]
  have h1 := h pre (bs ++ post) (by rw [← e]; exact hne)
  have h2 := ht (pre ++ b) post hc (by rw [← e2]; exact hne)
  rw [← e] at h1
  rw [← e2, List.length_append] at h2
  simp only [unpackAttrs, h1, h2, List.length_append, Nat.add_assoc]

theorem fieldsAt_rest {name d} (b : Bytes) : FieldsAt [(name, binAttr d)] b [.bin (.bytes b)] true := by
  intro pre post hc hne
  cases hc rfl
  have : unpackAttr (binAttr d) (pre ++ b ++ []) pre.length = .ok (.bin (.bytes b), b.length) := by
    rw [unpackAttr, if_neg hne]
    simp only [binAttr, List.append_nil, List.drop_left, binSizeRaw, binPackRaw]
  simp only [unpackAttrs, this]

theorem fieldsAt_rest_two {name name' d d'} (b : Bytes) :
    FieldsAt [(name, binAttr d), (name', binAttr d')] b [.bin (.bytes b), .bin (.bytes [])] true := by
  intro pre post hc hne
  cases hc rfl
  have h1 : unpackAttr (binAttr d) (pre ++ b ++ []) pre.length = .ok (.bin (.bytes b), b.length) := by
    rw [unpackAttr, if_neg hne]
    simp only [binAttr, List.append_nil, List.drop_left, binSizeRaw, binPackRaw]
  have h2 : unpackAttr (binAttr d') (pre ++ b ++ []) (pre.length + b.length) = .ok (.bin (.bytes []), 0) := by
    simp only [unpackAttr, if_neg hne, binAttr, binSizeRaw, binPackRaw]
    rw [List.drop_eq_nil_of_le (by simp)]; rfl
  simp only [unpackAttrs, h1, h2, Nat.add_zero]

theorem at_num {w n : Nat} (dflt : Val) (h : n < 256 ^ w) : At (ubint w .none dflt) (be w n) (.ub w (.int n)) := by
  intro pre post hne
  simp only [unpackAttr, if_neg hne, ubint, ubUnpack, unpackFrom_be pre post h, refApply, be_length]

theorem at_hw {b : Bytes} (dflt : Val) (h : b.length = 6) : At (hwAttr dflt) b (.hw (.str (colonHex b))) := by
  intro pre post hne
  have := hwUnpack_mid pre post h
  rw [colonHex_eq h] at this
  simp only [unpackAttr, if_neg hne, hwAttr, this, h]

theorem at_ip {b : Bytes} (a m) (h : b.length = 4) : At (ipAttr a m) b (.ip (.str (dotted b)) m) := by
  intro pre post hne
  have := ipUnpack_mid m pre post h
  rw [dotted_eq h] at this
  simp only [unpackAttr, if_neg hne, ipAttr, this, h]

theorem at_ip6 {b : Bytes} (h : b.length = 16) : At ip6Attr b (.ip6 (.str (ip6Text b)) 128) := by
  intro pre post hne
  have := ip6Unpack_mid 128 pre post h
  rw [ip6Text_eq h] at this
  simp only [unpackAttr, if_neg hne, ip6Attr, this, h]

/-! ## Attributes of fixed size on buffers that are too short -/

/-- `c` decodes any `n` bytes, and raises `UnpackException` when there are fewer. -/
def Fixed (c : Attr) (n : Nat) : Prop :=
  ∀ buff off, buff ≠ [] → (off + n ≤ buff.length → ∃ u, unpackAttr c buff off = .ok (u, n)) ∧
    (¬ off + n ≤ buff.length → unpackAttr c buff off = .error .unpack)

theorem fixed_num {w} (dflt : Val) : Fixed (ubint w .none dflt) w := by
  intro buff off hne
  constructor
  · intro h; exact ⟨_, (reads_num dflt h hne).1⟩
  · intro h; simp only [unpackAttr, if_neg hne, ubint, ubUnpack, unpackFrom, if_neg h]

theorem fixed_hw (dflt : Val) : Fixed (hwAttr dflt) 6 := by
  intro buff off hne
  obtain ⟨a, b⟩ := C03_mac_unpack dflt buff off
  exact ⟨fun h => ⟨.hw (.str (colonHex (slice buff off (off + 6)))), by simp only [unpackAttr, if_neg hne, (a h).1]; rfl⟩,
    fun h => by simp only [unpackAttr, if_neg hne, b h]⟩

theorem fixed_ip (a m) : Fixed (ipAttr a m) 4 := by
  intro buff off hne
  obtain ⟨p, q⟩ := C04_ipv4_unpack a m buff off
  exact ⟨fun h => ⟨.ip (.str (dotted (slice buff off (off + 4)))) m, by simp only [unpackAttr, if_neg hne, (p h).1]; rfl⟩,
    fun h => by simp only [unpackAttr, if_neg hne, q h]⟩

theorem fixed_ip6 : Fixed ip6Attr 16 := by
  intro buff off hne
  obtain ⟨p, q⟩ := C05_ipv6_unpack buff off
  exact ⟨fun h => ⟨.ip6 (.str (ip6Text (slice buff off (off + 16)))) 128, by simp only [unpackAttr, if_neg hne, (p h).1]; rfl⟩,
    fun h => by simp only [unpackAttr, if_neg hne, q h]⟩

/-- Attributes of fixed sizes, `n` bytes in all (the last one is not empty). -/
inductive AllFixed : Fields → Nat → Prop
  | one {name c n} : Fixed c (n + 1) → AllFixed [(name, c)] (n + 1)
  | cons {name c n fs m} : Fixed c n → AllFixed fs m → AllFixed ((name, c) :: fs) (n + m)

/-- When the bytes are too few for the attributes of fixed size, decoding them and any that follow raises `UnpackException`. -/
theorem AllFixed.short {fs n} (h : AllFixed fs n) (gs : Fields) : ∀ {buff : Bytes} {off : Nat}, buff ≠ [] → ¬ off + n ≤ buff.length →
    unpackAttrs (fs ++ gs) buff off = .error .unpack := by
  induction h with
  | one h =>
    intro buff off hne hs
    simp only [List.cons_append, List.nil_append, unpackAttrs, (h buff off hne).2 hs]
  | @cons name c n fs m h ht ih =>
    intro buff off hne hs
    simp only [List.cons_append, unpackAttrs]
    by_cases h1 : off + n ≤ buff.length
    · obtain ⟨u, hu⟩ := (h buff off hne).1 h1
      rw [hu]
      simp only [ih hne (show ¬ off + n + m ≤ buff.length by omega)]
    · rw [(h buff off hne).2 h1]

/-! ## Packing attribute by attribute -/

theorem num_pack {w : Nat} {v : Val} {b : Bytes} (h : (ubint w).pack v = .ok b) :
    ∃ n : Nat, number v = some (n : Int) ∧ n < 256 ^ w ∧ b = be w n := by
  obtain ⟨n, h1, h2, h3, h4⟩ := ((C01_ubint_pack w .none .none v).1 b).1 h
  refine ⟨n, ?_, ?_, ?_⟩
  · cases v <;> first | exact h1 | (simp [number] at h1)
  · rwa [Nat.pow_mul] at h2
  · rw [← h4, be_beVal' h3]

theorem packAttrs_cons {name c fs v vs x y} (h : c.pack v = .ok x) (ht : packAttrs fs vs = .ok y) :
    packAttrs ((name, c) :: fs) (v :: vs) = .ok (x ++ y) := by
  simp only [packAttrs, h, ht]

theorem packAttrs_cons_inv {name c fs v vs b} (h : packAttrs ((name, c) :: fs) (v :: vs) = .ok b) :
    ∃ x y, c.pack v = .ok x ∧ packAttrs fs vs = .ok y ∧ b = x ++ y := by
  simp only [packAttrs] at h
  cases h1 : c.pack v with
  | error e => simp [h1] at h
  | ok x =>
    cases h2 : packAttrs fs vs with
    | error e => simp [h1, h2] at h
    | ok y => simp [h1, h2] at h; exact ⟨x, y, rfl, rfl, h.symm⟩

end Pyof.Props
