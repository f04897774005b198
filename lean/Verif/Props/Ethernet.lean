import Verif.Model.Network
import Verif.Lemmas.Reads
import Verif.Props.Compare
/-!
# C35 VLAN tags, C36 Ethernet frames
-/
namespace Pyof.Props
open Pyof Net

/-! ## C35 -/

/-- A part of the tag: absent (0), or a number in any form. -/
def tagPart : Val → Option Int
  | .none => some 0
  | v => operand v

/-- The 16-bit tag control information: three bits, one bit, twelve bits. -/
def tagControl (pcp cfi vid : Nat) : Nat := pcp * 8192 + cfi * 4096 + vid

private theorem tagPart_operand {v : Val} {n : Nat} (h : tagPart v = some (n : Int)) : operand (orZero v) = some (n : Int) := by
  cases v <;> exact h

private theorem or_shift (a b k : Nat) (h : b < 2 ^ k) : a * 2 ^ k ||| b = a * 2 ^ k + b := by
  rw [← Nat.shiftLeft_eq, Nat.shiftLeft_add_eq_or_of_lt h]

theorem tci_eq {pcp cfi vid : Val} {p c v : Nat} (hp : tagPart pcp = some (p : Int)) (hc : tagPart cfi = some (c : Int))
    (hv : tagPart vid = some (v : Int)) (lc : c < 2) (lv : v < 4096) :
    tci (orZero pcp) (orZero cfi) (orZero vid) = .ok (tagControl p c v : Nat) := by
  have h13 : operand (.int 13) = some ((13 : Nat) : Int) := rfl
  have h12 : operand (.int 12) = some ((12 : Nat) : Int) := rfl
  have s1 := (shift_nat (tagPart_operand hp) h13 rfl).1
  have s2 := (shift_nat (tagPart_operand hc) h12 rfl).1
  have a1 := or_nat (a := .int (p * 2 ^ 13 : Nat)) (b := .int (c * 2 ^ 12 : Nat)) (i := p * 2 ^ 13) (j := c * 2 ^ 12) rfl rfl
  have a2 := or_nat (a := .int (p * 2 ^ 13 ||| c * 2 ^ 12 : Nat)) (i := p * 2 ^ 13 ||| c * 2 ^ 12) rfl (tagPart_operand hv)
  have e : (p * 2 ^ 13 ||| c * 2 ^ 12) ||| v = tagControl p c v := by
    rw [or_shift p (c * 2 ^ 12) 13 (by omega), show p * 2 ^ 13 + c * 2 ^ 12 = (p * 2 + c) * 2 ^ 12 by omega, or_shift _ _ 12 lv, tagControl]
    omega
  rw [e] at a2
  simp only [tci, s1, s2, a1, a2]

private theorem operand_pack {w n : Nat} {v : Val} (dflt : Val) (hn : operand v = some (n : Int)) (h : n < 256 ^ w) :
    (ubint w .none dflt).pack v = .ok (be w n) := by
  cases v with
  | int i => cases hn; exact packNum_fit h
  | enum i => cases hn; exact packNum_fit h
  | ub w x => cases x <;> first | (cases hn; exact packNum_fit h) | cases hn
  | _ => cases hn

/-- C35.  With `pcp < 8`, `cfi < 2`, `vid < 4096` (given as ints, enums, `UBInt`s or absent, but not all absent) a tag packs to its TPID
and the 16 bits `pcp:3 cfi:1 vid:12`.  The default TPID is 0x8100. -/
theorem C35_pack {tpid pcp cfi vid : Val} {t p c v : Nat} (ht : operand tpid = some (t : Int)) (hp : tagPart pcp = some (p : Int))
    (hc : tagPart cfi = some (c : Int)) (hv : tagPart vid = some (v : Int)) (lt : t < 65536) (lp : p < 8) (lc : c < 2) (lv : v < 4096)
    (hsome : ¬ (pcp = .none ∧ cfi = .none ∧ vid = .none)) :
    vlanPack tpid pcp cfi vid = .ok (be 2 t ++ be 2 (tagControl p c v)) := by
  have hr : vlanPack tpid pcp cfi vid = packAttrs vlanFields [tpid, .int (tagControl p c v : Nat)] := by
    unfold vlanPack
    split
    · exact absurd ⟨rfl, rfl, rfl⟩ hsome
    · rw [tci_eq hp hc hv lc lv]
  rw [hr]
  have q : (256 : Nat) ^ 2 = 65536 := by decide
  have l2 : tagControl p c v < 256 ^ 2 := by rw [q, tagControl]; omega
  have lt : t < 256 ^ 2 := by rw [q]; exact lt
  have e1 := operand_pack (.enum 0x8100) ht lt
  have e2 := operand_pack .none (v := .int (tagControl p c v : Nat)) rfl l2
  have := packAttrs_cons (name := "tpid") e1 (packAttrs_cons (name := "_tci") e2 (rfl : packAttrs [] [] = .ok []))
  rwa [List.append_nil] at this

example := C35_pack (tpid := .enum 0x8100) (pcp := .int 5) (cfi := .none) (vid := .ub 2 (.int 100)) (t := 0x8100) (p := 5) (c := 0) (v := 100)
  rfl rfl rfl rfl (by decide) (by decide) (by decide) (by decide) (by decide)

/-- C35.  A tag with none of the three parts packs to nothing. -/
theorem C35_pack_none (tpid : Val) : vlanPack tpid .none .none .none = .ok [] := rfl

/-- The decoded tag. -/
def tagValue (t p c v : Nat) : Val :=
  .obj "net.VLAN" [.int t, .ub 2 (.int (tagControl p c v)), .int p, .int c, .int v]

private theorem vlan_fields {buff : Bytes} {off : Nat} (h : off + 4 ≤ buff.length) :
    unpackAttrs vlanFields buff off = .ok ([.ub 2 (.int (beVal (slice buff off (off + 2)))),
      .ub 2 (.int (beVal (slice buff (off + 2) (off + 4))))], off + 4) := by
  have hne : buff ≠ [] := by intro e; subst e; simp at h
  have key : unpackAttrs vlanFields buff off = .ok (_, _) ∧ packAttrs vlanFields _ = .ok _ :=
    reads_cons (reads_num _ (by omega) hne) <| reads_cons (reads_num _ (by omega) hne) ⟨rfl, rfl⟩
  exact key.1

/-- C35 (decoding any buffer).  Four bytes at the offset: the TPIDs 0x8100 and 0x88a8 give the three parts of the following 16 bits, TPID 0
gives a tag without parts, any other TPID raises `UnpackException`.  Fewer than four bytes raise `UnpackException`; only the empty buffer
raises something else. -/
theorem C35_decode (buff : Bytes) (off : Nat) :
    (∀ t x : Nat, off + 4 ≤ buff.length → slice buff off (off + 4) = be 2 t ++ be 2 x → t < 65536 → x < 65536 →
      (t = 0x8100 ∨ t = 0x88a8 → vlanUnpack buff off = .ok (tagValue t (x / 8192) (x / 4096 % 2) (x % 4096))) ∧
      (t = 0 → vlanUnpack buff off = .ok (.obj "net.VLAN" [.enum 0x8100, .ub 2 (.int x), .none, .none, .none])) ∧
      (t ≠ 0x8100 → t ≠ 0x88a8 → t ≠ 0 → vlanUnpack buff off = .error .unpack)) ∧
    (¬ off + 4 ≤ buff.length → buff ≠ [] → vlanUnpack buff off = .error .unpack) ∧
    (buff = [] → vlanUnpack buff off = .error .type) := by
  refine ⟨?_, ?_, ?_⟩
  · intro t x h hs lt lx
    have q : (256 : Nat) ^ 2 = 65536 := by decide
    have e : slice buff off (off + 4) = slice buff off (off + 2) ++ slice buff (off + 2) (off + 4) := by rw [slice_join] <;> omega
    have l1 : (slice buff off (off + 2)).length = 2 := slice_full_length (by omega)
    rw [e] at hs
    obtain ⟨h1, h2⟩ := List.append_inj hs (by rw [l1]; simp)
    have v1 : beVal (slice buff off (off + 2)) = t := by rw [h1, beVal_be_of_lt (by rw [q]; exact lt)]
    have v2 : beVal (slice buff (off + 2) (off + 4)) = x := by rw [h2, beVal_be_of_lt (by rw [q]; exact lx)]
    have hf := vlan_fields h
    rw [v1, v2] at hf
    have g1 : gval (.ub 2 (.int (t : Int))) = .int t := rfl
    have g2 : gval (.ub 2 (.int (x : Int))) = .int x := rfl
    have tc : tagControl (x / 8192) (x / 4096 % 2) (x % 4096) = x := by simp only [tagControl]; omega
    refine ⟨?_, ?_, ?_⟩
    · intro ht
      have t0 : ¬ (t : Int) = 0 := by omega
      have tt : (t : Int) = 0x8100 ∨ (t : Int) = 0x88a8 := by omega
      simp only [vlanUnpack, hf, g1, g2]
      rw [if_neg t0, if_pos tt, tagValue, tc]
      rfl
    · intro ht; subst ht
      simp only [vlanUnpack, hf, g1]; rfl
    · intro n1 n2 n0
      have t0 : ¬ (t : Int) = 0 := by omega
      have tt : ¬ ((t : Int) = 0x8100 ∨ (t : Int) = 0x88a8) := by omega
      simp only [vlanUnpack, hf, g1, g2]
      rw [if_neg t0, if_neg tt]
  · intro h hne
    have hf : AllFixed vlanFields 4 := .cons (fixed_num _) <| .one (fixed_num _)
    have := hf.short [] hne h
    rw [List.append_nil] at this
    simp only [vlanUnpack, this]
  · intro h; subst h; rfl

example := ((C35_decode [9, 9, 0x81, 0x00, 0xa0, 0x64, 7] 2).1 0x8100 0xa064 (by decide) (by decide +kernel) (by decide) (by decide)).1 (.inl rfl)
example := (C35_decode [9, 9, 0x81, 0x00, 0xa0] 2).2.1 (by decide) (by decide)

private theorem vlan_pack_tag (t p c v : Nat) : vlan.pack (tagValue t p c v) = vlanPack (.int t) (.int p) (.int c) (.int v) := by
  simp [vlan, tagValue]

/-- C35 (round trip).  What a tag packs to decodes, anywhere, to the same TPID and parts, and that packs to the same bytes. -/
theorem C35_roundtrip {t p c v : Nat} (ht : t = 0x8100 ∨ t = 0x88a8) (lp : p < 8) (lc : c < 2) (lv : v < 4096) :
    (∀ pre post, vlanUnpack (pre ++ (be 2 t ++ be 2 (tagControl p c v)) ++ post) pre.length = .ok (tagValue t p c v)) ∧
    vlan.pack (tagValue t p c v) = .ok (be 2 t ++ be 2 (tagControl p c v)) := by
  have lx : tagControl p c v < 65536 := by simp only [tagControl]; omega
  constructor
  · intro pre post
    have hs : slice (pre ++ (be 2 t ++ be 2 (tagControl p c v)) ++ post) pre.length (pre.length + 4) = be 2 t ++ be 2 (tagControl p c v) :=
      slice_mid' pre _ post (by simp)
    have := ((C35_decode _ _).1 t (tagControl p c v) (by simp; omega) hs (by omega) lx).1 ht
    rw [this]
    have e1 : tagControl p c v / 8192 = p := by simp only [tagControl]; omega
    have e2 : tagControl p c v / 4096 % 2 = c := by simp only [tagControl]; omega
    have e3 : tagControl p c v % 4096 = v := by simp only [tagControl]; omega
    rw [e1, e2, e3]
  · have := C35_pack (tpid := .int t) (pcp := .int p) (cfi := .int c) (vid := .int v) rfl rfl rfl rfl (by omega) lp lc lv (fun h => by cases h.1)
    rwa [vlan_pack_tag]

/-- A tag whose hypotheses are met: priority 5, VLAN 100, no `cfi` given. -/
example : vlanPack (.enum 0x8100) (.int 5) .none (.ub 2 (.int 100)) = .ok [0x81, 0x00, 0xa0, 0x64] ∧
    vlanUnpack [9, 9, 0x81, 0x00, 0xa0, 0x64, 7] 2 = .ok (tagValue 0x8100 5 0 100) := by
  refine ⟨by decide +kernel, ?_⟩
  have e : ([9, 9, 0x81, 0x00, 0xa0, 0x64, 7] : Bytes) = [9, 9] ++ (be 2 0x8100 ++ be 2 (tagControl 5 0 100)) ++ [7] := by decide +kernel
  rw [e]
  exact (C35_roundtrip (.inl rfl) (by decide) (by decide) (by decide)).1 [9, 9] [7]

/-- C08: a tag with none of the three parts packs to nothing, but its `get_size` is 4. -/
theorem C08_vlan_counterexample : vlan.pack vlan.proto = .ok [] ∧ vlan.usize vlan.proto = .ok 4 := by
  constructor <;> decide +kernel

/-- C35: outside the ranges the parts overlap: `vid=4096` sets `cfi`.  `pcp=8` does not fit and raises `PackException`. -/
theorem C35_counterexamples :
    vlanPack (.enum 0x8100) (.int 0) (.int 0) (.int 4096) = vlanPack (.enum 0x8100) (.int 0) (.int 1) (.int 0) ∧
    vlanPack (.enum 0x8100) (.int 8) (.int 0) (.int 0) = .error .pack := by
  constructor <;> decide +kernel

/-! ## C36 -/

/-- A VLAN tag as numbers. -/
structure Tag where
  tpid : Nat
  pcp : Nat
  cfi : Nat
  vid : Nat

def Tag.fits (t : Tag) : Prop := (t.tpid = 0x8100 ∨ t.tpid = 0x88a8) ∧ t.pcp < 8 ∧ t.cfi < 2 ∧ t.vid < 4096

def Tag.bytes (t : Tag) : Bytes := be 2 t.tpid ++ be 2 (tagControl t.pcp t.cfi t.vid)

def Tag.value (t : Tag) : Val := tagValue t.tpid t.pcp t.cfi t.vid

/-- The object `v` is a `VLAN` with the numbers of `t` (in any form; a part that is `None` counts as 0, but not all of them are). -/
def IsTag (v : Val) (t : Tag) : Prop :=
  ∃ tpid x pcp cfi vid, v = .obj "net.VLAN" [tpid, x, pcp, cfi, vid] ∧ operand tpid = some (t.tpid : Int) ∧
    tagPart pcp = some (t.pcp : Int) ∧ tagPart cfi = some (t.cfi : Int) ∧ tagPart vid = some (t.vid : Int) ∧
    ¬ (pcp = .none ∧ cfi = .none ∧ vid = .none)

/-- The bytes of a frame. -/
def frame (dst src : Bytes) (tags : List Tag) (etherType : Nat) (payload : Bytes) : Bytes :=
  dst ++ src ++ tags.flatMap Tag.bytes ++ be 2 etherType ++ payload

theorem Tag.bytes_length (t : Tag) : t.bytes.length = 4 := by simp [Tag.bytes]

private theorem tags_length (tags : List Tag) : (tags.flatMap Tag.bytes).length = 4 * tags.length := by
  induction tags with
  | nil => rfl
  | cons t ts ih => simp [List.flatMap_cons, Tag.bytes_length, ih]; omega

private theorem IsTag.pack {v t} (h : IsTag v t) (ht : t.fits) : vlan.pack v = .ok t.bytes := by
  obtain ⟨tpid, x, pcp, cfi, vid, rfl, h1, h2, h3, h4, h5⟩ := h
  obtain ⟨f1, f2, f3, f4⟩ := ht
  have := C35_pack h1 h2 h3 h4 (by omega) f2 f3 f4 h5
  simpa [vlan, Tag.bytes] using this

private theorem IsTag.isVlan {v t} (h : IsTag v t) : isVlan v = true := by
  obtain ⟨tpid, x, pcp, cfi, vid, rfl, h⟩ := h
  simp [Net.isVlan]

private theorem addItems_tags : ∀ (xs : List (Val × Tag)), (∀ p ∈ xs, IsTag p.1 p.2) →
    addItems isVlan (xs.map (·.1)) = .ok (xs.map (·.1))
  | [], _ => rfl
  | (v, t) :: xs, h => by
    have h1 := h (v, t) (List.mem_cons_self ..)
    have ih := addItems_tags xs (fun p hp => h p (List.mem_cons_of_mem _ hp))
    have ha : addItem isVlan v = .ok [v] := by
      have hv := h1.isVlan
      obtain ⟨tpid, x, pcp, cfi, vid, rfl, _⟩ := h1
      rw [addItem]
      · rw [if_pos hv]
      · intro _ _ e; cases e
    simp only [List.map_cons, addItems, ha, ih, List.cons_append, List.nil_append]

private theorem packItems_tags : ∀ (xs : List (Val × Tag)), (∀ p ∈ xs, IsTag p.1 p.2 ∧ p.2.fits) →
    packItems vlan (xs.map (·.1)) = .ok ((xs.map (·.2)).flatMap Tag.bytes)
  | [], _ => rfl
  | (v, t) :: xs, h => by
    have h1 := h (v, t) (List.mem_cons_self ..)
    have ih := packItems_tags xs (fun p hp => h p (List.mem_cons_of_mem _ hp))
    simp only [List.map_cons, packItems, h1.1.pack h1.2, ih, List.flatMap_cons]

private theorem vlans_pack {xs : List (Val × Tag)} (h : ∀ p ∈ xs, IsTag p.1 p.2 ∧ p.2.fits) (k : Bool) :
    vlans.pack (.list k (xs.map (·.1))) = .ok ((xs.map (·.2)).flatMap Tag.bytes) := by
  simp only [vlans, listAttr, addItems_tags xs (fun p hp => (h p hp).1), packItems_tags xs h]

/-- C36 (packing).  A frame packs to the destination, the source, the tags in order, the type and the payload. -/
theorem C36_pack {dst src et data : Val} {bd bs d : Bytes} {n : Nat} {xs : List (Val × Tag)} (k : Bool)
    (hd : hwAttr.pack dst = .ok bd) (hs : hwAttr.pack src = .ok bs) (hx : ∀ p ∈ xs, IsTag p.1 p.2 ∧ p.2.fits)
    (he : operand et = some (n : Int)) (hn : n < 65536) (hb : (binAttr).pack data = .ok d) :
    ethernetPack [dst, src, .list k (xs.map (·.1)), et, data] = .ok (frame bd bs (xs.map (·.2)) n d) := by
  have q : (256 : Nat) ^ 2 = 65536 := by decide
  have := packAttrs_cons (name := "destination") hd <| packAttrs_cons (name := "source") hs <|
    packAttrs_cons (name := "vlans") (vlans_pack hx k) <|
    packAttrs_cons (name := "ether_type") (operand_pack (w := 2) .none he (by rw [q]; exact hn)) <|
    packAttrs_cons (name := "data") hb (rfl : packAttrs [] [] = .ok [])
  simp only [List.append_nil] at this
  simp only [frame, List.append_assoc]
  exact this

example := C36_pack (dst := .str "01:02:03:04:05:06".toList) (src := .hw (.str "0a:0:0:0:0:1".toList)) (et := .int 0x0800) (data := .bytes [0xca])
  (bd := [1, 2, 3, 4, 5, 6]) (bs := [10, 0, 0, 0, 0, 1]) (d := [0xca]) (n := 0x0800) (xs := [((Tag.mk 0x8100 0 1 7).value, Tag.mk 0x8100 0 1 7)]) true
  (by decide +kernel) (by decide +kernel)
  (by simp only [List.mem_singleton]; rintro _ rfl
      exact ⟨⟨_, _, _, _, _, rfl, rfl, rfl, rfl, rfl, fun h => by cases h.1⟩, by simp [Tag.fits]⟩) rfl (by decide) (by decide +kernel)

private theorem be2 (n : Nat) : be 2 n = [UInt8.ofNat (n / 256), UInt8.ofNat n] := by
  simp [be]

private theorem vlanLength_tags (n : Nat) (d : Bytes) (hn : n < 65536) (h1 : n ≠ 0x8100) (h2 : n ≠ 0x88a8) :
    ∀ tags : List Tag, (∀ t ∈ tags, t.fits) → vlanLength (tags.flatMap Tag.bytes ++ (be 2 n ++ d)) = 4 * tags.length
  | [], _ => by
    have q : (256 : Nat) ^ 2 = 65536 := by decide
    have e1 : be 2 0x8100 = [0x81, 0x00] := by decide +kernel
    have e2 : be 2 0x88a8 = [0x88, 0xa8] := by decide +kernel
    have hb := be_length 2 n
    have n1 : be 2 n ≠ [0x81, 0x00] := fun e => h1 (be_inj (w := 2) (by rw [q]; exact hn) (by rw [q]; decide) (e.trans e1.symm))
    have n2 : be 2 n ≠ [0x88, 0xa8] := fun e => h2 (be_inj (w := 2) (by rw [q]; exact hn) (by rw [q]; decide) (e.trans e2.symm))
    match h : be 2 n, hb with
    | [x, y], _ =>
      rw [h] at n1 n2
      simp only [List.flatMap_nil, List.nil_append, List.cons_append]
      rw [vlanLength, if_neg (by rintro (e | e) <;> contradiction)]
      rfl
  | t :: ts, h => by
    have e1 : be 2 0x8100 = [0x81, 0x00] := by decide +kernel
    have e2 : be 2 0x88a8 = [0x88, 0xa8] := by decide +kernel
    have ht := (h t (List.mem_cons_self ..)).1
    have ih := vlanLength_tags n d hn h1 h2 ts (fun t ht => h t (List.mem_cons_of_mem _ ht))
    have hb := be_length 2 (tagControl t.pcp t.cfi t.vid)
    have hx : ∃ x y, be 2 t.tpid = [x, y] ∧ ([x, y] = ([0x81, 0x00] : Bytes) ∨ [x, y] = ([0x88, 0xa8] : Bytes)) := by
      rcases ht with e | e <;> rw [e]
      · exact ⟨_, _, e1, .inl rfl⟩
      · exact ⟨_, _, e2, .inr rfl⟩
    obtain ⟨x, y, hxy, hor⟩ := hx
    match h : be 2 (tagControl t.pcp t.cfi t.vid), hb with
    | [z, w], _ =>
      simp only [List.flatMap_cons, Tag.bytes, hxy, h, List.cons_append, List.nil_append]
      rw [vlanLength, if_pos hor]
      simp only [List.drop_succ_cons, List.drop_zero, List.length_cons]
      rw [ih]; omega

private theorem vlan_usize (v : Val) : vlan.usize v = .ok 4 := rfl

private theorem unpackItems_tags : ∀ (tags : List Tag) (pre : Bytes), (∀ t ∈ tags, t.fits) →
    unpackItems vlan (pre ++ tags.flatMap Tag.bytes) pre.length = .ok (tags.map Tag.value)
  | [], pre, _ => by rw [unpackItems, if_neg (by simp)]; rfl
  | t :: ts, pre, h => by
    obtain ⟨f1, f2, f3, f4⟩ := h t (List.mem_cons_self ..)
    have ih := unpackItems_tags ts (pre ++ t.bytes) (fun t ht => h t (List.mem_cons_of_mem _ ht))
    have hu : vlan.unpack (pre ++ (t :: ts).flatMap Tag.bytes) pre.length = .ok t.value := by
      have := (C35_roundtrip f1 f2 f3 f4).1 pre (ts.flatMap Tag.bytes)
      simp only [List.flatMap_cons, ← List.append_assoc]
      exact this
    rw [unpackItems, if_pos (by simp only [List.flatMap_cons, List.length_append, Tag.bytes_length]; omega)]
    simp only [hu, vlan_usize]
    simp only [List.append_assoc, List.length_append, Tag.bytes_length] at ih
    rw [if_neg (by decide), List.flatMap_cons, ih]
    rfl

private theorem sizeItems_tags : ∀ (xs : List Val), sizeItems vlan xs = .ok (4 * xs.length)
  | [] => rfl
  | x :: xs => by
    simp only [sizeItems, sizeItems_tags xs, vlan_usize, List.length_cons]
    congr 1; omega

private theorem read_at {c b u} (h : At c b u) {pre post : Bytes} (hne : pre ++ b ++ post ≠ []) :
    readAttr c (pre ++ b ++ post) pre.length = .ok (u, b.length) := by
  have := h pre post hne
  rwa [unpackAttr, if_neg hne] at this

/-- The object a frame decodes to. -/
def frameObject (dst src : Bytes) (tags : List Tag) (etherType : Nat) (payload : Bytes) : List Val :=
  [.hw (.str (colonHex dst)), .hw (.str (colonHex src)), .list true (tags.map Tag.value), .ub 2 (.int etherType), .bin (.bytes payload)]

/-- C36 (round trip).  A frame with any tags, a type that is not one of the two VLAN types and any payload decodes, at offset 0, to the
same addresses, tags, type and payload; the result packs to the same bytes, whose number is its size. -/
theorem C36_roundtrip {dst src : Bytes} {tags : List Tag} {n : Nat} (payload : Bytes) (hd : dst.length = 6) (hs : src.length = 6)
    (ht : ∀ t ∈ tags, t.fits) (hn : n < 65536) (h1 : n ≠ 0x8100) (h2 : n ≠ 0x88a8) :
    ethernetUnpack (frame dst src tags n payload) 0 = .ok (frameObject dst src tags n payload) ∧
    ethernetPack (frameObject dst src tags n payload) = .ok (frame dst src tags n payload) ∧
    ethernetSize (frameObject dst src tags n payload) = .ok (frame dst src tags n payload).length := by
  have q : (256 : Nat) ^ 2 = 65536 := by decide
  refine ⟨?_, ?_, ?_⟩
  · have hl : vlanLength ((frame dst src tags n payload).drop 12) = 4 * tags.length := by
      have : (frame dst src tags n payload).drop 12 = tags.flatMap Tag.bytes ++ (be 2 n ++ payload) := by
        have e : frame dst src tags n payload = (dst ++ src) ++ (tags.flatMap Tag.bytes ++ (be 2 n ++ payload)) := by
          simp only [frame, List.append_assoc]
        rw [e, List.drop_left' (by simp [hd, hs])]
      rw [this, vlanLength_tags n payload hn h1 h2 tags ht]
    have hne : frame dst src tags n payload ≠ [] := by
      intro e; have := congrArg List.length e; simp [frame, hd] at this
    have r1 : readAttr hwAttr (frame dst src tags n payload) 0 = .ok (.hw (.str (colonHex dst)), 6) := by
      have e : frame dst src tags n payload = [] ++ dst ++ (src ++ tags.flatMap Tag.bytes ++ be 2 n ++ payload) := by
        simp only [frame, List.append_assoc, List.nil_append]
      have := read_at (at_hw (.str hwZero) hd) (pre := []) (post := src ++ tags.flatMap Tag.bytes ++ be 2 n ++ payload) (e ▸ hne)
      rwa [← e, hd] at this
    have r2 : readAttr hwAttr (frame dst src tags n payload) (0 + 6) = .ok (.hw (.str (colonHex src)), 6) := by
      have e : frame dst src tags n payload = dst ++ src ++ (tags.flatMap Tag.bytes ++ be 2 n ++ payload) := by
        simp only [frame, List.append_assoc]
      have := read_at (at_hw (.str hwZero) hs) (pre := dst) (post := tags.flatMap Tag.bytes ++ be 2 n ++ payload) (e ▸ hne)
      rwa [← e, hd, hs] at this
    have r3 : readAttr vlans (slice (frame dst src tags n payload) (0 + 6 + 6) (0 + 6 + 6 + 4 * tags.length)) 0 =
        .ok (.list true (tags.map Tag.value), 4 * tags.length) := by
      have e : frame dst src tags n payload = (dst ++ src) ++ tags.flatMap Tag.bytes ++ (be 2 n ++ payload) := by
        simp only [frame, List.append_assoc]
      have hsl : slice (frame dst src tags n payload) (0 + 6 + 6) (0 + 6 + 6 + 4 * tags.length) = tags.flatMap Tag.bytes := by
        have := slice_mid (dst ++ src) (tags.flatMap Tag.bytes) (be 2 n ++ payload)
        rw [← e, List.length_append, hd, hs, tags_length] at this
        exact this
      have hu := unpackItems_tags tags [] ht
      simp only [List.nil_append, List.length_nil] at hu
      simp only [hsl, readAttr, vlans, listAttr, hu, sizeItems_tags, List.length_map]
    have r4 : readAttr (ubint 2) (frame dst src tags n payload) (0 + 6 + 6 + 4 * tags.length) = .ok (.ub 2 (.int n), 2) := by
      have e : frame dst src tags n payload = (dst ++ src ++ tags.flatMap Tag.bytes) ++ be 2 n ++ payload := by
        simp only [frame, List.append_assoc]
      have := read_at (at_num (w := 2) .none (by rw [q]; exact hn)) (pre := dst ++ src ++ tags.flatMap Tag.bytes) (post := payload) (e ▸ hne)
      rw [← e, List.length_append, List.length_append, hd, hs, tags_length, be_length] at this
      exact this
    have r5 : readAttr (binAttr) (frame dst src tags n payload) (0 + 6 + 6 + 4 * tags.length + 2) = .ok (.bin (.bytes payload), payload.length) := by
      have e : frame dst src tags n payload = (dst ++ src ++ tags.flatMap Tag.bytes ++ be 2 n) ++ payload := by
        simp only [frame, List.append_assoc]
      have hdr : (frame dst src tags n payload).drop (0 + 6 + 6 + 4 * tags.length + 2) = payload := by
        rw [e, List.drop_left' (by simp only [List.length_append, hd, hs, tags_length, be_length])]
      simp only [readAttr, binAttr, hdr, binSizeRaw, binPackRaw]
    simp only [ethernetUnpack, hl, ethernetFields, ethernetLoop, r1, r2, r3, r4, r5, String.reduceEq, if_true, if_false]
    rfl
  · have hx : ∀ p ∈ tags.map (fun t => (t.value, t)), IsTag p.1 p.2 ∧ p.2.fits := by
      intro p hp
      obtain ⟨t, hm, rfl⟩ := List.mem_map.1 hp
      exact ⟨⟨_, _, _, _, _, rfl, rfl, rfl, rfl, rfl, fun h => by cases h.1⟩, ht t hm⟩
    have := C36_pack (dst := .hw (.str (colonHex dst))) (src := .hw (.str (colonHex src))) (et := .ub 2 (.int n)) (data := .bin (.bytes payload))
      true (hwPackRaw_colonHex hd) (hwPackRaw_colonHex hs) hx rfl hn rfl
    simp only [List.map_map] at this
    have e1 : (Prod.fst ∘ fun t : Tag => (t.value, t)) = Tag.value := rfl
    have e2 : (Prod.snd ∘ fun t : Tag => (t.value, t)) = id := rfl
    rw [e1, e2, List.map_id] at this
    exact this
  · have ha : vlans.size (.list true (tags.map Tag.value)) = .ok (4 * tags.length) := by
      have hx : ∀ p ∈ tags.map (fun t => (t.value, t)), IsTag p.1 p.2 := by
        intro p hp
        obtain ⟨t, hm, rfl⟩ := List.mem_map.1 hp
        exact ⟨_, _, _, _, _, rfl, rfl, rfl, rfl, rfl, fun h => by cases h.1⟩
      have := addItems_tags _ hx
      simp only [List.map_map] at this
      have e1 : (Prod.fst ∘ fun t : Tag => (t.value, t)) = Tag.value := rfl
      rw [e1] at this
      simp only [vlans, listAttr, this, sizeItems_tags, List.length_map]
    have h1 : hwAttr.size (.hw (.str (colonHex dst))) = .ok 6 := rfl
    have h2 : hwAttr.size (.hw (.str (colonHex src))) = .ok 6 := rfl
    have h3 : (ubint 2).size (.ub 2 (.int n)) = .ok 2 := rfl
    have h4 : (binAttr).size (.bin (.bytes payload)) = .ok payload.length := rfl
    simp only [ethernetSize, frameObject, ethernetFields, sizeAttrs, ha, h1, h2, h3, h4]
    simp only [frame, List.length_append, hd, hs, tags_length, be_length]
    congr 1; omega

/-- A frame with two tags (QinQ) meets the hypotheses. -/
example : (∀ t ∈ [Tag.mk 0x88a8 3 0 200, Tag.mk 0x8100 0 1 7], t.fits) ∧
    frame [1, 2, 3, 4, 5, 6] [7, 8, 9, 10, 11, 12] [Tag.mk 0x88a8 3 0 200, Tag.mk 0x8100 0 1 7] 0x0800 [0xca, 0xfe] =
      [1, 2, 3, 4, 5, 6, 7, 8, 9, 10, 11, 12, 0x88, 0xa8, 0x60, 200, 0x81, 0, 0x10, 7, 8, 0, 0xca, 0xfe] := by
  constructor
  · simp [Tag.fits]
  · decide +kernel

/-- The bytes after the addresses are tags, a type that is not a VLAN type, and a payload, provided the tags and the type are complete. -/
private theorem split_tags (b : Bytes) (h : vlanLength b + 2 ≤ b.length) :
    ∃ (tags : List Tag) (n : Nat) (d : Bytes), (∀ t ∈ tags, Tag.fits t) ∧ n < 65536 ∧ n ≠ 0x8100 ∧ n ≠ 0x88a8 ∧ b = tags.flatMap Tag.bytes ++ (be 2 n ++ d) := by
  have q : (256 : Nat) ^ 2 = 65536 := by decide
  have e1 : be 2 0x8100 = [0x81, 0x00] := by decide +kernel
  have e2 : be 2 0x88a8 = [0x88, 0xa8] := by decide +kernel
  induction b using vlanLength.induct with
  | case1 x y r hor ih =>
    rw [vlanLength, if_pos hor] at h
    simp only [List.length_cons] at h
    match r, ih, h with
    | z :: w :: r, ih, h =>
      simp only [List.drop_succ_cons, List.drop_zero] at ih h
      obtain ⟨tags, n, d, ht, hn, h1, h2, rfl⟩ := ih (by simp only [List.length_cons] at h; omega)
      have hx : ∃ t, (t = 0x8100 ∨ t = 0x88a8) ∧ be 2 t = [x, y] := by
        rcases hor with e | e
        · exact ⟨0x8100, .inl rfl, e1.trans e.symm⟩
        · exact ⟨0x88a8, .inr rfl, e2.trans e.symm⟩
      obtain ⟨t, htt, hbe⟩ := hx
      have hv := beVal_lt [z, w]
      rw [show ([z, w] : Bytes).length = 2 from rfl, q] at hv
      let c := beVal [z, w]
      have hc : be 2 c = [z, w] := be_beVal' rfl
      refine ⟨⟨t, c / 8192, c / 4096 % 2, c % 4096⟩ :: tags, n, d, ?_, hn, h1, h2, ?_⟩
      · intro t' ht'
        rcases List.mem_cons.1 ht' with e | e
        · subst e
          have : c < 65536 := hv
          exact ⟨htt, by show c / 8192 < 8; omega, by show c / 4096 % 2 < 2; omega, by show c % 4096 < 4096; omega⟩
        · exact ht t' e
      · have tc : tagControl (c / 8192) (c / 4096 % 2) (c % 4096) = c := by simp only [tagControl]; omega
        simp only [List.flatMap_cons, Tag.bytes, tc, hbe, hc, List.cons_append, List.nil_append]
    | [z], ih, h => simp at h; omega
    | [], ih, h => simp at h
  | case2 x y r hor =>
    have hv := beVal_lt [x, y]
    rw [show ([x, y] : Bytes).length = 2 from rfl, q] at hv
    have hc : be 2 (beVal [x, y]) = [x, y] := be_beVal' rfl
    refine ⟨[], beVal [x, y], r, by simp, hv, ?_, ?_, ?_⟩
    · intro e; rw [e, e1] at hc; exact hor (.inl hc.symm)
    · intro e; rw [e, e2] at hc; exact hor (.inr hc.symm)
    · rw [hc]; rfl
  | case3 b hb =>
    exfalso
    match b, hb, h with
    | x :: y :: r, hb, _ => exact hb x y r rfl
    | [x], _, h => simp at h
    | [], _, h => simp at h

/-- A buffer that is an Ethernet frame: two addresses, any number of complete tags, a type that is not one of the two VLAN types, and any
payload. -/
def IsFrame (buff : Bytes) : Prop :=
  ∃ dst src tags n payload, dst.length = 6 ∧ src.length = 6 ∧ (∀ t ∈ tags, Tag.fits t) ∧ n < 65536 ∧ n ≠ 0x8100 ∧ n ≠ 0x88a8 ∧
    buff = frame dst src tags n payload

private theorem isFrame_of {buff : Bytes} (h : 12 + vlanLength (buff.drop 12) + 2 ≤ buff.length) : IsFrame buff := by
  obtain ⟨tags, n, d, ht, hn, h1, h2, he⟩ := split_tags (buff.drop 12) (by rw [List.length_drop]; omega)
  refine ⟨buff.take 6, (buff.drop 6).take 6, tags, n, d, by simp; omega, by simp; omega, ht, hn, h1, h2, ?_⟩
  have a1 : buff = buff.take 6 ++ buff.drop 6 := (List.take_append_drop 6 buff).symm
  have a2 : buff.drop 6 = (buff.drop 6).take 6 ++ buff.drop 12 := by
    have := (List.take_append_drop 6 (buff.drop 6)).symm
    rwa [List.drop_drop] at this
  simp only [frame, List.append_assoc]
  rw [← he, ← a2, ← a1]

/-- C36 (decoding any frame).  A buffer that is a frame is accepted, and the result packs to exactly that buffer. -/
theorem C36_decode (buff : Bytes) (h : IsFrame buff) : ∃ vs, ethernetUnpack buff 0 = .ok vs ∧ ethernetPack vs = .ok buff := by
  obtain ⟨dst, src, tags, n, d, hd, hs, ht, hn, h1, h2, rfl⟩ := h
  have := C36_roundtrip d hd hs ht hn h1 h2
  exact ⟨_, this.1, this.2.1⟩

/-- A frame with one tag. -/
example : IsFrame [1, 2, 3, 4, 5, 6, 7, 8, 9, 10, 11, 12, 0x81, 0, 0x10, 7, 8, 0, 0xca, 0xfe] :=
  ⟨[1, 2, 3, 4, 5, 6], [7, 8, 9, 10, 11, 12], [⟨0x8100, 0, 1, 7⟩], 0x0800, [0xca, 0xfe], rfl, rfl, by simp [Tag.fits], by decide, by decide,
    by decide, by decide +kernel⟩

private theorem unpackItems_cut : ∀ (tags : List Tag) (pre rest : Bytes), (∀ t ∈ tags, t.fits) → rest ≠ [] → rest.length < 4 →
    unpackItems vlan (pre ++ tags.flatMap Tag.bytes ++ rest) pre.length = .error .unpack
  | [], pre, rest, _, hne, hl => by
    rw [unpackItems, if_pos (by have := List.length_pos_iff.2 hne; simp; omega)]
    have : vlan.unpack (pre ++ List.flatMap Tag.bytes [] ++ rest) pre.length = .error .unpack :=
      (C35_decode _ _).2.1 (by simp; omega) (by simp [hne])
    simp only [this]
  | t :: ts, pre, rest, h, hne, hl => by
    obtain ⟨f1, f2, f3, f4⟩ := h t (List.mem_cons_self ..)
    have ih := unpackItems_cut ts (pre ++ t.bytes) rest (fun t ht => h t (List.mem_cons_of_mem _ ht)) hne hl
    have hu : vlan.unpack (pre ++ (t :: ts).flatMap Tag.bytes ++ rest) pre.length = .ok t.value := by
      have := (C35_roundtrip f1 f2 f3 f4).1 pre (ts.flatMap Tag.bytes ++ rest)
      simp only [List.flatMap_cons, List.append_assoc] at this ⊢
      exact this
    rw [unpackItems, if_pos (by simp only [List.flatMap_cons, List.length_append, Tag.bytes_length]; omega)]
    simp only [hu, vlan_usize]
    simp only [List.append_assoc, List.length_append, Tag.bytes_length] at ih
    rw [if_neg (by decide), List.flatMap_cons]
    simp only [List.append_assoc, ih]

/-- Otherwise they are complete tags followed by less than a type, or by an incomplete tag. -/
private theorem split_cut (b : Bytes) (h : ¬ vlanLength b + 2 ≤ b.length) :
    ∃ (tags : List Tag) (rest : Bytes), (∀ t ∈ tags, Tag.fits t) ∧ b = tags.flatMap Tag.bytes ++ rest ∧
      (rest.length < 2 ∧ vlanLength b = 4 * tags.length ∨ rest ≠ [] ∧ rest.length < 4 ∧ b.length < vlanLength b) := by
  have q : (256 : Nat) ^ 2 = 65536 := by decide
  have e1 : be 2 0x8100 = [0x81, 0x00] := by decide +kernel
  have e2 : be 2 0x88a8 = [0x88, 0xa8] := by decide +kernel
  induction b using vlanLength.induct with
  | case1 x y r hor ih =>
    rw [vlanLength, if_pos hor] at h ⊢
    simp only [List.length_cons] at h
    match r, ih, h with
    | z :: w :: r, ih, h =>
      simp only [List.drop_succ_cons, List.drop_zero] at ih h ⊢
      obtain ⟨tags, rest, ht, he, hr⟩ := ih (by simp only [List.length_cons] at h; omega)
      have hx : ∃ t, (t = 0x8100 ∨ t = 0x88a8) ∧ be 2 t = [x, y] := by
        rcases hor with e | e
        · exact ⟨0x8100, .inl rfl, e1.trans e.symm⟩
        · exact ⟨0x88a8, .inr rfl, e2.trans e.symm⟩
      obtain ⟨t, htt, hbe⟩ := hx
      have hv := beVal_lt [z, w]
      rw [show ([z, w] : Bytes).length = 2 from rfl, q] at hv
      let c := beVal [z, w]
      have hc : be 2 c = [z, w] := be_beVal' rfl
      refine ⟨⟨t, c / 8192, c / 4096 % 2, c % 4096⟩ :: tags, rest, ?_, ?_, ?_⟩
      · intro t' ht'
        rcases List.mem_cons.1 ht' with e | e
        · subst e
          have : c < 65536 := hv
          exact ⟨htt, by show c / 8192 < 8; omega, by show c / 4096 % 2 < 2; omega, by show c % 4096 < 4096; omega⟩
        · exact ht t' e
      · have tc : tagControl (c / 8192) (c / 4096 % 2) (c % 4096) = c := by simp only [tagControl]; omega
        simp only [List.flatMap_cons, Tag.bytes, tc, hbe, hc, List.cons_append, List.nil_append]
        rw [← he]
      · rcases hr with ⟨a, b⟩ | ⟨a, b, c⟩
        · exact .inl ⟨a, by rw [b, List.length_cons]; omega⟩
        · exact .inr ⟨a, b, by simp only [List.length_cons]; omega⟩
    | [z], ih, h => exact ⟨[], [x, y, z], by simp, rfl, .inr ⟨by simp, by simp, by simp; omega⟩⟩
    | [], ih, h => exact ⟨[], [x, y], by simp, rfl, .inr ⟨by simp, by simp, by simp; omega⟩⟩
  | case2 x y r hor => rw [vlanLength, if_neg hor] at h; simp at h
  | case3 b hb =>
    refine ⟨[], b, by simp, rfl, .inl ?_⟩
    match b, hb with
    | x :: y :: r, hb => exact absurd rfl (hb x y r)
    | [x], _ => exact ⟨by simp, by simp [vlanLength]⟩
    | [], _ => exact ⟨by simp, by simp [vlanLength]⟩

/-- C36.  Every other buffer (too short for the addresses, a tag or the type) raises `UnpackException`. -/
theorem C36_short (buff : Bytes) (hf : ¬ IsFrame buff) : ethernetUnpack buff 0 = .error .unpack := by
  have h : ¬ 12 + vlanLength (buff.drop 12) + 2 ≤ buff.length := fun h => hf (isFrame_of h)
  by_cases h6 : 0 + 6 ≤ buff.length
  case neg =>
    have r1 : readAttr hwAttr buff 0 = .error .unpack := by
      simp only [readAttr, (C03_mac_unpack (.str hwZero) buff 0).2 h6]
    simp only [ethernetUnpack, ethernetFields, ethernetLoop, r1, String.reduceEq, if_false]
  have hne : buff ≠ [] := by intro e; subst e; simp at h6
  have r1 : ∃ u, readAttr hwAttr buff 0 = .ok (u, 6) := by
    obtain ⟨u, hu⟩ := (fixed_hw (.str hwZero) buff 0 hne).1 h6
    exact ⟨u, by rwa [unpackAttr, if_neg hne] at hu⟩
  obtain ⟨u1, r1⟩ := r1
  by_cases h12 : 0 + 6 + 6 ≤ buff.length
  case neg =>
    have r2 : readAttr hwAttr buff (0 + 6) = .error .unpack := by
      simp only [readAttr, (C03_mac_unpack (.str hwZero) buff (0 + 6)).2 h12]
    simp only [ethernetUnpack, ethernetFields, ethernetLoop, r1, r2, String.reduceEq, if_false]
  have r2 : ∃ u, readAttr hwAttr buff (0 + 6) = .ok (u, 6) := by
    obtain ⟨u, hu⟩ := (fixed_hw (.str hwZero) buff (0 + 6) hne).1 h12
    exact ⟨u, by rwa [unpackAttr, if_neg hne] at hu⟩
  obtain ⟨u2, r2⟩ := r2
  have hl := List.length_drop (i := 12) (l := buff)
  obtain ⟨tags, rest, ht, he, hr⟩ := split_cut (buff.drop 12) (by rw [hl]; omega)
  have hs : slice buff (0 + 6 + 6) (0 + 6 + 6 + vlanLength (buff.drop 12)) = (buff.drop 12).take (vlanLength (buff.drop 12)) := by
    rw [slice, List.drop_take]; congr 1; omega
  rcases hr with ⟨a, b⟩ | ⟨a, b, c⟩
  · have hs' : (buff.drop 12).take (vlanLength (buff.drop 12)) = tags.flatMap Tag.bytes := by
      rw [b, he, List.take_left' (tags_length tags)]
    have r3 : readAttr vlans (slice buff (0 + 6 + 6) (0 + 6 + 6 + vlanLength (buff.drop 12))) 0 =
        .ok (.list true (tags.map Tag.value), 4 * tags.length) := by
      have hu := unpackItems_tags tags [] ht
      simp only [List.nil_append, List.length_nil] at hu
      simp only [hs, hs', readAttr, vlans, listAttr, hu, sizeItems_tags, List.length_map]
    have h4 : ¬ 0 + 6 + 6 + 4 * tags.length + 2 ≤ buff.length := by
      have := congrArg List.length he
      rw [hl, List.length_append, tags_length] at this
      omega
    have r4 : readAttr (ubint 2) buff (0 + 6 + 6 + 4 * tags.length) = .error .unpack := by
      have := (fixed_num (w := 2) .none buff _ hne).2 h4
      rwa [unpackAttr, if_neg hne] at this
    simp only [ethernetUnpack, ethernetFields, ethernetLoop, r1, r2, r3, r4, String.reduceEq, if_false, if_true]
  · have hs' : (buff.drop 12).take (vlanLength (buff.drop 12)) = tags.flatMap Tag.bytes ++ rest := by
      rw [List.take_of_length_le (by omega), he]
    have r3 : readAttr vlans (slice buff (0 + 6 + 6) (0 + 6 + 6 + vlanLength (buff.drop 12))) 0 = .error .unpack := by
      have hu := unpackItems_cut tags [] rest ht a b
      simp only [List.nil_append, List.length_nil] at hu
      simp only [hs, hs', readAttr, vlans, listAttr, hu]
    simp only [ethernetUnpack, ethernetFields, ethernetLoop, r1, r2, r3, String.reduceEq, if_false, if_true]

/-- A frame whose tag lacks its last byte. -/
example : ¬ IsFrame [1, 2, 3, 4, 5, 6, 7, 8, 9, 10, 11, 12, 0x81, 0, 0x10] := by
  intro h
  obtain ⟨vs, hv, _⟩ := C36_decode _ h
  have : (ethernetUnpack [1, 2, 3, 4, 5, 6, 7, 8, 9, 10, 11, 12, 0x81, 0, 0x10] 0).isOk = false := by decide +kernel
  rw [hv] at this
  exact absurd this (by simp [Except.isOk, Except.toBool])

/-- The number of tags, the type and the number of payload bytes of a decoded frame. -/
def frameSummary : Res (List Val) → Option (Nat × Option Int × Nat)
  | .ok [_, _, .list _ tags, et, .bin (.bytes d)] => some (tags.length, number et, d.length)
  | _ => none

/-- C36: the tags are always looked for at bytes 12-13 of the buffer.  At offset 0 this frame has one tag, type 0x0800 and two bytes of
payload; the same frame at offset 1 decodes without a tag, with type 0x8100 and six bytes of payload.  A frame whose own type is 0x8100
decodes with one tag too many. -/
theorem C36_counterexamples :
    (let f := frame [1, 2, 3, 4, 5, 6] [7, 8, 9, 10, 11, 12] [Tag.mk 0x8100 0 0 5] 0x0800 [0xca, 0xfe]
     frameSummary (ethernetUnpack f 0) = some (1, some 0x0800, 2) ∧
     frameSummary (ethernetUnpack ([0] ++ f) 1) = some (0, some 0x8100, 6)) ∧
    (let f := frame [1, 2, 3, 4, 5, 6] [7, 8, 9, 10, 11, 12] [] 0x8100 [0, 1, 8, 0, 7]
     frameSummary (ethernetUnpack f 0) = some (1, some 0x0800, 1)) := by
  refine ⟨⟨?_, ?_⟩, ?_⟩ <;> decide +kernel

end Pyof.Props
