import Verif.Model.Network
import Verif.Lemmas.Reads
import Verif.Lemmas.Msg
/-!
# C37 IPv4 packets, C38 IPv6 packets
-/
namespace Pyof.Props
open Pyof Net

/-! ## The Internet checksum -/

/-- Addition of 16-bit numbers with end-around carry (RFC 1071). -/
def ocAdd (a b : Nat) : Nat := if a + b > 65535 then a + b - 65535 else a + b

/-- The one's-complement sum of the 16-bit words of a byte string. -/
def onesSum : Bytes → Nat
  | x :: y :: r => ocAdd (x.toNat * 256 + y.toNat) (onesSum r)
  | _ => 0

/-- Their ordinary sum. -/
def wordSum : Bytes → Nat
  | x :: y :: r => x.toNat * 256 + y.toNat + wordSum r
  | _ => 0

private theorem onesSum_spec : ∀ b : Bytes, onesSum b ≤ 65535 ∧ onesSum b % 65535 = wordSum b % 65535 ∧ (onesSum b = 0 → wordSum b = 0)
  | x :: y :: r => by
    obtain ⟨h1, h2, h3⟩ := onesSum_spec r
    have hx := x.toNat_lt
    have hy := y.toNat_lt
    simp only [onesSum, wordSum, ocAdd]
    split <;> refine ⟨by omega, by omega, by omega⟩
  | [x] => by simp [onesSum, wordSum]
  | [] => by simp [onesSum, wordSum]

private theorem foldSum_spec (s : Int) (h0 : 0 ≤ s) : 0 ≤ foldSum s ∧ foldSum s ≤ 65535 ∧ foldSum s % 65535 = s % 65535 ∧ (foldSum s = 0 → s = 0) := by
  induction s using foldSum.induct with
  | case1 s h ih =>
    obtain ⟨h1, h2, h3, h4⟩ := ih (by omega)
    rw [foldSum, dif_pos h]
    refine ⟨h1, h2, by omega, fun e => ?_⟩
    have := h4 e
    omega
  | case2 s h => rw [foldSum, dif_neg h]; exact ⟨h0, by omega, rfl, fun h => h⟩

/-- The halves of an address that packs. -/
private theorem halves_eq {s : Str} {b : Bytes} (hs : '/' ∉ s) (h : ipPackRaw (.str s) = .ok b) :
    ∃ x y z w : UInt8, b = [x, y, z, w] ∧
      halves s = .ok (((x.toNat * 256 + y.toNat : Nat) : Int), ((z.toNat * 256 + w.toNat : Nat) : Int)) := by
  have e : beforeSlash s = s := by simp [beforeSlash, hs]
  simp only [ipPackRaw, e] at h
  cases hx : splitInts '.' 10 s with
  | none => simp [hx] at h
  | some xs =>
    simp only [hx] at h
    cases hp : structPack 1 4 xs with
    | none => simp [hp] at h
    | some c =>
      simp only [hp, Except.ok.injEq] at h
      subst h
      unfold structPack at hp
      split at hp
      case isFalse => cases hp
      rename_i hc
      obtain ⟨hl, hr⟩ := hc
      cases hp
      match xs, hl, hr with
      | [a, b, c, d], _, hr =>
        have ha := hr a (by simp)
        have hb := hr b (by simp)
        have hc := hr c (by simp)
        have hd := hr d (by simp)
        have b1 : ∀ n, be 1 n = [UInt8.ofNat n] := fun n => by simp [be]
        refine ⟨UInt8.ofNat a.toNat, UInt8.ofNat b.toNat, UInt8.ofNat c.toNat, UInt8.ofNat d.toNat, ?_, ?_⟩
        · simp [b1]
        · simp only [halves, hx, UInt8.toNat_ofNat', Except.ok.injEq, Prod.mk.injEq]
          constructor <;> omega

/-! ## C37 -/

/-- The fields of the fixed part of the header are in range. -/
structure IPv4Fits (p : IPv4) : Prop where
  version : p.version < 16
  dscp : p.dscp < 64
  ecn : p.ecn < 4
  identification : p.identification < 65536
  flags : p.flags < 8
  offset : p.offset < 8192
  ttl : p.ttl < 256
  protocol : p.protocol < 256

/-- The first twenty bytes (RFC 791). -/
def ipv4Header (version ihl dscp ecn length identification flags offset ttl protocol checksum : Nat) (src dst : Bytes) : Bytes :=
  be 1 (version * 16 + ihl) ++ be 1 (dscp * 4 + ecn) ++ be 2 length ++ be 2 identification ++ be 2 (flags * 8192 + offset) ++ be 1 ttl ++
    be 1 protocol ++ be 2 checksum ++ src ++ dst

private theorem or_shl (a b k : Nat) (h : b < 2 ^ k) : a <<< k ||| b = a * 2 ^ k + b := by
  rw [← Nat.shiftLeft_add_eq_or_of_lt h, Nat.shiftLeft_eq]

private theorem be1 (n : Nat) : be 1 n = [UInt8.ofNat n] := by simp [be]
private theorem be2 (n : Nat) : be 2 n = [UInt8.ofNat (n / 256), UInt8.ofNat n] := by simp [be]

private theorem p1 : (256 : Nat) ^ 1 = 256 := by decide
private theorem p2 : (256 : Nat) ^ 2 = 65536 := by decide

private theorem header_sum {v i ds e len ident f o ttl proto chk : Nat} (x y z w x' y' z' w' : UInt8)
    (h1 : v < 16) (h2 : i < 16) (h3 : ds < 64) (h4 : e < 4) (h5 : len < 65536) (h6 : ident < 65536) (h7 : f < 8) (h8 : o < 8192)
    (h9 : ttl < 256) (h10 : proto < 256) (h11 : chk < 65536) :
    wordSum (ipv4Header v i ds e len ident f o ttl proto chk [x, y, z, w] [x', y', z', w']) =
      ((v * 16 + i) * 256 + (ds * 4 + e)) + len + ident + (f * 8192 + o) + (ttl * 256 + proto) + chk +
      (x.toNat * 256 + y.toNat) + (z.toNat * 256 + w.toNat) + (x'.toNat * 256 + y'.toNat) + (z'.toNat * 256 + w'.toNat) := by
  simp only [ipv4Header, be1, be2, List.cons_append, List.nil_append, wordSum, UInt8.toNat_ofNat']
  omega

private theorem num_pack' {w n : Nat} (h : n < 256 ^ w) : (ubint w).pack (.int n) = .ok (be w n) := packNum_fit h

/-- C37.  An IPv4 object with its fields in range, initial header length 5, options of a multiple of four bytes (at most 40; none is the
common case), addresses in a form that packs, and at most 65535 bytes in total: it packs to the RFC 791 header, the options and the data, with
the header length in words and the total length in bytes; the one's-complement sum of the first twenty bytes is 0xffff (and the checksum is 0 rather
than 0xffff where both would do). -/
theorem C37_pack {p : IPv4} {s d : Bytes} (hf : IPv4Fits p) (hi : p.ihl = 5) (ho : p.options.length % 4 = 0) (ho2 : p.options.length ≤ 40)
    (hs : (ipAttr).pack (.str p.source) = .ok s) (hd : (ipAttr).pack (.str p.destination) = .ok d) (ns : '/' ∉ p.source)
    (nd : '/' ∉ p.destination) (hl : 20 + p.options.length + p.data.length < 65536) :
    ∃ chk, chk < 65535 ∧
      let ihl := 5 + p.options.length / 4
      let total := 20 + p.options.length + p.data.length
      let head := ipv4Header p.version ihl p.dscp p.ecn total p.identification p.flags p.offset p.ttl p.protocol chk s d
      onesSum head = 0xffff ∧ head.length = 20 ∧
      p.pack = .ok (head ++ p.options ++ p.data, { p with ihl := ihl, length := total, checksum := chk }) := by
  obtain ⟨x, y, z, w, rfl, es⟩ := halves_eq ns (show ipPackRaw (.str p.source) = .ok s from hs)
  obtain ⟨x', y', z', w', rfl, ed⟩ := halves_eq nd (show ipPackRaw (.str p.destination) = .ok d from hd)
  obtain ⟨f1, f2, f3, f4, f5, f6, f7, f8⟩ := hf
  have ihlE : (if p.options = [] then p.ihl else p.ihl + p.options.length / 4) = 5 + p.options.length / 4 := by
    split
    · rename_i e; rw [hi, e]; rfl
    · rw [hi]
  have lenE : (5 + p.options.length / 4) * 4 + p.data.length = 20 + p.options.length + p.data.length := by omega
  have e1 : p.version <<< 4 ||| (5 + p.options.length / 4) = p.version * 16 + (5 + p.options.length / 4) := or_shl _ _ 4 (by omega)
  have e2 : p.dscp <<< 2 ||| p.ecn = p.dscp * 4 + p.ecn := or_shl _ _ 2 (by omega)
  have e3 : p.flags <<< 13 ||| p.offset = p.flags * 8192 + p.offset := or_shl _ _ 13 (by omega)
  have e4 : (p.version * 16 + (5 + p.options.length / 4)) <<< 8 ||| (p.dscp * 4 + p.ecn) =
      (p.version * 16 + (5 + p.options.length / 4)) * 256 + (p.dscp * 4 + p.ecn) := or_shl _ _ 8 (by omega)
  have e5 : p.ttl <<< 8 ||| p.protocol = p.ttl * 256 + p.protocol := or_shl _ _ 8 (by omega)
  let S : Nat := ((p.version * 16 + (5 + p.options.length / 4)) * 256 + (p.dscp * 4 + p.ecn)) + (20 + p.options.length + p.data.length) +
    p.identification + (p.flags * 8192 + p.offset) + (p.ttl * 256 + p.protocol) + (x.toNat * 256 + y.toNat) + (z.toNat * 256 + w.toNat) +
    (x'.toNat * 256 + y'.toNat) + (z'.toNat * 256 + w'.toNat)
  obtain ⟨g1, g2, g3, g4⟩ := foldSum_spec S (by omega)
  have hchk : ipv4Checksum (p.version * 16 + (5 + p.options.length / 4)) (p.dscp * 4 + p.ecn) (20 + p.options.length + p.data.length)
      p.identification (p.flags * 8192 + p.offset) p.ttl p.protocol p.source p.destination = .ok ((65535 - (foldSum S).toNat : Nat) : Int) := by
    simp only [ipv4Checksum, es, ed, e4, e5]
    have eS : (((p.version * 16 + (5 + p.options.length / 4)) * 256 + (p.dscp * 4 + p.ecn) + (20 + p.options.length + p.data.length) +
        p.identification + (p.flags * 8192 + p.offset) + (p.ttl * 256 + p.protocol) : Nat) : Int) + ((x.toNat * 256 + y.toNat : Nat) : Int) +
        ((z.toNat * 256 + w.toNat : Nat) : Int) + ((x'.toNat * 256 + y'.toNat : Nat) : Int) + ((z'.toNat * 256 + w'.toNat : Nat) : Int) =
        (S : Int) := by simp only [S]; omega
    rw [eS]
    congr 1; omega
  have hS : 0 < S := by simp only [S]; omega
  refine ⟨65535 - (foldSum S).toNat, by omega, ?_, ?_, ?_⟩
  · obtain ⟨o1, o2, o3⟩ := onesSum_spec (ipv4Header p.version (5 + p.options.length / 4) p.dscp p.ecn (20 + p.options.length + p.data.length)
      p.identification p.flags p.offset p.ttl p.protocol (65535 - (foldSum S).toNat) [x, y, z, w] [x', y', z', w'])
    rw [header_sum x y z w x' y' z' w' f1 (by omega) f2 f3 hl f4 f5 f6 f7 f8 (by omega)] at o2 o3
    omega
  · simp [ipv4Header]
  · have l1 : p.version * 16 + (5 + p.options.length / 4) < 256 ^ 1 := by rw [p1]; omega
    have l2 : p.dscp * 4 + p.ecn < 256 ^ 1 := by rw [p1]; omega
    have l3 : 20 + p.options.length + p.data.length < 256 ^ 2 := by rw [p2]; omega
    have l4 : p.identification < 256 ^ 2 := by rw [p2]; omega
    have l5 : p.flags * 8192 + p.offset < 256 ^ 2 := by rw [p2]; omega
    have l6 : p.ttl < 256 ^ 1 := by rw [p1]; omega
    have l7 : p.protocol < 256 ^ 1 := by rw [p1]; omega
    have l8 : 65535 - (foldSum S).toNat < 256 ^ 2 := by rw [p2]; omega
    have hp := packAttrs_cons (name := "_version_ihl") (num_pack' l1) <| packAttrs_cons (name := "_dscp_ecn") (num_pack' l2) <|
      packAttrs_cons (name := "length") (num_pack' l3) <| packAttrs_cons (name := "identification") (num_pack' l4) <|
      packAttrs_cons (name := "_flags_offset") (num_pack' l5) <| packAttrs_cons (name := "ttl") (num_pack' l6) <|
      packAttrs_cons (name := "protocol") (num_pack' l7) <| packAttrs_cons (name := "checksum") (num_pack' l8) <|
      packAttrs_cons (name := "source") hs <| packAttrs_cons (name := "destination") hd <|
      packAttrs_cons (name := "options") (show (binAttr).pack (.bytes p.options) = .ok p.options from rfl) <|
      packAttrs_cons (name := "data") (show (binAttr).pack (.bytes p.data) = .ok p.data from rfl) (rfl : packAttrs [] [] = .ok [])
    simp only [IPv4.pack, ihlE, lenE, e1, e2, e3, hchk]
    have hp2 : packAttrs ipv4Fields _ = .ok _ := hp
    rw [hp2]
    simp only [Except.map, ipv4Header, List.append_assoc, List.append_nil, Int.toNat_natCast]

private theorem four {s : Bytes} (h : s.length = 4) : ∃ x y z w, s = [x, y, z, w] := by
  match s, h with
  | [x, y, z, w], _ => exact ⟨x, y, z, w, rfl⟩

/-- There is one checksum, if 0xffff is not used. -/
theorem checksum_unique {v i ds e len ident f o ttl proto chk chk' : Nat} {s d : Bytes}
    (h1 : v < 16) (h2 : i < 16) (h3 : ds < 64) (h4 : e < 4) (h5 : len < 65536) (h6 : ident < 65536) (h7 : f < 8) (h8 : o < 8192)
    (h9 : ttl < 256) (h10 : proto < 256) (hs : s.length = 4) (hd : d.length = 4) (h11 : chk < 65535) (h12 : chk' < 65535)
    (h : onesSum (ipv4Header v i ds e len ident f o ttl proto chk s d) = 0xffff)
    (h' : onesSum (ipv4Header v i ds e len ident f o ttl proto chk' s d) = 0xffff) : chk = chk' := by
  obtain ⟨x, y, z, w, rfl⟩ := four hs
  obtain ⟨x', y', z', w', rfl⟩ := four hd
  · have a := (onesSum_spec (ipv4Header v i ds e len ident f o ttl proto chk [x, y, z, w] [x', y', z', w'])).2.1
    have b := (onesSum_spec (ipv4Header v i ds e len ident f o ttl proto chk' [x, y, z, w] [x', y', z', w'])).2.1
    rw [header_sum x y z w x' y' z' w' h1 h2 h3 h4 h5 h6 h7 h8 h9 h10 (by omega), h] at a
    rw [header_sum x y z w x' y' z' w' h1 h2 h3 h4 h5 h6 h7 h8 h9 h10 (by omega), h'] at b
    omega

/-- A packet with two words of options meets the hypotheses. -/
example : IPv4Fits { ttl := 64, protocol := 6, source := "10.0.0.1".toList, options := [1, 2, 3, 4, 5, 6, 7, 8], data := [0xca, 0xfe] } ∧
    (ipAttr).pack (.str "10.0.0.1".toList) = .ok [10, 0, 0, 1] := by
  refine ⟨⟨?_, ?_, ?_, ?_, ?_, ?_, ?_, ?_⟩, ?_⟩ <;> decide +kernel

private theorem shr (n k : Nat) : n >>> k = n / 2 ^ k := Nat.shiftRight_eq_div_pow ..
private theorem and_mask (n k m : Nat) (h : m = 2 ^ k - 1) : n &&& m = n % 2 ^ k := by rw [h, Nat.and_two_pow_sub_one_eq_mod]

/-- C37 (decoding).  An RFC 791 header with its fields in range, followed by the rest of the buffer: every field is recovered, and the rest is split
into the options that the header length counts (none if it is below five) and the data. -/
theorem C37_unpack {v i ds e len ident f o ttl proto chk : Nat} {s d : Bytes} (rest : Bytes)
    (h1 : v < 16) (h2 : i < 16) (h3 : ds < 64) (h4 : e < 4) (h5 : len < 65536) (h6 : ident < 65536) (h7 : f < 8) (h8 : o < 8192)
    (h9 : ttl < 256) (h10 : proto < 256) (h11 : chk < 65536) (hs : s.length = 4) (hd : d.length = 4) (pre : Bytes) :
    IPv4.unpack (pre ++ (ipv4Header v i ds e len ident f o ttl proto chk s d ++ rest)) pre.length =
      .ok { version := v, ihl := i, dscp := ds, ecn := e, length := len, identification := ident, flags := f, offset := o, ttl := ttl,
            protocol := proto, checksum := chk, source := dotted s, destination := dotted d,
            options := rest.take ((i - 5) * 4), data := rest.drop ((i - 5) * 4) } := by
  have l1 : v * 16 + i < 256 ^ 1 := by rw [p1]; omega
  have l2 : ds * 4 + e < 256 ^ 1 := by rw [p1]; omega
  have l5 : f * 8192 + o < 256 ^ 2 := by rw [p2]; omega
  have hf := fieldsAt_cons (name := "_version_ihl") (at_num .none l1) <| fieldsAt_cons (name := "_dscp_ecn") (at_num .none l2) <|
    fieldsAt_cons (name := "length") (at_num (w := 2) .none (by rw [p2]; exact h5)) <|
    fieldsAt_cons (name := "identification") (at_num (w := 2) .none (by rw [p2]; exact h6)) <|
    fieldsAt_cons (name := "_flags_offset") (at_num .none l5) <| fieldsAt_cons (name := "ttl") (at_num (w := 1) .none (by rw [p1]; exact h9)) <|
    fieldsAt_cons (name := "protocol") (at_num (w := 1) .none (by rw [p1]; exact h10)) <|
    fieldsAt_cons (name := "checksum") (at_num (w := 2) .none (by rw [p2]; exact h11)) <|
    fieldsAt_cons (name := "source") (at_ip "0.0.0.0".toList 32 hs) <| fieldsAt_cons (name := "destination") (at_ip "0.0.0.0".toList 32 hd) <|
    fieldsAt_rest_two (name := "options") (name' := "data") (d := .none) (d' := .none) rest
  have hf2 : FieldsAt ipv4Fields _ _ true := hf
  have eb : ipv4Header v i ds e len ident f o ttl proto chk s d ++ rest =
      be 1 (v * 16 + i) ++ (be 1 (ds * 4 + e) ++ (be 2 len ++ (be 2 ident ++ (be 2 (f * 8192 + o) ++ (be 1 ttl ++ (be 1 proto ++
        (be 2 chk ++ (s ++ (d ++ rest))))))))) := by
    simp only [ipv4Header, List.append_assoc]
  have hu := hf2 pre [] (fun _ => rfl) (by
    intro h; have := congrArg List.length h; simp only [List.length_append, be_length, List.length_nil] at this; omega)
  rw [List.append_nil, ← eb] at hu
  have dn : ∀ (w n : Nat), decNum (.ub w (.int n)) = .ok n := fun _ _ => rfl
  have a1 : (v * 16 + i) >>> 4 = v := by rw [shr]; omega
  have a2 : (v * 16 + i) &&& 15 = i := by rw [and_mask _ 4 15 (by decide)]; omega
  have a3 : (ds * 4 + e) >>> 2 = ds := by rw [shr]; omega
  have a4 : (ds * 4 + e) &&& 3 = e := by rw [and_mask _ 2 3 (by decide)]; omega
  have a5 : (f * 8192 + o) >>> 13 = f := by rw [shr]; omega
  have a6 : (f * 8192 + o) &&& 8191 = o := by rw [and_mask _ 13 8191 (by decide)]; omega
  have a7 : (if i > 5 then (i - 5) * 4 else 0) = (i - 5) * 4 := by split <;> omega
  simp only [IPv4.unpack, hu, dn, decText, decBytes, a1, a2, a3, a4, a5, a6, a7, bind, Except.bind, pure, Except.pure]

/-- A header with two words of options and a payload, after one other byte. -/
example := C37_unpack (v := 4) (i := 7) (ds := 10) (e := 1) (len := 30) (ident := 9) (f := 2) (o := 185) (ttl := 64) (proto := 6) (chk := 0xbeef)
  (s := [10, 0, 0, 1]) (d := [10, 0, 0, 2]) [1, 2, 3, 4, 5, 6, 7, 8, 0xca, 0xfe] (by decide) (by decide) (by decide) (by decide) (by decide)
  (by decide) (by decide) (by decide) (by decide) (by decide) (by decide) rfl rfl [0]

/-- C37 (round trip).  What such an object packs to decodes, at the end of any buffer, to the object after packing, with the addresses in
canonical form. -/
theorem C37_roundtrip {p : IPv4} {s d : Bytes} (hf : IPv4Fits p) (hi : p.ihl = 5) (ho : p.options.length % 4 = 0) (ho2 : p.options.length ≤ 40)
    (hs : (ipAttr).pack (.str p.source) = .ok s) (hd : (ipAttr).pack (.str p.destination) = .ok d) (ns : '/' ∉ p.source)
    (nd : '/' ∉ p.destination) (hl : 20 + p.options.length + p.data.length < 65536) :
    ∃ b p', p.pack = .ok (b, p') ∧ p.size = .ok b.length ∧ p'.length = b.length ∧
      (∀ pre, IPv4.unpack (pre ++ b) pre.length = .ok { p' with source := dotted s, destination := dotted d }) ∧
      p' = { p with ihl := 5 + p.options.length / 4, length := 20 + p.options.length + p.data.length, checksum := p'.checksum } := by
  obtain ⟨chk, hc, _, h20, hp⟩ := C37_pack hf hi ho ho2 hs hd ns nd hl
  have hls := (C04_ipv4_pack _ _ _ _ hs).1
  have hld := (C04_ipv4_pack _ _ _ _ hd).1
  obtain ⟨f1, f2, f3, f4, f5, f6, f7, f8⟩ := hf
  refine ⟨_, _, hp, ?_, ?_, ?_, rfl⟩
  · have : p.size = .ok (20 + p.options.length + p.data.length) := by
      simp only [IPv4.size, sizeAttrs, ipv4Fields, ubint, ipAttr, binAttr, binSizeRaw, binPackRaw, Except.ok.injEq]
      omega
    rw [this, List.length_append, List.length_append, h20]
  · simp only [List.length_append, h20]
  · intro pre
    have := C37_unpack (p.options ++ p.data) f1 (show 5 + p.options.length / 4 < 16 by omega) f2 f3 hl f4 f5 f6 f7 f8 (show chk < 65536 by omega) hls hld pre
    rw [List.append_assoc, this]
    have e : (5 + p.options.length / 4 - 5) * 4 = p.options.length := by omega
    rw [e, List.take_left, List.drop_left]

example := C37_roundtrip (s := [10, 0, 0, 1]) (d := [0, 0, 0, 0])
  (p := { ttl := 64, protocol := 6, source := "10.0.0.1".toList, options := [1, 2, 3, 4, 5, 6, 7, 8], data := [0xca, 0xfe] })
  (by refine ⟨?_, ?_, ?_, ?_, ?_, ?_, ?_, ?_⟩ <;> decide +kernel) rfl (by decide) (by decide) (by decide +kernel) (by decide +kernel)
  (by decide +kernel) (by decide +kernel) (by decide)

/-- C23 (packing an IPv4 object twice, without options).  The second `pack` gives the same bytes, and the object does not change any more. -/
theorem C23_ipv4 {p : IPv4} {b : Bytes} {p' : IPv4} (ho : p.options = []) (h : p.pack = .ok (b, p')) : p'.pack = .ok (b, p') := by
  unfold IPv4.pack at h ⊢
  rw [if_pos ho] at h
  revert h
  cases hc : ipv4Checksum (p.version <<< 4 ||| p.ihl) (p.dscp <<< 2 ||| p.ecn) (p.ihl * 4 + p.data.length) p.identification
      (p.flags <<< 13 ||| p.offset) p.ttl p.protocol p.source p.destination with
  | error e => intro h; simp [hc] at h
  | ok c =>
    simp only [hc]
    cases hq : packAttrs ipv4Fields [.int (p.version <<< 4 ||| p.ihl : Nat), .int (p.dscp <<< 2 ||| p.ecn : Nat), .int (p.ihl * 4 + p.data.length : Nat),
        .int p.identification, .int (p.flags <<< 13 ||| p.offset : Nat), .int p.ttl, .int p.protocol, .int c, .str p.source, .str p.destination,
        .bytes p.options, .bytes p.data] with
    | error e => intro h; simp [hq, Except.map] at h
    | ok out =>
      intro h
      simp only [hq, Except.map, Except.ok.injEq, Prod.mk.injEq] at h
      obtain ⟨rfl, rfl⟩ := h
      simp only [ho, if_true, hc] at hq ⊢
      simp only [hq, Except.map]

example : ∃ r, IPv4.pack { ttl := 64, source := "10.0.0.1".toList, data := [0xca, 0xfe] } = .ok r ∧ r.2.pack = .ok r :=
  (isOk_iff.1 (by decide +kernel)).imp fun _ h => ⟨h, C23_ipv4 rfl h⟩

/-- C37 (short buffers).  Fewer than twenty bytes at the offset raise `UnpackException`; only an empty buffer raises something else. -/
theorem C37_short (buff : Bytes) (off : Nat) :
    (¬ off + 20 ≤ buff.length → buff ≠ [] → IPv4.unpack buff off = .error .unpack) ∧ (buff = [] → IPv4.unpack buff off = .error .type) := by
  constructor
  · intro h hne
    have hf : AllFixed (ipv4Fields.take 10) 20 :=
      .cons (fixed_num _) <| .cons (fixed_num _) <| .cons (fixed_num _) <| .cons (fixed_num _) <| .cons (fixed_num _) <| .cons (fixed_num _) <|
      .cons (fixed_num _) <| .cons (fixed_num _) <| .cons (fixed_ip _ _) <| .one (fixed_ip _ _)
    have : unpackAttrs ipv4Fields buff off = .error .unpack := hf.short (ipv4Fields.drop 10) hne h
    simp only [IPv4.unpack, this]
  · intro h; subst h; rfl

example := (C37_short [0x45, 0, 0, 20] 0).1 (by decide) (by decide)

/-- The bytes packed, and the bytes packed by the second call. -/
def packTwice (p : IPv4) : Option (Bytes × Bytes) :=
  match p.pack with
  | .ok (b, p') =>
    match p'.pack with
    | .ok (b', _) => some (b, b')
    | .error _ => none
  | .error _ => none

/-- C37: with options the checksum leaves them out, so that the sum over the whole header is not 0xffff. -/
theorem C37_counterexample :
    (packTwice { source := "10.0.0.1".toList, options := [1, 2, 3, 4] }).map (fun q => onesSum (q.1.take 24)) = some 1030 := by
  decide +kernel

/-- C23: with options every call of `pack` adds the options to the header length again. -/
theorem C23_ipv4_counterexample :
    (packTwice { source := "10.0.0.1".toList, options := [1, 2, 3, 4] }).map (fun q => (q.1.head?, q.2.head?)) = some (some 0x46, some 0x47) := by
  decide +kernel

private theorem num_pack_inv {w n : Nat} {x : Bytes} (h : (ubint w).pack (.int n) = .ok x) : n < 256 ^ w ∧ x = be w n := by
  have h : packNum w (.int n) = .ok x := h
  obtain ⟨-, h1, h2⟩ := packNum_ok.mp h
  exact ⟨h1, h2⟩

private theorem ipv4_length_bytes {vihl de len id : Nat} {fo ttl proto c : Val} {r : List Val} {b : Bytes}
    (h : packAttrs ipv4Fields (.int vihl :: .int de :: .int len :: .int id :: fo :: ttl :: proto :: c :: r) = .ok b) :
    (b.drop 2).take 2 = be 2 len ∧ len < 65536 := by
  obtain ⟨x1, y1, h1, t1, rfl⟩ := packAttrs_cons_inv h
  obtain ⟨x2, y2, h2, t2, rfl⟩ := packAttrs_cons_inv t1
  obtain ⟨x3, y3, h3, t3, rfl⟩ := packAttrs_cons_inv t2
  have e1 := (num_pack_inv h1).2
  have e2 := (num_pack_inv h2).2
  obtain ⟨l3, e3⟩ := num_pack_inv h3
  rw [p2] at l3
  refine ⟨?_, l3⟩
  have l1 : x1.length = 1 := by rw [e1, be_length]
  have l2 : x2.length = 1 := by rw [e2, be_length]
  have l3 : x3.length = 2 := by rw [e3, be_length]
  rw [← List.append_assoc, List.drop_left' (by simp [l1, l2]), List.take_left' l3, e3]

private theorem ipv4_pack_options {p p' : IPv4} {b : Bytes} (ho : 4 ≤ p.options.length) (h : p.pack = .ok (b, p')) :
    p'.options = p.options ∧ p'.data = p.data ∧ p'.ihl = p.ihl + p.options.length / 4 ∧
    (b.drop 2).take 2 = be 2 (p'.ihl * 4 + p.data.length) ∧ p'.ihl * 4 + p.data.length < 65536 := by
  have hne : p.options ≠ [] := by intro e; rw [e] at ho; simp at ho
  unfold IPv4.pack at h
  simp only [if_neg hne] at h
  split at h
  · cases h
  · rename_i c hc
    revert h
    generalize hq : packAttrs ipv4Fields _ = r
    intro h
    cases r with
    | error e => cases h
    | ok out =>
      simp only [Except.map, Except.ok.injEq, Prod.mk.injEq] at h
      obtain ⟨rfl, rfl⟩ := h
      exact ⟨rfl, rfl, rfl, ipv4_length_bytes hq⟩

/-- After the object `p'` was left by a call of `pack`, an object with the same header length, options and data packs to other bytes. -/
private theorem ipv4_options_differ {p p' q q' : IPv4} {b b' : Bytes} (ho : 4 ≤ p.options.length) (h : p.pack = .ok (b, p'))
    (h1 : q.options = p'.options) (h2 : q.data = p'.data) (h3 : q.ihl = p'.ihl) (h' : q.pack = .ok (b', q')) : b ≠ b' := by
  obtain ⟨a1, a2, a3, a4, a5⟩ := ipv4_pack_options ho h
  obtain ⟨-, -, c3, c4, c5⟩ := ipv4_pack_options (by rw [h1, a1]; exact ho) h'
  rintro rfl
  rw [a4, h2, a2] at c4
  have e := congrArg beVal c4
  rw [h2, a2] at c5
  rw [beVal_be_of_lt (by rw [p2]; exact a5), beVal_be_of_lt (by rw [p2]; exact c5), c3, h1, a1, h3] at e
  have : 1 ≤ p.options.length / 4 := by omega
  omega

/-- C23 (packing an IPv4 object twice, with options).  Each call adds the options to the header length again, so when both calls succeed they
never give the same bytes.  (`pack` divides the length of the options by four, so shorter options do not count.) -/
theorem C23_ipv4_options {p p' p'' : IPv4} {b b' : Bytes} (ho : 4 ≤ p.options.length) (h : p.pack = .ok (b, p')) (h' : p'.pack = .ok (b', p'')) :
    b ≠ b' := ipv4_options_differ ho h rfl rfl rfl h'

/-- C37 (decoding and packing again, with options).  A packet with options that was packed and decoded never packs to the same bytes again. -/
theorem C37_reencode {p p' q q' : IPv4} {s d b b' : Bytes} (hf : IPv4Fits p) (hi : p.ihl = 5) (ho : p.options.length % 4 = 0)
    (ho2 : p.options.length ≤ 40) (hs : (ipAttr).pack (.str p.source) = .ok s) (hd : (ipAttr).pack (.str p.destination) = .ok d)
    (ns : '/' ∉ p.source) (nd : '/' ∉ p.destination) (hl : 20 + p.options.length + p.data.length < 65536) (hne : p.options ≠ [])
    (h : p.pack = .ok (b, p')) (hq : IPv4.unpack b 0 = .ok q) (h' : q.pack = .ok (b', q')) : b' ≠ b := by
  obtain ⟨b1, p1, g1, -, -, g2, -⟩ := C37_roundtrip hf hi ho ho2 hs hd ns nd hl
  cases h.symm.trans g1
  have e := g2 []
  cases hq.symm.trans e
  have hpos : 0 < p.options.length := by
    cases hp : p.options with
    | nil => exact absurd hp hne
    | cons x r => simp
  exact (ipv4_options_differ (by omega) h (by rfl) (by rfl) (by rfl) h').symm

/-- A packet with options meeting the hypotheses of `C37_reencode`: the second packet announces 28 bytes of header. -/
example : (match IPv4.pack { source := "10.0.0.1".toList, options := [1, 2, 3, 4] } with
    | .ok (b, _) => (match IPv4.unpack b 0 with
      | .ok q => (match q.pack with | .ok (b', _) => some (b.take 4, b'.take 4) | _ => none)
      | _ => none)
    | _ => none) = some ([0x46, 0, 0, 24], [0x47, 0, 0, 28]) := by decide +kernel

/-! ## C38 -/

/-- The fixed header of RFC 8200. -/
def ipv6Header (version tclass flabel length nextHeader hopLimit : Nat) (src dst : Bytes) : Bytes :=
  be 4 (version * 2 ^ 28 + tclass * 2 ^ 20 + flabel) ++ be 2 length ++ be 1 nextHeader ++ be 1 hopLimit ++ src ++ dst

private theorem p4 : (256 : Nat) ^ 4 = 4294967296 := by decide

private theorem ipv6Word_eq (v : Nat) {c f : Nat} (h2 : c < 256) (h3 : f < 2 ^ 20) : ipv6Word v c f = v * 2 ^ 28 + c * 2 ^ 20 + f := by
  have a : v <<< 28 ||| c <<< 20 = (v * 2 ^ 8 + c) <<< 20 := by
    rw [Nat.shiftLeft_eq c, or_shl _ _ 28 (by omega), Nat.shiftLeft_eq]; omega
  rw [ipv6Word, a, or_shl _ _ 20 h3]; omega

/-- C38 (packing).  With the fields in range and addresses that pack, an IPv6 object packs to the header with the length of the data, and the
data. -/
theorem C38_pack {p : IPv6} {s d : Bytes} (h1 : p.version < 16) (h2 : p.tclass < 256) (h3 : p.flabel < 2 ^ 20) (h4 : p.nextHeader < 256)
    (h5 : p.hopLimit < 256) (hs : ip6Attr.pack p.source = .ok s) (hd : ip6Attr.pack p.destination = .ok d) (hl : p.data.length < 65536) :
    p.pack = .ok (ipv6Header p.version p.tclass p.flabel p.data.length p.nextHeader p.hopLimit s d ++ p.data,
      { p with length := p.data.length }) := by
  have e1 := ipv6Word_eq p.version h2 h3
  have l1 : p.version * 2 ^ 28 + p.tclass * 2 ^ 20 + p.flabel < 256 ^ 4 := by rw [p4]; omega
  have l2 : p.data.length < 256 ^ 2 := by rw [p2]; omega
  have l3 : p.nextHeader < 256 ^ 1 := by rw [p1]; omega
  have l4 : p.hopLimit < 256 ^ 1 := by rw [p1]; omega
  have hp := packAttrs_cons (name := "_version_tclass_flabel") (num_pack' l1) <| packAttrs_cons (name := "length") (num_pack' l2) <|
    packAttrs_cons (name := "next_header") (num_pack' l3) <| packAttrs_cons (name := "hop_limit") (num_pack' l4) <|
    packAttrs_cons (name := "source") hs <| packAttrs_cons (name := "destination") hd <|
    packAttrs_cons (name := "data") (show (binAttr).pack (.bytes p.data) = .ok p.data from rfl) (rfl : packAttrs [] [] = .ok [])
  have hp2 : packAttrs ipv6Fields _ = .ok _ := hp
  simp only [IPv6.pack, e1]
  rw [hp2]
  simp only [Except.map, ipv6Header, List.append_assoc, List.append_nil]

example := C38_pack (p := { tclass := 3, flabel := 0xabcde, nextHeader := 6, hopLimit := 64, source := .ip6 (.str "fe80:0:0:0:0:0:0:1".toList) 64, data := [1, 2] })
  (s := [0xfe, 0x80, 0, 0, 0, 0, 0, 0, 0, 0, 0, 0, 0, 0, 0, 1]) (d := List.replicate 16 0) (by decide) (by decide) (by decide) (by decide) (by decide)
  (by decide +kernel) (by decide +kernel) (by decide)

/-- C38 (decoding).  A header with its fields in range, followed by the rest of the buffer, decodes to these fields and the rest as data. -/
theorem C38_unpack {v c f len nh hl : Nat} {s d : Bytes} (data : Bytes) (h1 : v < 16) (h2 : c < 256) (h3 : f < 2 ^ 20) (h4 : len < 65536)
    (h5 : nh < 256) (h6 : hl < 256) (hs : s.length = 16) (hd : d.length = 16) (pre : Bytes) :
    IPv6.unpack (pre ++ (ipv6Header v c f len nh hl s d ++ data)) pre.length =
      .ok { version := v, tclass := c, flabel := f, length := len, nextHeader := nh, hopLimit := hl, source := .str (ip6Text s),
            destination := .str (ip6Text d), data := data } := by
  obtain ⟨W, hW⟩ : ∃ W, W = v * 2 ^ 28 + c * 2 ^ 20 + f := ⟨_, rfl⟩
  have hh : ipv6Header v c f len nh hl s d = be 4 W ++ be 2 len ++ be 1 nh ++ be 1 hl ++ s ++ d := by rw [ipv6Header, hW]
  have l1 : W < 256 ^ 4 := by rw [p4]; omega
  have hf := fieldsAt_cons (name := "_version_tclass_flabel") (at_num .none l1) <|
    fieldsAt_cons (name := "length") (at_num (w := 2) .none (by rw [p2]; exact h4)) <|
    fieldsAt_cons (name := "next_header") (at_num (w := 1) .none (by rw [p1]; exact h5)) <|
    fieldsAt_cons (name := "hop_limit") (at_num (w := 1) .none (by rw [p1]; exact h6)) <|
    fieldsAt_cons (name := "source") (at_ip6 hs) <| fieldsAt_cons (name := "destination") (at_ip6 hd) <|
    fieldsAt_rest (name := "data") (d := .none) data
  have hf2 : FieldsAt ipv6Fields _ _ true := hf
  have eb : ipv6Header v c f len nh hl s d ++ data =
      be 4 (W) ++ (be 2 len ++ (be 1 nh ++ (be 1 hl ++ (s ++ (d ++ data))))) := by
    simp only [hh, List.append_assoc]
  have hu := hf2 pre [] (fun _ => rfl) (by
    intro h; have := congrArg List.length h; simp only [List.length_append, be_length, List.length_nil] at this; omega)
  rw [List.append_nil, ← eb] at hu
  have dn : ∀ (w n : Nat), decNum (.ub w (.int n)) = .ok n := fun _ _ => rfl
  have a1 : (W) >>> 28 = v := by rw [shr]; omega
  have a2 : (W) >>> 20 &&& 255 = c := by rw [shr, and_mask _ 8 255 (by decide)]; omega
  have a3 : (W) &&& 1048575 = f := by rw [and_mask _ 20 1048575 (by decide)]; omega
  simp only [IPv6.unpack, hu, dn, decText, decBytes, a1, a2, a3, bind, Except.bind, pure, Except.pure]

example := C38_unpack (v := 6) (c := 3) (f := 0xabcde) (len := 2) (nh := 6) (hl := 64) (s := [0xfe, 0x80, 0, 0, 0, 0, 0, 0, 0, 0, 0, 0, 0, 0, 0, 1])
  (d := List.replicate 16 0) [1, 2] (by decide) (by decide) (by decide) (by decide) (by decide) (by decide) rfl rfl [9]

/-- C38 (round trip).  What such an object packs to decodes, at the end of any buffer, to the same fields, with the addresses in canonical
form; that object packs to the same bytes, and so does packing twice. -/
theorem C38_roundtrip {p : IPv6} {s d : Bytes} (h1 : p.version < 16) (h2 : p.tclass < 256) (h3 : p.flabel < 2 ^ 20) (h4 : p.nextHeader < 256)
    (h5 : p.hopLimit < 256) (hs : ip6Attr.pack p.source = .ok s) (hd : ip6Attr.pack p.destination = .ok d) (hl : p.data.length < 65536) :
    ∃ b p', p.pack = .ok (b, p') ∧ p.size = .ok b.length ∧ p' = { p with length := p.data.length } ∧
      (∀ pre, IPv6.unpack (pre ++ b) pre.length = .ok { p' with source := .str (ip6Text s), destination := .str (ip6Text d) }) ∧
      IPv6.pack { p' with source := .str (ip6Text s), destination := .str (ip6Text d) } =
        .ok (b, { p' with source := .str (ip6Text s), destination := .str (ip6Text d) }) ∧
      p'.pack = .ok (b, p') := by
  have hls := (C05_ipv6_pack _ _ hs).1
  have hld := (C05_ipv6_pack _ _ hd).1
  refine ⟨_, _, C38_pack h1 h2 h3 h4 h5 hs hd hl, ?_, rfl, ?_, ?_, ?_⟩
  · simp only [ipv6Header, List.length_append, be_length, hls, hld, IPv6.size, sizeAttrs, ipv6Fields, ubint, ip6Attr, binAttr, binSizeRaw, binPackRaw]; congr 1; omega
  · intro pre
    exact C38_unpack p.data h1 h2 h3 hl h4 h5 hls hld pre
  · exact C38_pack (p := { p with length := p.data.length, source := .str (ip6Text s), destination := .str (ip6Text d) }) h1 h2 h3 h4 h5
      (ip6PackRaw_text hls) (ip6PackRaw_text hld) hl
  · exact C38_pack (p := { p with length := p.data.length }) h1 h2 h3 h4 h5 hs hd hl

example := C38_roundtrip (p := { tclass := 3, flabel := 0xabcde, nextHeader := 6, hopLimit := 64, source := .ip6 (.str "fe80:0:0:0:0:0:0:1".toList) 64, data := [1, 2] })
  (s := [0xfe, 0x80, 0, 0, 0, 0, 0, 0, 0, 0, 0, 0, 0, 0, 0, 1]) (d := List.replicate 16 0) (by decide) (by decide) (by decide) (by decide) (by decide)
  (by decide +kernel) (by decide +kernel) (by decide)

/-- C23 (packing an IPv6 object twice).  The second `pack` gives the same bytes, and the object does not change any more. -/
theorem C23_ipv6 {p p' : IPv6} {b : Bytes} (h : p.pack = .ok (b, p')) : p'.pack = .ok (b, p') := by
  obtain ⟨vs, hv⟩ : ∃ vs, vs = [Val.int (ipv6Word p.version p.tclass p.flabel), .int p.data.length, .int p.nextHeader, .int p.hopLimit, p.source,
      p.destination, .bytes p.data] := ⟨_, rfl⟩
  have e : p.pack = (packAttrs ipv6Fields vs).map fun b => (b, { p with length := p.data.length }) := by rw [hv]; rfl
  rw [e] at h
  cases hq : packAttrs ipv6Fields vs with
  | error e => rw [hq] at h; cases h
  | ok out =>
    rw [hq] at h
    cases h
    have e' : IPv6.pack { p with length := p.data.length } =
      (packAttrs ipv6Fields vs).map fun b => (b, { p with length := p.data.length }) := by rw [hv]; rfl
    rw [e', hq]
    rfl

example : ∃ r, IPv6.pack { tclass := 3, source := .ip6 (.str "fe80:0:0:0:0:0:0:1".toList) 64, data := [1, 2] } = .ok r ∧ r.2.pack = .ok r :=
  (isOk_iff.1 (by decide +kernel)).imp fun _ h => ⟨h, C23_ipv6 h⟩

/-- C38 (short buffers). -/
theorem C38_short (buff : Bytes) (off : Nat) :
    (¬ off + 40 ≤ buff.length → buff ≠ [] → IPv6.unpack buff off = .error .unpack) ∧ (buff = [] → IPv6.unpack buff off = .error .type) := by
  constructor
  · intro h hne
    have hf : AllFixed (ipv6Fields.take 6) 40 :=
      .cons (fixed_num _) <| .cons (fixed_num _) <| .cons (fixed_num _) <| .cons (fixed_num _) <| .cons fixed_ip6 <| .one fixed_ip6
    have : unpackAttrs ipv6Fields buff off = .error .unpack := hf.short (ipv6Fields.drop 6) hne h
    simp only [IPv6.unpack, this]
  · intro h; subst h; rfl

/-- Addresses meeting the hypotheses, as objects and as text. -/
example : ip6Attr.pack (.ip6 (.str "fe80:0:0:0:0:0:0:1".toList) 64) = .ok [0xfe, 0x80, 0, 0, 0, 0, 0, 0, 0, 0, 0, 0, 0, 0, 0, 1] ∧
    ip6Attr.pack (.str "0:0:0:0:0:0:0:2".toList) = .ok [0, 0, 0, 0, 0, 0, 0, 0, 0, 0, 0, 0, 0, 0, 0, 2] := by
  constructor <;> decide +kernel

example {p' p'' : IPv4} {b b' : Bytes} := C23_ipv4_options (p := { source := "10.0.0.1".toList, options := [1, 2, 3, 4] }) (p' := p') (p'' := p'')
  (b := b) (b' := b') (by decide)

end Pyof.Props
