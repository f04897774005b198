import Verif.Model.Network
import Verif.Lemmas.Reads
import Verif.Props.Compare
/-!
# C40 ARP
-/
namespace Pyof.Props
open Pyof Net

/-! ## C40 ARP -/

private theorem eq_number {v w : Val} {i j : Int} (hn : number v = some i) (hw : builtinNum w = some j) (hc : gclass w = none)
    (h : pyEq v w = .ok true) : i = j := by
  have key : ∀ x, builtinNum x = some i → builtinEq x w = .ok true → i = j := by
    intro x hx h
    simp only [builtinEq, hx, hw, Except.ok.injEq, beq_iff_eq] at h
    exact h
  have gen : ∀ x, gclass v = some x → builtinNum (gval v) = some i → i = j := by
    intro x hx hv
    simp only [pyEq, hx, Option.isSome_some, if_true, genericEq, hc] at h
    simp only [reduceCtorEq, if_false, Option.isSome_none, Bool.false_eq_true] at h
    exact key _ hv h
  cases v with
  | int k =>
    cases hn
    have hg : gclass (.int i) = none := rfl
    simp only [pyEq, hg, hc] at h
    exact key _ rfl (by simpa using h)
  | enum k =>
    cases hn
    have hg : gclass (.enum i) = none := rfl
    simp only [pyEq, hg, hc] at h
    exact key _ rfl (by simpa using h)
  | ub w x => cases x <;> first | (cases hn; exact gen _ rfl rfl) | (simp [number] at hn)
  | hw x => cases x <;> first | (cases hn; exact gen _ rfl rfl) | (simp [number] at hn)
  | ip x m => cases x <;> first | (cases hn; exact gen _ rfl rfl) | (simp [number] at hn)
  | ip6 x m => cases x <;> first | (cases hn; exact gen _ rfl rfl) | (simp [number] at hn)
  | dpid x => cases x <;> first | (cases hn; exact gen _ rfl rfl) | (simp [number] at hn)
  | chr x n => cases x <;> first | (cases hn; exact gen _ rfl rfl) | (simp [number] at hn)
  | bin x => cases x <;> first | (cases hn; exact gen _ rfl rfl) | (simp [number] at hn)
  | _ => cases hn

/-- The object an ARP packet decodes to. -/
def arpObject (hlen plen oper : Nat) (sha spa tha tpa : Bytes) : List Val :=
  [.ub 2 (.int (1 : Nat)), .ub 2 (.int (0x0800 : Nat)), .ub 1 (.int hlen), .ub 1 (.int plen), .ub 2 (.int oper), .hw (.str (colonHex sha)),
   .ip (.str (dotted spa)) 32, .hw (.str (colonHex tha)), .ip (.str (dotted tpa)) 32]

theorem arp_valid (m n : Nat) (rest : List Val) :
    arpIsValid (.ub 2 (.int m) :: .ub 2 (.int n) :: rest) = .ok (decide (m = 1 ∧ n = 0x0800)) := by
  have h1 : pyEq (.ub 2 (.int m)) (.int 1) = .ok ((m : Int) == 1) := C43_eq (i := m) rfl rfl (fun h => by cases h)
  have h2 : pyEq (.ub 2 (.int n)) (.enum 0x0800) = .ok ((n : Int) == 0x0800) := C43_eq (i := n) rfl rfl (fun h => by cases h)
  simp only [arpIsValid, h1, h2]
  by_cases e : m = 1
  · subst e
    by_cases e2 : n = 0x0800
    · subst e2; rfl
    · have : ¬ (n : Int) = 0x0800 := by omega
      simp [this, e2]
  · have : ¬ (m : Int) = 1 := by omega
    simp [beq_eq_false_iff_ne.mpr this, e]

/-- C40.  Whatever ARP object packs: the packet is the 28 bytes of RFC 826 for Ethernet and IPv4, `get_size` is 28, and unpacking the
packet anywhere gives an object with the same numbers and addresses, which packs to the same bytes. -/
theorem C40_roundtrip {h p hl pl op sha spa tha tpa : Val} {b : Bytes} (hp : arpPack [h, p, hl, pl, op, sha, spa, tha, tpa] = .ok b) :
    ∃ (nhl npl nop : Nat) (bsha bspa btha btpa : Bytes),
      b = [0, 1, 8, 0] ++ be 1 nhl ++ be 1 npl ++ be 2 nop ++ bsha ++ bspa ++ btha ++ btpa ∧ b.length = 28 ∧
      arpSize [h, p, hl, pl, op, sha, spa, tha, tpa] = .ok 28 ∧
      number h = some 1 ∧ number p = some 0x0800 ∧ number hl = some (nhl : Int) ∧ number pl = some (npl : Int) ∧
      number op = some (nop : Int) ∧ hwAttr.pack sha = .ok bsha ∧ (ipAttr).pack spa = .ok bspa ∧ hwAttr.pack tha = .ok btha ∧
      (ipAttr).pack tpa = .ok btpa ∧
      (∀ pre post, arpUnpack (pre ++ b ++ post) pre.length = .ok (arpObject nhl npl nop bsha bspa btha btpa)) ∧
      arpPack (arpObject nhl npl nop bsha bspa btha btpa) = .ok b := by
  unfold arpPack at hp
  cases hv : arpIsValid [h, p, hl, pl, op, sha, spa, tha, tpa] with
  | error e => simp [hv] at hp
  | ok t =>
    cases t with
    | false => simp [hv] at hp
    | true =>
      simp only [hv] at hp
      unfold arpFields at hp
      obtain ⟨b1, r1, e1, hp1, rfl⟩ := packAttrs_cons_inv hp
      obtain ⟨b2, r2, e2, hp2, rfl⟩ := packAttrs_cons_inv hp1
      obtain ⟨b3, r3, e3, hp3, rfl⟩ := packAttrs_cons_inv hp2
      obtain ⟨b4, r4, e4, hp4, rfl⟩ := packAttrs_cons_inv hp3
      obtain ⟨b5, r5, e5, hp5, rfl⟩ := packAttrs_cons_inv hp4
      obtain ⟨b6, r6, e6, hp6, rfl⟩ := packAttrs_cons_inv hp5
      obtain ⟨b7, r7, e7, hp7, rfl⟩ := packAttrs_cons_inv hp6
      obtain ⟨b8, r8, e8, hp8, rfl⟩ := packAttrs_cons_inv hp7
      obtain ⟨b9, r9, e9, hp9, rfl⟩ := packAttrs_cons_inv hp8
      cases hp9
      obtain ⟨n1, m1, l1, rfl⟩ := num_pack e1
      obtain ⟨n2, m2, l2, rfl⟩ := num_pack e2
      obtain ⟨n3, m3, l3, rfl⟩ := num_pack e3
      obtain ⟨n4, m4, l4, rfl⟩ := num_pack e4
      obtain ⟨n5, m5, l5, rfl⟩ := num_pack e5
      have l6 := (C03_mac_pack _ _ _ e6).1
      have l7 := (C04_ipv4_pack _ _ _ _ e7).1
      have l8 := (C03_mac_pack _ _ _ e8).1
      have l9 := (C04_ipv4_pack _ _ _ _ e9).1
      have hv12 : pyEq h (.int 1) = .ok true ∧ pyEq p (.enum 0x0800) = .ok true := by
        simp only [arpIsValid] at hv
        cases hx : pyEq h (.int 1) with
        | error e => simp [hx] at hv
        | ok t => cases t <;> simp [hx] at hv; exact ⟨rfl, hv⟩
      have n1e := eq_number m1 (w := .int 1) rfl rfl hv12.1
      have n2e := eq_number m2 (w := .enum 0x0800) rfl rfl hv12.2
      have n1e : n1 = 1 := by omega
      have n2e : n2 = 0x0800 := by omega
      subst n1e n2e
      have b1e : be 2 1 = [0, 1] := by decide
      have b2e : be 2 0x0800 = [8, 0] := by decide
      have hlen : (be 2 1 ++ (be 2 0x0800 ++ (be 1 n3 ++ (be 1 n4 ++ (be 2 n5 ++ (b6 ++ (b7 ++ (b8 ++ (b9 ++ []))))))))).length = 28 := by
        simp [l6, l7, l8, l9]
      refine ⟨n3, n4, n5, b6, b7, b8, b9, ?_, hlen, rfl, m1, m2, m3, m4, m5, e6, e7, e8, e9, ?_, ?_⟩
      · rw [b1e, b2e]; simp
      · intro pre post
        have hf : FieldsAt arpFields (be 2 1 ++ (be 2 0x0800 ++ (be 1 n3 ++ (be 1 n4 ++ (be 2 n5 ++ (b6 ++ (b7 ++ (b8 ++ (b9 ++ [])))))))))
            (arpObject n3 n4 n5 b6 b7 b8 b9) false :=
          fieldsAt_cons (at_num _ l1) <| fieldsAt_cons (at_num _ l2) <| fieldsAt_cons (at_num _ l3) <| fieldsAt_cons (at_num _ l4) <|
          fieldsAt_cons (at_num _ l5) <| fieldsAt_cons (at_hw _ l6) <| fieldsAt_cons (at_ip _ _ l7) <| fieldsAt_cons (at_hw _ l8) <|
          fieldsAt_cons (at_ip _ _ l9) fieldsAt_nil
        have := hf pre post (by simp) (by intro e; have := congrArg List.length e; simp only [List.length_append, hlen] at this; simp at this)
        have hv : arpIsValid (arpObject n3 n4 n5 b6 b7 b8 b9) = .ok true := arp_valid 1 0x0800 _
        simp only [arpUnpack, this, hv]
      · have hp : packAttrs arpFields (arpObject n3 n4 n5 b6 b7 b8 b9) =
            .ok (be 2 1 ++ (be 2 0x0800 ++ (be 1 n3 ++ (be 1 n4 ++ (be 2 n5 ++ (b6 ++ (b7 ++ (b8 ++ (b9 ++ []))))))))) := by
          have num : ∀ {w n : Nat}, n < 256 ^ w → (ubint w).pack (.ub w (.int n)) = .ok (be w n) := fun h => packNum_fit h
          exact packAttrs_cons (num l1) <| packAttrs_cons (num l2) <| packAttrs_cons (num l3) <| packAttrs_cons (num l4) <|
            packAttrs_cons (num l5) <| packAttrs_cons (hwPackRaw_colonHex l6) <| packAttrs_cons (ipPackRaw_dotted l7) <|
            packAttrs_cons (hwPackRaw_colonHex l8) <| packAttrs_cons (ipPackRaw_dotted l9) rfl
        have hv : arpIsValid (arpObject n3 n4 n5 b6 b7 b8 b9) = .ok true := arp_valid 1 0x0800 _
        simp only [arpPack, hv, hp]

/-- Requests and replies meet the hypotheses, in several spellings. -/
example : arpPack [.int 1, .enum 0x0800, .int 6, .int 4, .int 2, .str "0a:00:00:00:00:01".toList, .str "10.0.0.1".toList, .none,
      .ip (.str "10.0.0.2".toList) 24] =
    .ok [0, 1, 8, 0, 6, 4, 0, 2, 10, 0, 0, 0, 0, 1, 10, 0, 0, 1, 0, 0, 0, 0, 0, 0, 10, 0, 0, 2] := by decide +kernel

/-- C40 (decoding).  On any buffer at any offset: 28 bytes that begin with hardware type 1 and protocol type 0x0800 are accepted, and
everything else (other types, fewer bytes, an empty buffer) raises `UnpackException`. -/
theorem C40_decode (buff : Bytes) (off : Nat) :
    (off + 28 ≤ buff.length → slice buff off (off + 4) = [0, 1, 8, 0] →
      ∃ vs, arpUnpack buff off = .ok vs ∧ arpPack vs = .ok (slice buff off (off + 28))) ∧
    (¬ (off + 28 ≤ buff.length ∧ slice buff off (off + 4) = [0, 1, 8, 0]) → arpUnpack buff off = .error .unpack) := by
  have key : off + 28 ≤ buff.length → ∃ vs e rest, unpackAttrs arpFields buff off = .ok (vs, e) ∧
      packAttrs arpFields vs = .ok (slice buff off (off + 28)) ∧
      vs = .ub 2 (.int (beVal (slice buff off (off + 2)))) :: .ub 2 (.int (beVal (slice buff (off + 2) (off + 2 + 2)))) :: rest := by
    intro h
    have hne : buff ≠ [] := by intro e; subst e; simp at h
    have key : unpackAttrs arpFields buff off = .ok (_, _) ∧ packAttrs arpFields _ = .ok _ :=
      reads_cons (reads_num _ (by omega) hne) <|
      reads_cons (reads_num _ (by omega) hne) <|
      reads_cons (reads_num _ (by omega) hne) <|
      reads_cons (reads_num _ (by omega) hne) <|
      reads_cons (reads_num _ (by omega) hne) <|
      reads_cons (reads_hw (by omega) hne) <|
      reads_cons (reads_ip _ _ (by omega) hne) <|
      reads_cons (reads_hw (by omega) hne) <|
      reads_cons (reads_ip _ _ (by omega) hne) ⟨rfl, rfl⟩
    refine ⟨_, _, _, key.1, key.2.trans ?_, rfl⟩
    rw [List.append_nil, slice_join, slice_join, slice_join, slice_join, slice_join, slice_join, slice_join, slice_join] <;>
      first | omega | rfl
  have types : off + 28 ≤ buff.length → (beVal (slice buff off (off + 2)) = 1 ∧ beVal (slice buff (off + 2) (off + 2 + 2)) = 0x0800 ↔
      slice buff off (off + 4) = [0, 1, 8, 0]) := by
    intro h
    have l1 := slice_full_length (show off + 2 ≤ buff.length by omega)
    have l2 := slice_full_length (show off + 2 + 2 ≤ buff.length by omega)
    have e : slice buff off (off + 4) = slice buff off (off + 2) ++ slice buff (off + 2) (off + 2 + 2) := by
      rw [slice_join] <;> omega
    rw [e]
    have b1e : be 2 1 = [0, 1] := by decide
    have b2e : be 2 0x0800 = [8, 0] := by decide
    constructor
    · rintro ⟨h1, h2⟩
      rw [← be_beVal' l1, ← be_beVal' l2, h1, h2, b1e, b2e]; rfl
    · intro h
      obtain ⟨h1, h2⟩ := List.append_inj (s₂ := [0, 1]) (t₂ := [8, 0]) h (by rw [l1]; rfl)
      rw [h1, h2]; decide
  constructor
  · intro h ht
    obtain ⟨vs, e, rest, h1, h2, h3⟩ := key h
    have hv : arpIsValid vs = .ok true := by rw [h3, arp_valid, decide_eq_true ((types h).2 ht)]
    exact ⟨vs, by simp only [arpUnpack, h1, hv], by simp only [arpPack, hv, h2]⟩
  · intro hn
    by_cases h : off + 28 ≤ buff.length
    · obtain ⟨vs, e, rest, h1, h2, rfl⟩ := key h
      have ht : ¬ (beVal (slice buff off (off + 2)) = 1 ∧ beVal (slice buff (off + 2) (off + 2 + 2)) = 0x0800) :=
        fun ht => hn ⟨h, (types h).1 ht⟩
      simp only [arpUnpack, h1, arp_valid, ht, decide_false]
    · by_cases hne : buff = []
      · subst hne; rfl
      · have hf : AllFixed arpFields 28 :=
          .cons (fixed_num _) <| .cons (fixed_num _) <| .cons (fixed_num _) <| .cons (fixed_num _) <| .cons (fixed_num _) <|
          .cons (fixed_hw _) <| .cons (fixed_ip _ _) <| .cons (fixed_hw _) <| .one (fixed_ip _ _)
        have := hf.short [] hne h
        rw [List.append_nil] at this
        simp only [arpUnpack, this]

/-- C40.  Objects of other types do not pack: `ValidationError`. -/
example : arpPack [.int 6, .enum 0x0800, .int 6, .int 4, .int 2, .none, .none, .none, .none] = .error .validation ∧
    arpUnpack (List.replicate 40 0) 3 = .error .unpack := by decide +kernel

end Pyof.Props
