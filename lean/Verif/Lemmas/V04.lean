import Verif.Model.V04
import Verif.Spec.V04
import Verif.Lemmas.Layout
/-! OpenFlow 1.3: every class implements its format. -/
namespace Pyof.V04
open Spec

/-! ## OXM fields -/

theorem oxm_den_inv {v d} (h : Spec.V04.oxm.den v = some d) :
    ∃ c a b x f m cn fn mn xb, v = .obj "04.OxmTLV" [c, a, b, x, f, m] ∧ numOf c = some cn ∧ Spec.V04.fieldNum f = some fn ∧
      Spec.V04.maskNum m = some mn ∧ rest.den x = some (.raw xb) ∧ d = .record [.num cn, .num fn, .num mn, .raw xb] := by
  simp only [Spec.V04.oxm] at h
  split at h
  · split at h
    · rename_i hc
      subst hc
      split at h
      · rename_i cn fn mn dx h1 h2 h3 h4
        cases h
        obtain ⟨xb, rfl, _⟩ := rest_den_inv h4
        exact ⟨_, _, _, _, _, _, cn, fn, mn, xb, rfl, h1, h2, h3, h4, rfl⟩
      · cases h
    · cases h
  · cases h

theorem oxm_enc_inv {d b} (h : Spec.V04.oxm.enc d = some b) :
    ∃ c f m v, d = .record [.num c, .num f, .num m, .raw v] ∧ c < 65536 ∧ f < 128 ∧ (c = 0x8000 → f < 40) ∧ m < 2 ∧
      v.length < 256 ∧ b = be 2 c ++ be 1 (f * 2 + m) ++ be 1 v.length ++ v := by
  simp only [Spec.V04.oxm] at h
  split at h
  · split at h
    · rename_i hc
      cases h
      exact ⟨_, _, _, _, rfl, hc.1, hc.2.1, hc.2.2.1, hc.2.2.2.1, hc.2.2.2.2, rfl⟩
    · cases h
  · cases h

theorem fieldNum_inv {f n} (h : Spec.V04.fieldNum f = some n) : f = .int n ∨ f = .enum n := by
  cases f <;> simp [Spec.V04.fieldNum] at h
  · left; congr; omega
  · right; congr; omega

theorem fieldNum_cmp {f n} (h : Spec.V04.fieldNum f = some n) : cmpNum f = some (n : Int) := by
  rcases fieldNum_inv h with rfl | rfl <;> rfl

theorem maskNum_inv {f n} (h : Spec.V04.maskNum f = some n) : f = .int n ∧ n < 2 := by
  unfold Spec.V04.maskNum at h
  split at h <;> cases h <;> simp

/-- The field number of a TLV is what the specification says it is. -/
theorem oxmFieldInt_spec {c f cn fn} (hc : numOf c = some cn) (hf : Spec.V04.fieldNum f = some fn) (i : Int) :
    oxmFieldInt c f = .ok i ↔ i = fn ∧ fn < 128 ∧ (cn = 0x8000 → fn < 40) := by
  simp only [oxmFieldInt, cmpNum_num hc, fieldNum_cmp hf]
  by_cases h : cn = 0x8000
  · subst h
    simp only [Int.toNat_natCast, ofbFields, List.mem_range]
    rw [if_pos (show some ((32768 : Nat) : Int) = some 32768 from rfl)]
    by_cases h2 : fn < 40
    · rw [if_pos ⟨by omega, h2⟩]
      simp only [Except.ok.injEq]
      constructor
      · rintro rfl; exact ⟨rfl, by omega, fun _ => h2⟩
      · rintro ⟨rfl, _⟩; rfl
    · rw [if_neg (by omega)]
      simp [h2]
  · rw [if_neg (by intro h2; apply h; exact Int.ofNat.inj (Option.some.inj h2))]
    have key : (if (fn : Int) > 127 then (.error .pack : Res Int) else .ok fn) = .ok i ↔
        i = fn ∧ fn < 128 ∧ (cn = 0x8000 → fn < 40) := by
      by_cases h2 : fn < 128
      · rw [if_neg (by omega)]
        simp [h2, h, eq_comm]
      · rw [if_pos (by omega)]
        simp [h2]
    rcases fieldNum_inv hf with rfl | rfl <;> exact key

theorem enc_oxm : Enc oxm Spec.V04.oxm where
  pack := by
    intro v d hv b
    obtain ⟨c, a, l, x, f, m, cn, fn, mn, xb, rfl, hc, hf, hm, hx, rfl⟩ := oxm_den_inv hv
    obtain ⟨rfl, hm2⟩ := maskNum_inv hm
    have hxp := (enc_rest.pack x _ hx xb).mpr rfl
    have hff := oxmFieldInt_spec hc hf
    have p1 : (256 : Nat) ^ 1 = 256 := by decide
    have p2 : (256 : Nat) ^ 2 = 65536 := by decide
    simp only [oxm, if_true, oxmPack, oxmPrep]
    simp only [Spec.V04.oxm]
    cases hi : oxmFieldInt c f with
    | error e =>
      have : ¬ (fn < 128 ∧ (cn = 0x8000 → fn < 40)) := by
        intro h
        have := (hff fn).mpr ⟨rfl, h⟩
        rw [hi] at this; cases this
      rw [if_neg (by intro h; exact this ⟨h.2.1, h.2.2.1⟩)]
      simp
    | ok i =>
      obtain ⟨rfl, h1, h2⟩ := (hff i).mp hi
      have e1 : (fn : Int) * 2 + (mn : Int) % 2 = ((fn * 2 + mn : Nat) : Int) := by omega
      have hxp' := hxp
      simp only [cmpNum, hxp, e1]
      simp only [oxmFields, packAttrs_cons, packAttrs_nil, ubint, ubPack_num hc, hxp,
        ubPack_num (show numOf (.int ((fn * 2 + mn : Nat) : Int)) = some (fn * 2 + mn) by simp [numOf]; omega),
        ubPack_num (show numOf (.int (xb.length : Int)) = some xb.length by simp [numOf]),
        packNum_ok, Int.toNat_natCast, p1, p2]
      constructor
      · rintro ⟨_, _, ⟨_, g1, rfl⟩, ⟨_, _, ⟨_, g2, rfl⟩, ⟨_, _, ⟨_, g3, rfl⟩, ⟨_, _, g4, rfl, rfl⟩, rfl⟩, rfl⟩, rfl⟩
        cases g4
        rw [if_pos ⟨g1, h1, h2, hm2, g3⟩]
        simp
      · intro h
        split at h
        · rename_i hh
          cases h
          exact ⟨_, _, ⟨by omega, hh.1, rfl⟩, ⟨_, _, ⟨by omega, by omega, rfl⟩, ⟨_, _, ⟨by omega, hh.2.2.2.2, rfl⟩,
            ⟨_, _, rfl, rfl, rfl⟩, rfl⟩, rfl⟩, by simp⟩
        · cases h
  size := by
    intro v d b hv he
    obtain ⟨c, a, l, x, f, m, cn, fn, mn, xb, rfl, hc, hf, hm, hx, rfl⟩ := oxm_den_inv hv
    obtain ⟨c', f', m', v', h1, h2, h3, h4, h5, h6, rfl⟩ := oxm_enc_inv he
    cases h1
    have hxs := enc_rest.size x _ xb hx rfl
    simp only [oxm, if_true, oxmFields, sizeAttrs, ubint, hxs]
    simp
  usize := by
    intro v d b _ hv he
    obtain ⟨c, a, l, x, f, m, cn, fn, mn, xb, rfl, hc, hf, hm, hx, rfl⟩ := oxm_den_inv hv
    obtain ⟨c', f', m', v', h1, h2, h3, h4, h5, h6, rfl⟩ := oxm_enc_inv he
    cases h1
    have hxs := enc_rest.size x _ xb hx rfl
    simp only [oxm, if_true, oxmFields, sizeAttrs, ubint, hxs]
    simp

theorem nonEmpty_oxm : NonEmpty Spec.V04.oxm := by
  intro d h
  obtain ⟨c', f', m', v', h1, h2, h3, h4, h5, h6, h7⟩ := oxm_enc_inv h
  have := congrArg List.length h7
  simp at this
  omega

theorem oxmUnpack_spec {c k : Nat} {v : Bytes} (pre post : Bytes) (hc : c < 65536) (hm : c ∈ oxmClasses) (hk : k < 256)
    (hv : v.length < 256) (hf : c = 0x8000 → k / 2 < 40) :
    oxmUnpack (pre ++ (be 2 c ++ be 1 k ++ be 1 v.length ++ v) ++ post) pre.length =
      .ok (.obj "04.OxmTLV" [.ub 2 (.enum c), .ub 1 (.int k), .ub 1 (.int v.length), .bytes v,
        if c = 0x8000 then .enum (k / 2 : Nat) else .int (k / 2 : Nat), .int (k % 2 : Nat)]) := by
  have p1 : (256 : Nat) ^ 1 = 256 := by decide
  have p2 : (256 : Nat) ^ 2 = 65536 := by decide
  have e1 := ubUnpack_be (w := 2) (.enum oxmClasses) pre (be 1 k ++ be 1 v.length ++ v ++ post) (n := c) (by omega) (off := pre.length) rfl
  have e2 := ubUnpack_be (w := 1) .none (pre ++ be 2 c) (be 1 v.length ++ v ++ post) (n := k) (by omega) (off := pre.length + 2) (by simp)
  have e3 := ubUnpack_be (w := 1) .none (pre ++ be 2 c ++ be 1 k) (v ++ post) (n := v.length) (by omega) (off := pre.length + 3) (by simp)
  have hs : slice (pre ++ (be 2 c ++ be 1 k ++ be 1 v.length ++ v) ++ post) (pre.length + 4) (pre.length + 4 + v.length) = v := by
    have := slice_between (a := pre ++ be 2 c ++ be 1 k ++ be 1 v.length) (b := v) (c := post)
    simpa [Nat.add_assoc] using this
  have hne : pre ++ (be 2 c ++ be 1 k ++ be 1 v.length ++ v) ++ post ≠ [] := by simp [be]
  generalize hb : pre ++ (be 2 c ++ be 1 k ++ be 1 v.length ++ v) ++ post = buff at hs hne ⊢
  have hb1 : pre ++ be 2 c ++ (be 1 k ++ be 1 v.length ++ v ++ post) = buff := by rw [← hb]; simp
  have hb2 : pre ++ be 2 c ++ be 1 k ++ (be 1 v.length ++ v ++ post) = buff := by rw [← hb]; simp
  have hb3 : pre ++ be 2 c ++ be 1 k ++ be 1 v.length ++ (v ++ post) = buff := by rw [← hb]; simp
  rw [hb1] at e1; rw [hb2] at e2; rw [hb3] at e3
  simp only [refApply, if_pos hm] at e1 e2 e3
  simp only [oxmUnpack, oxmFields, unpackAttrs, unpackAttr, if_neg hne, ubint, e1, e2, e3, binAttr, binSizeRaw, binPackRaw, Nat.add_assoc]
  simp only [Int.toNat_natCast, Nat.add_assoc] at hs ⊢
  rw [hs]
  have h2 : cmpNum (.ub 2 (.enum (c : Int))) = some (c : Int) := rfl
  rw [h2]
  by_cases h : c = 0x8000
  · subst h
    rw [if_pos (show some ((32768 : Nat) : Int) = some 32768 from rfl), if_pos (by simp [ofbFields]; exact hf rfl), if_pos rfl]
    simp
  · rw [if_neg (by intro h2; apply h; exact Int.ofNat.inj (Option.some.inj h2)), if_neg h]
    simp

theorem dec_oxm : Dec oxm Spec.V04.oxm false where
  unpack := by
    intro d b pre post he ho _ hne
    obtain ⟨c, f, m, v, rfl, h1, h2, h3, h4, h5, rfl⟩ := oxm_enc_inv he
    have hm : c ∈ oxmClasses := by
      simp only [Spec.V04.oxm] at ho
      simp [oxmClasses]; omega
    have e1 : (f * 2 + m) / 2 = f := by omega
    have e2 : (f * 2 + m) % 2 = m := by omega
    refine ⟨_, oxmUnpack_spec pre post h1 hm (k := f * 2 + m) (by omega) h5 (by rw [e1]; exact h3), ?_, by simp⟩
    rw [e1, e2]
    have hm2 : Spec.V04.maskNum (.int m) = some m := by
      rcases (by omega : m = 0 ∨ m = 1) with rfl | rfl <;> rfl
    have hf2 : Spec.V04.fieldNum (if c = 0x8000 then .enum f else .int f) = some f := by
      split <;> simp [Spec.V04.fieldNum]
    have hc2 : numOf (.ub 2 (.enum c)) = some c := by simp [numOf]
    simp [Spec.V04.oxm, hm2, hf2, hc2, rest]
  empty := fun d he => absurd he (nonEmpty_oxm d)

theorem itemOk_oxm : ItemOk (isObj "04.OxmTLV") Spec.V04.oxm where
  isItem := by
    intro x d hx
    obtain ⟨c, a, l, x, f, m, cn, fn, mn, xb, rfl, _⟩ := oxm_den_inv hx
    simp [isObj]
  notList := by
    intro x d hx
    obtain ⟨c, a, l, x, f, m, cn, fn, mn, xb, rfl, _⟩ := oxm_den_inv hx
    simp

theorem enc_oxms : Enc oxms Spec.V04.oxms := enc_list enc_oxm itemOk_oxm
theorem dec_oxms : Dec oxms Spec.V04.oxms true := dec_list enc_oxm dec_oxm nonEmpty_oxm
macro_rules | `(tactic| enc1) => `(tactic| exact enc_oxms)
macro_rules | `(tactic| dec1) => `(tactic| exact dec_oxms)
macro_rules | `(tactic| enc1) => `(tactic| exact enc_oxm)
macro_rules | `(tactic| dec1) => `(tactic| exact dec_oxm)

/-! ## match -/

theorem len_match : LenImpl true matchFields 1 [("match_type", uint 2 (some [0, 1]))] [("oxm_match_fields", Spec.V04.oxms)] where
  split := ⟨"length", none, by
    show Impl true _ [_, _, _]
    unfold matchFields
    impl⟩
  size := by intro c hc; cases hc; intro v; rfl
  idx := rfl

theorem fill_ceil8 (p : Bytes) : fill (ceil8 p.length) p = p ++ zeros8 p.length := by
  unfold fill ceil8 zeros8
  congr 2
  omega

abbrev matchCore : Fmt := ownLen "04.Match" [("match_type", uint 2 (some [0, 1]))] [("oxm_match_fields", Spec.V04.oxms)]

theorem matchPack_spec {vs d} (hd : matchCore.den (.obj "04.Match" vs) = some d) (b : Bytes) :
    matchPack vs = .ok b ↔ (pad8 matchCore).enc d = some b := by
  have hp := len_match.packs hd
  simp only [pad8]
  simp only [matchPack, withLength]
  simp only [autoPack, withLength] at hp
  cases hs : sizeAttrs matchFields vs with
  | error e =>
    simp only [hs] at hp
    cases he : matchCore.enc d with
    | none => simp
    | some x => have := (hp x).mpr he; cases this
  | ok n =>
    simp only [hs] at hp
    simp only [sizeAttrs_set len_match.size, hs]
    cases hq : packAttrs matchFields (vs.set 1 (.int n)) with
    | error e =>
      cases he : matchCore.enc d with
      | none => simp
      | some x => have := (hp x).mpr he; rw [hq] at this; cases this
    | ok p =>
      have he := (hp p).mp hq
      have hz := len_match.sizes hd he
      rw [hs] at hz; cases hz
      simp [he, fill_ceil8]

theorem matchSize_spec {vs d b} (hd : matchCore.den (.obj "04.Match" vs) = some d) (he : (pad8 matchCore).enc d = some b) :
    matchSize vs = .ok b.length := by
  simp only [pad8] at he
  cases hc : matchCore.enc d with
  | none => simp [hc] at he
  | some p =>
    simp [hc] at he
    subst he
    have hz := len_match.sizes hd hc
    simp only [matchSize, hz]
    simp [ceil8, zeros8]
    omega

theorem enc_match : Enc «match» Spec.V04.match := by
  refine enc_orDefault ?_ ?_ ?_
  · refine ⟨?_, ?_, ?_⟩
    · intro v d hv b
      obtain ⟨vs₁, l, vs₂, ds₁, ds₂, rfl, _⟩ := ownLen_den_inv hv
      simp only [«match», if_true]
      exact matchPack_spec hv b
    · intro v d b hv he
      obtain ⟨vs₁, l, vs₂, ds₁, ds₂, rfl, _⟩ := ownLen_den_inv hv
      simp only [«match», if_true]
      exact matchSize_spec hv he
    · intro v d b _ hv he
      obtain ⟨vs₁, l, vs₂, ds₁, ds₂, rfl, _⟩ := ownLen_den_inv hv
      simp only [«match», if_true]
      exact matchSize_spec hv he
  · exact matchPack_spec (vs := matchInit) (d := .record [.num 1, .arr []]) rfl
  · intro b hb
    exact matchSize_spec (vs := matchInit) (d := .record [.num 1, .arr []]) rfl hb

theorem nonEmpty_match : NonEmpty Spec.V04.match := by
  intro d h
  have h : (pad8 matchCore).enc d = some [] := h
  simp only [pad8] at h
  cases hc : matchCore.enc d with
  | none => simp [hc] at h
  | some p =>
    simp [hc] at h
    exact nonEmpty_ownLen d (h.1 ▸ hc)

theorem matchUnpack_spec {d b} (pre post : Bytes) (he : matchCore.enc d = some b) (ho : matchCore.ok d) :
    ∃ u, matchUnpack (pre ++ b ++ post) pre.length = .ok u ∧ matchCore.den u = some d ∧ u ≠ .none := by
  obtain ⟨ds₁, ds₂, b₁, b₂, rfl, h2, h3, h4, rfl⟩ := ownLen_enc_inv he
  have hl := encAll_length h2
  obtain ⟨ho1, ho2⟩ := ownLen_ok hl ho
  obtain ⟨d, r, x, y, rfl, h5, h6, rfl⟩ := encAll_cons_inv h2
  obtain ⟨rfl, rfl⟩ := encAll_nil_inv h6
  obtain ⟨t, rfl, ht, rfl⟩ := uint_enc_inv h5
  obtain ⟨e, r2, x2, y2, rfl, h7, h8, rfl⟩ := encAll_cons_inv h3
  obtain ⟨rfl, rfl⟩ := encAll_nil_inv h8
  have htm : t ∈ [0, 1] := ho1.1 _ rfl
  simp only [List.append_nil] at *
  have hlen : (be 2 t).length + 2 + x2.length = 4 + x2.length := by simp
  rw [hlen] at h4 ⊢
  have p2 : (256 : Nat) ^ 2 = 65536 := by decide
  have e1 := ubUnpack_be (w := 2) (.enum [0, 1]) pre (be 2 (4 + x2.length) ++ x2 ++ post) (n := t) ht (off := pre.length) rfl
  have e2 := ubUnpack_be (w := 2) .none (pre ++ be 2 t) (x2 ++ post) (n := 4 + x2.length) (by omega) (off := pre.length + 2) (by simp)
  have hne : pre ++ (be 2 t ++ be 2 (4 + x2.length) ++ x2) ++ post ≠ [] := by simp [be]
  have htk : (pre ++ (be 2 t ++ be 2 (4 + x2.length) ++ x2) ++ post).take (pre.length + (4 + x2.length)) =
      (pre ++ be 2 t ++ be 2 (4 + x2.length)) ++ x2 := by
    rw [List.take_left' (by simp; omega)]
    simp
  generalize hb : pre ++ (be 2 t ++ be 2 (4 + x2.length) ++ x2) ++ post = buff at hne htk ⊢
  have hb1 : pre ++ be 2 t ++ (be 2 (4 + x2.length) ++ x2 ++ post) = buff := by rw [← hb]; simp
  have hb2 : pre ++ be 2 t ++ be 2 (4 + x2.length) ++ (x2 ++ post) = buff := by rw [← hb]; simp
  rw [hb1] at e1; rw [hb2] at e2
  simp only [refApply, if_pos htm] at e1 e2
  obtain ⟨u, hu, hud, hun⟩ := dec_oxms.unpack e x2 (pre ++ be 2 t ++ be 2 (4 + x2.length)) [] h7 ho2.1 (fun _ => rfl) (by simp [be])
  rw [List.append_nil] at hu
  have hsz := enc_oxms.usize u e x2 hun hud h7
  have hoff : (pre ++ be 2 t ++ be 2 (4 + x2.length)).length = pre.length + (2 + 2) := by simp
  rw [hoff] at hu
  refine ⟨.obj "04.Match" [.ub 2 (.enum t), .ub 2 (.int (4 + x2.length : Nat)), u], ?_, ?_, by simp⟩
  · simp only [matchUnpack, unpackAttrs, unpackAttr, if_neg hne, ubint, e1, e2, Nat.add_assoc, Int.toNat_natCast, htk]
    rw [if_neg (by simp [be]), hu]
    simp only [hsz]
  · refine ownLen_den (vs₁ := [.ub 2 (.enum t)]) (vs₂ := [u]) (ds₁ := [.num t]) (ds₂ := [e]) ?_ ?_
    · simp [denAll, uint, numOf]
    · simp [denAll, hud]

theorem dec_match : Dec «match» Spec.V04.match false := by
  refine dec_orDefault ⟨?_, fun d he => absurd he (nonEmpty_match d)⟩ rfl
  intro d b pre post he ho _ hne
  simp only [pad8] at he
  cases hc : matchCore.enc d with
  | none => simp [hc] at he
  | some p =>
    simp [hc] at he
    subst he
    obtain ⟨u, h1, h2, h3⟩ := matchUnpack_spec pre (zeros8 p.length ++ post) hc ho
    refine ⟨u, ?_, h2, h3⟩
    rw [← h1]
    simp only [«match», List.append_assoc]

macro_rules | `(tactic| enc1) => `(tactic| exact enc_match)
macro_rules | `(tactic| dec1) => `(tactic| exact dec_match)

/-! ## actions -/

/-- An action whose bytes are a multiple of 8 has the right size. -/
theorem sub_action {t tail fs} (name : String) (h : Impl t (actionHead ++ tail) fs) {ms dflt}
    (h0 : ∃ n r, fs = (n, uint 2 ms dflt) :: r) (h8 : ∀ ds b, encAll fs ds = some b → b.length % 8 = 0) :
    SubOk (actionSub name tail) (Spec.struct name fs) t := by
  have base : SubOk (plainSub name (actionHead ++ tail)) (Spec.struct name fs) t := h.sub _ rfl rfl (fun _ _ h => h) h0
  refine ⟨base.pack, ?_, base.unpack, base.type⟩
  intro vs d b hd he
  have hs := base.size vs d b hd he
  obtain ⟨ds, rfl, he⟩ := struct_enc_inv he
  have := h8 ds b he
  simp only [plainSub] at hs
  simp only [actionSub, actionSize, hs, ceil8]
  congr 1
  omega

theorem mod8 {fs n} (h : FixedLens fs n) (hn : n % 8 = 0) : ∀ ds b, encAll fs ds = some b → b.length % 8 = 0 := by
  intro ds b hb
  rw [h ds b hb, hn]

macro "action_fixed" n:num fs:term : tactic => `(tactic| (
  refine sub_action _ ?_ ⟨_, _, rfl⟩ (mod8 (fs := ("action_type", uint 2 (some Spec.V04.actionMembers)) :: ("length", Spec.V04.u16) :: $fs) (n := $n) ?_ rfl)
  · simp only [actionHead, List.cons_append, List.nil_append, Spec.V04.actionTail]; impl
  · fixed_len))

theorem actionLay_ne {c} (h : c ≠ "04.ActionSetField") :
    Spec.V04.actionLay c = Spec.struct c (("action_type", uint 2 (some Spec.V04.actionMembers)) :: ("length", Spec.V04.u16) :: Spec.V04.actionTail c) := by
  simp [Spec.V04.actionLay, h]

theorem sub_group : SubOk actionGroup (Spec.V04.actionLay "04.ActionGroup") true := by
  rw [actionLay_ne (by decide)]; action_fixed 8 [("group_id", Spec.V04.u32)]
theorem sub_decMPLS : SubOk actionDecMPLSTTL (Spec.V04.actionLay "04.ActionDecMPLSTTL") true := by
  rw [actionLay_ne (by decide)]; action_fixed 8 [("pad", pad 4)]
theorem sub_setMPLS : SubOk actionSetMPLSTTL (Spec.V04.actionLay "04.ActionSetMPLSTTL") true := by
  rw [actionLay_ne (by decide)]; action_fixed 8 [("mpls_ttl", Spec.V04.u8), ("pad", pad 3)]
theorem sub_copyIn : SubOk actionCopyTTLIn (Spec.V04.actionLay "04.ActionCopyTTLIn") true := by
  rw [actionLay_ne (by decide)]; action_fixed 8 [("pad", pad 4)]
theorem sub_copyOut : SubOk actionCopyTTLOut (Spec.V04.actionLay "04.ActionCopyTTLOut") true := by
  rw [actionLay_ne (by decide)]; action_fixed 8 [("pad", pad 4)]
theorem sub_popVLAN : SubOk actionPopVLAN (Spec.V04.actionLay "04.ActionPopVLAN") true := by
  rw [actionLay_ne (by decide)]; action_fixed 8 [("pad", pad 4)]
theorem sub_popPBB : SubOk actionPopPBB (Spec.V04.actionLay "04.ActionPopPBB") true := by
  rw [actionLay_ne (by decide)]; action_fixed 8 [("pad", pad 4)]
theorem sub_decNW : SubOk actionDecNWTTL (Spec.V04.actionLay "04.ActionDecNWTTL") true := by
  rw [actionLay_ne (by decide)]; action_fixed 8 [("pad", pad 4)]
theorem sub_setNW : SubOk actionSetNWTTL (Spec.V04.actionLay "04.ActionSetNWTTL") true := by
  rw [actionLay_ne (by decide)]; action_fixed 8 [("nw_ttl", Spec.V04.u8), ("pad", pad 3)]
theorem sub_output : SubOk actionOutput (Spec.V04.actionLay "04.ActionOutput") true := by
  rw [actionLay_ne (by decide)]; action_fixed 16 [("port", Spec.V04.u32), ("max_length", Spec.V04.u16), ("pad", pad 6)]
theorem sub_popMPLS : SubOk actionPopMPLS (Spec.V04.actionLay "04.ActionPopMPLS") true := by
  rw [actionLay_ne (by decide)]; action_fixed 8 [("ethertype", Spec.V04.u16), ("pad", pad 2)]
theorem sub_push : SubOk actionPush (Spec.V04.actionLay "04.ActionPush") true := by
  rw [actionLay_ne (by decide)]; action_fixed 8 [("ethertype", Spec.V04.u16), ("pad", pad 2)]
theorem sub_setQueue : SubOk actionSetQueue (Spec.V04.actionLay "04.ActionSetQueue") true := by
  rw [actionLay_ne (by decide)]; action_fixed 8 [("queue_id", Spec.V04.u32)]

theorem sub_experimenter : SubOk actionExperimenter (Spec.V04.actionLay "04.ActionExperimenter") true := by
  rw [actionLay_ne (by decide)]
  refine sub_action _ ?_ ⟨_, _, rfl⟩ ?_
  · simp only [actionHead, List.cons_append, List.nil_append, Spec.V04.actionTail]
    refine Impl.cons (by enc1) (by dec1) (Impl.cons (by enc1) (by dec1) (Impl.cons (by enc1) (by dec1) (Impl.last enc_rest8 dec_rest8)))
  · intro ds b h
    simp only [Spec.V04.actionTail] at h
    obtain ⟨_, _, _, _, rfl, h1, g1, rfl⟩ := encAll_cons_inv h
    obtain ⟨_, _, _, _, rfl, h2, g2, rfl⟩ := encAll_cons_inv g1
    obtain ⟨_, _, _, _, rfl, h3, g3, rfl⟩ := encAll_cons_inv g2
    obtain ⟨d, _, _, _, rfl, h4, g4, rfl⟩ := encAll_cons_inv g3
    obtain ⟨_, rfl⟩ := encAll_nil_inv g4
    have e1 := fixed_uint _ _ h1
    have e2 := fixed_uint _ _ h2
    have e3 := fixed_uint _ _ h3
    cases d <;> simp [rest8] at h4
    obtain ⟨h5, rfl⟩ := h4
    simp [e1, e2, e3]
    omega

theorem setField_den_inv {v d} (h : Spec.V04.setField.den v = some d) :
    ∃ t l x tn xd, v = .obj "04.ActionSetField" [t, l, x] ∧ numOf t = some tn ∧ Spec.V04.oxm.den x = some xd ∧
      d = .record [.num tn, xd] := by
  simp only [Spec.V04.setField] at h
  split at h
  · split at h
    · rename_i hc
      subst hc
      split at h
      · rename_i tn xd h1 h2
        cases h
        exact ⟨_, _, _, tn, xd, rfl, h1, h2, rfl⟩
      · cases h
    · cases h
  · cases h

theorem setField_enc_inv {d b} (h : Spec.V04.setField.enc d = some b) :
    ∃ t x xb, d = .record [.num t, x] ∧ Spec.V04.oxm.enc x = some xb ∧ t < 65536 ∧
      b = be 2 t ++ be 2 (4 + xb.length + (zeros8 (4 + xb.length)).length) ++ xb ++ zeros8 (4 + xb.length) := by
  simp only [Spec.V04.setField] at h
  split at h
  · split at h
    · split at h
      · cases h; exact ⟨_, _, _, rfl, by assumption, by assumption, rfl⟩
      · cases h
    · cases h
  · cases h

theorem ceil8_zeros (n : Nat) : ceil8 n = n + (zeros8 n).length := by
  simp [ceil8, zeros8]; omega

theorem oxm_enc_short {x b} (h : Spec.V04.oxm.enc x = some b) : 4 ≤ b.length ∧ b.length < 260 := by
  obtain ⟨c, f, m, v, _, _, _, _, _, h6, rfl⟩ := oxm_enc_inv h
  simp; omega

theorem impl_setField : Impl false setFieldFields
    [("action_type", uint 2 (some Spec.V04.actionMembers)), ("length", Spec.V04.u16), ("field", Spec.V04.oxm)] := by
  unfold setFieldFields actionHead
  simp only [List.cons_append, List.nil_append]
  impl

theorem sub_setField : SubOk actionSetField Spec.V04.setField true where
  pack := by
    intro vs d hd b
    obtain ⟨t, l, x, tn, xd, hv, ht, hx, rfl⟩ := setField_den_inv hd
    cases hv
    have hxp := enc_oxm.pack x xd hx
    obtain ⟨c, a, l2, x2, f, m, cn, fn, mn, xb, rfl, _⟩ := oxm_den_inv hx
    simp only [actionSetField, setFieldPack, setFieldPrep, Spec.V04.setField]
    cases he : Spec.V04.oxm.enc xd with
    | none =>
      cases hp : oxm.pack (.obj "04.OxmTLV" [c, a, l2, x2, f, m]) with
      | error e => simp
      | ok p => rw [(hxp p).mp hp] at he; cases he
    | some p =>
      have hp := (hxp p).mpr he
      have hsh := oxm_enc_short he
      simp only [hp]
      have hn : numOf (.int (ceil8 (4 + p.length) : Nat)) = some (ceil8 (4 + p.length)) := by simp [numOf]
      have key : ∀ q, packAttrs setFieldFields [t, .int (ceil8 (4 + p.length) : Nat), .obj "04.OxmTLV" [c, a, l2, x2, f, m]] = .ok q ↔
          tn < 65536 ∧ q = be 2 tn ++ be 2 (ceil8 (4 + p.length)) ++ p := by
        intro q
        have p2 : (256 : Nat) ^ 2 = 65536 := by decide
        simp only [setFieldFields, actionHead, List.cons_append, List.nil_append, packAttrs_cons, packAttrs_nil, ubint, ubPack_num ht,
          ubPack_num hn, packNum_ok, Int.toNat_natCast, p2, hp]
        constructor
        · rintro ⟨_, _, ⟨_, g1, rfl⟩, ⟨_, _, ⟨_, g2, rfl⟩, ⟨_, _, g3, rfl, rfl⟩, rfl⟩, rfl⟩
          cases g3
          exact ⟨g1, by simp⟩
        · rintro ⟨g1, rfl⟩
          exact ⟨_, _, ⟨by omega, g1, rfl⟩, ⟨_, _, ⟨by omega, by simp only [ceil8]; omega, rfl⟩, ⟨_, _, rfl, rfl, rfl⟩, rfl⟩, by simp⟩
      cases hq : packAttrs setFieldFields [t, .int (ceil8 (4 + p.length) : Nat), .obj "04.OxmTLV" [c, a, l2, x2, f, m]] with
      | error e =>
        rw [if_neg]
        · simp
        · intro h
          have := (key _).mpr ⟨h, rfl⟩
          rw [hq] at this; cases this
      | ok q =>
        obtain ⟨g1, rfl⟩ := (key q).mp hq
        rw [if_pos g1]
        simp only [Except.ok.injEq, Option.some.injEq, Int.toNat_natCast, fill, ← ceil8_zeros]
        have : List.replicate (ceil8 (4 + p.length) - (be 2 tn ++ be 2 (ceil8 (4 + p.length)) ++ p).length) 0 = zeros8 (4 + p.length) := by
          simp only [zeros8, ceil8]
          congr 1
          simp
          omega
        rw [this]
  size := by
    intro vs d b hd he
    obtain ⟨t, l, x, tn, xd, hv, ht, hx, rfl⟩ := setField_den_inv hd
    cases hv
    obtain ⟨t', x', xb, h1, h2, h3, rfl⟩ := setField_enc_inv he
    cases h1
    have hs := enc_oxm.size x xd xb hx h2
    simp only [actionSetField, actionSize, setFieldFields, actionHead, List.cons_append, List.nil_append, sizeAttrs, ubint, hs]
    congr 1
    rw [ceil8_zeros]
    simp
    have : 2 + (2 + xb.length) = 4 + xb.length := by omega
    rw [this]
    omega
  unpack := by
    intro d b pre post he ho ht hne
    obtain ⟨t, x, xb, rfl, h2, h3, rfl⟩ := setField_enc_inv he
    have hsh := oxm_enc_short h2
    have hL : 4 + xb.length + (zeros8 (4 + xb.length)).length < 65536 := by simp [zeros8]; omega
    generalize 4 + xb.length + (zeros8 (4 + xb.length)).length = L at hL hne ⊢
    have p2 : (256 : Nat) ^ 2 = 65536 := by decide
    have okSF : okAll [("action_type", uint 2 (some Spec.V04.actionMembers)), ("length", Spec.V04.u16), ("field", Spec.V04.oxm)]
        [.num t, .num L, x] := ⟨fun ms hm => (by cases hm; exact ho.1), fun ms hm => (by cases hm), ho.2, trivial⟩
    obtain ⟨vs, hvs, hden⟩ := impl_setField.decs [.num t, .num L, x] (be 2 t ++ (be 2 L ++ (xb ++ []))) pre (zeros8 (4 + xb.length) ++ post)
      (encAll_cons.mpr ⟨_, _, by simp [uint, h3], encAll_cons.mpr ⟨_, _, by simp [uint, hL], encAll_cons.mpr ⟨_, _, h2, rfl, rfl⟩, rfl⟩, rfl⟩)
      okSF (by simp) (by simp [be])
    refine ⟨vs, pre.length + (be 2 t ++ (be 2 L ++ (xb ++ []))).length, ?_, ?_⟩
    · rw [← hvs]
      simp only [actionSetField]
      congr 1
      simp
    · obtain ⟨v1, r1, d1, e1, rfl, h4, h5, h6⟩ := denAll_cons_inv hden
      cases h6
      obtain ⟨v2, r2, d2, e2, rfl, h6, h7, h8⟩ := denAll_cons_inv h5
      cases h8
      obtain ⟨v3, r3, d3, e3, rfl, h8, h9, h10⟩ := denAll_cons_inv h7
      cases h10
      obtain ⟨rfl, _⟩ := denAll_nil_inv h9
      have h4' : numOf v1 = some t := by
        simp only [uint] at h4
        split at h4
        · cases h4
        · cases hn : numOf v1 <;> simp [hn] at h4
          rw [h4]
      simp [Spec.V04.setField, actionSetField, h4', h8]
  type := by
    intro t ds b he
    obtain ⟨t', x, xb, h1, h2, h3, rfl⟩ := setField_enc_inv he
    cases h1
    exact ⟨h3, be 2 (4 + xb.length + (zeros8 (4 + xb.length)).length) ++ (xb ++ zeros8 (4 + xb.length)), by simp only [List.append_assoc]⟩

theorem ite_some {α} {p : Prop} [Decidable p] {a c : α} {b : Option α} (h : (if p then some a else b) = some c) :
    (p ∧ a = c) ∨ b = some c := by
  split at h
  · cases h; exact .inl ⟨by assumption, rfl⟩
  · exact .inr h

theorem action_sub_of {t c} (h : Spec.V04.actionSel t = some c) :
    ∃ s, pickAction t = .ok s ∧ s.name = c ∧ subOf actionSubs c = some s ∧ SubOk s (Spec.V04.actionLay c) true ∧ t ∈ actionTypes := by
  unfold Spec.V04.actionSel at h
  rcases ite_some h with ⟨h2, rfl⟩ | h
  · subst h2; exact ⟨actionOutput, rfl, rfl, rfl, sub_output, by decide⟩
  rcases ite_some h with ⟨h2, rfl⟩ | h
  · subst h2; exact ⟨actionCopyTTLOut, rfl, rfl, rfl, sub_copyOut, by decide⟩
  rcases ite_some h with ⟨h2, rfl⟩ | h
  · subst h2; exact ⟨actionCopyTTLIn, rfl, rfl, rfl, sub_copyIn, by decide⟩
  rcases ite_some h with ⟨h2, rfl⟩ | h
  · subst h2; exact ⟨actionSetMPLSTTL, rfl, rfl, rfl, sub_setMPLS, by decide⟩
  rcases ite_some h with ⟨h2, rfl⟩ | h
  · subst h2; exact ⟨actionDecMPLSTTL, rfl, rfl, rfl, sub_decMPLS, by decide⟩
  rcases ite_some h with ⟨h2, rfl⟩ | h
  · rcases h2 with rfl | rfl | rfl <;> exact ⟨actionPush, rfl, rfl, rfl, sub_push, by decide⟩
  rcases ite_some h with ⟨h2, rfl⟩ | h
  · subst h2; exact ⟨actionPopVLAN, rfl, rfl, rfl, sub_popVLAN, by decide⟩
  rcases ite_some h with ⟨h2, rfl⟩ | h
  · subst h2; exact ⟨actionPopMPLS, rfl, rfl, rfl, sub_popMPLS, by decide⟩
  rcases ite_some h with ⟨h2, rfl⟩ | h
  · subst h2; exact ⟨actionSetQueue, rfl, rfl, rfl, sub_setQueue, by decide⟩
  rcases ite_some h with ⟨h2, rfl⟩ | h
  · subst h2; exact ⟨actionGroup, rfl, rfl, rfl, sub_group, by decide⟩
  rcases ite_some h with ⟨h2, rfl⟩ | h
  · subst h2; exact ⟨actionSetNWTTL, rfl, rfl, rfl, sub_setNW, by decide⟩
  rcases ite_some h with ⟨h2, rfl⟩ | h
  · subst h2; exact ⟨actionDecNWTTL, rfl, rfl, rfl, sub_decNW, by decide⟩
  rcases ite_some h with ⟨h2, rfl⟩ | h
  · subst h2; exact ⟨actionSetField, rfl, rfl, rfl, sub_setField, by decide⟩
  rcases ite_some h with ⟨h2, rfl⟩ | h
  · subst h2; exact ⟨actionPopPBB, rfl, rfl, rfl, sub_popPBB, by decide⟩
  rcases ite_some h with ⟨h2, rfl⟩ | h
  · subst h2; exact ⟨actionExperimenter, rfl, rfl, rfl, sub_experimenter, by decide⟩
  · cases h

theorem nonEmpty_actionLay {c} : NonEmpty (Spec.V04.actionLay c) := by
  unfold Spec.V04.actionLay
  split
  · intro d he
    obtain ⟨t, x, xb, rfl, h2, h3, hb⟩ := setField_enc_inv he
    have := congrArg List.length hb
    simp at this
    omega
  · nonempty

theorem enc_action : Enc action Spec.V04.action :=
  enc_delimited (enc_variant fun _ _ h => let ⟨s, _, _, h3, h4, _⟩ := action_sub_of h; ⟨s, h3, true, h4⟩)
theorem dec_action : Dec action Spec.V04.action false :=
  dec_variant_trunc (fun _ _ h => let ⟨s, h1, h2, _, h4, _⟩ := action_sub_of h; ⟨s, h1, h2, h4⟩)
    (by intro t c ds hc _ ms h; cases h; exact let ⟨_, _, _, _, _, h5⟩ := action_sub_of hc; h5) (fun _ _ _ => nonEmpty_actionLay)
theorem nonEmpty_action : NonEmpty Spec.V04.action := nonEmpty_delimited (nonEmpty_union fun _ _ _ => nonEmpty_actionLay)
theorem itemOk_action : ItemOk (isSub actionSubs) Spec.V04.action :=
  itemOk_delimited (itemOk_union fun _ _ h => by obtain ⟨s, _, _, h3, _⟩ := action_sub_of h; simp [h3])
theorem enc_actions : Enc actions Spec.V04.actions := enc_list enc_action itemOk_action
theorem dec_actions : Dec actions Spec.V04.actions true := dec_list enc_action dec_action nonEmpty_action
macro_rules | `(tactic| enc1) => `(tactic| exact enc_actions)
macro_rules | `(tactic| dec1) => `(tactic| exact dec_actions)

/-! ## instructions -/

macro "len_impl" : tactic => `(tactic| (
  refine ⟨⟨"length", Option.none, ?_⟩, by intro c hc; cases hc; intro v; rfl, rfl⟩
  simp only [instructionHead, List.cons_append, List.nil_append]; impl))

macro "instr_sub" : tactic => `(tactic| (
  refine LenImpl.sub (t := true) ?_ _ ⟨_, rfl⟩
  len_impl))

theorem sub_goto : SubOk instructionGotoTable (ownLen "04.InstructionGotoTable" [("instruction_type", uint 2 (some Spec.V04.instructionMembers))]
    (Spec.V04.instructionTail "04.InstructionGotoTable")) true := by
  unfold Spec.V04.instructionTail; instr_sub
theorem sub_writeMetadata : SubOk instructionWriteMetadata (ownLen "04.InstructionWriteMetadata" [("instruction_type", uint 2 (some Spec.V04.instructionMembers))]
    (Spec.V04.instructionTail "04.InstructionWriteMetadata")) true := by
  unfold Spec.V04.instructionTail; instr_sub
theorem sub_meter : SubOk instructionMeter (ownLen "04.InstructionMeter" [("instruction_type", uint 2 (some Spec.V04.instructionMembers))]
    (Spec.V04.instructionTail "04.InstructionMeter")) true := by
  unfold Spec.V04.instructionTail; instr_sub
theorem sub_writeAction : SubOk instructionWriteAction (ownLen "04.InstructionWriteAction" [("instruction_type", uint 2 (some Spec.V04.instructionMembers))]
    (Spec.V04.instructionTail "04.InstructionWriteAction")) true := by
  unfold Spec.V04.instructionTail; instr_sub
theorem sub_applyAction : SubOk instructionApplyAction (ownLen "04.InstructionApplyAction" [("instruction_type", uint 2 (some Spec.V04.instructionMembers))]
    (Spec.V04.instructionTail "04.InstructionApplyAction")) true := by
  unfold Spec.V04.instructionTail; instr_sub
theorem sub_clearAction : SubOk instructionClearAction (ownLen "04.InstructionClearAction" [("instruction_type", uint 2 (some Spec.V04.instructionMembers))]
    (Spec.V04.instructionTail "04.InstructionClearAction")) true := by
  unfold Spec.V04.instructionTail; instr_sub

theorem instruction_sub_of {t c} (h : Spec.V04.instructionSel t = some c) :
    ∃ s, pickInstruction t = .ok s ∧ s.name = c ∧ subOf instructionSubs c = some s ∧
      SubOk s (ownLen c [("instruction_type", uint 2 (some Spec.V04.instructionMembers))] (Spec.V04.instructionTail c)) true ∧
      t ∈ instructionTypes := by
  unfold Spec.V04.instructionSel at h
  split at h
  · subst_vars; cases h; exact ⟨instructionGotoTable, rfl, rfl, rfl, sub_goto, by decide⟩
  split at h
  · subst_vars; cases h; exact ⟨instructionWriteMetadata, rfl, rfl, rfl, sub_writeMetadata, by decide⟩
  split at h
  · subst_vars; cases h; exact ⟨instructionWriteAction, rfl, rfl, rfl, sub_writeAction, by decide⟩
  split at h
  · subst_vars; cases h; exact ⟨instructionApplyAction, rfl, rfl, rfl, sub_applyAction, by decide⟩
  split at h
  · subst_vars; cases h; exact ⟨instructionClearAction, rfl, rfl, rfl, sub_clearAction, by decide⟩
  split at h
  · subst_vars; cases h; exact ⟨instructionMeter, rfl, rfl, rfl, sub_meter, by decide⟩
  · cases h

theorem nonEmpty_instruction : NonEmpty Spec.V04.instruction := nonEmpty_union fun _ _ _ => nonEmpty_ownLen
theorem enc_instruction : Enc instruction Spec.V04.instruction :=
  enc_variant fun _ _ h => let ⟨s, _, _, h3, h4, _⟩ := instruction_sub_of h; ⟨s, h3, true, h4⟩
theorem dec_instruction : Dec instruction Spec.V04.instruction false :=
  dec_undelimit (k := 2)
    (dec_variant_trunc (fun _ _ h => let ⟨s, h1, h2, _, h4, _⟩ := instruction_sub_of h; ⟨s, h1, h2, h4⟩)
      (by intro t c ds hc _ ms h; cases h; exact let ⟨_, _, _, _, _, h5⟩ := instruction_sub_of hc; h5) (fun _ _ _ => nonEmpty_ownLen))
    (selfSized_union fun _ _ _ => selfSized_ownLen (show FixedLens _ 2 by fixed_len))
theorem itemOk_instruction : ItemOk (isSub instructionSubs) Spec.V04.instruction :=
  itemOk_union fun _ _ h => by obtain ⟨s, _, _, h3, _⟩ := instruction_sub_of h; simp [h3]
theorem enc_instructions : Enc instructions Spec.V04.instructions := enc_list enc_instruction itemOk_instruction
theorem dec_instructions : Dec instructions Spec.V04.instructions true := dec_list enc_instruction dec_instruction nonEmpty_instruction
macro_rules | `(tactic| enc1) => `(tactic| exact enc_instructions)
macro_rules | `(tactic| dec1) => `(tactic| exact dec_instructions)

theorem enc_cut {k c f} (he : Enc c f) : Enc (lengthCut k c) f where
  pack := he.pack
  size := he.size
  usize := he.usize

/-! ## table features -/

macro "prop_sub" : tactic => `(tactic| (
  refine LenImpl.sub (t := true) ?_ _ ⟨_, rfl⟩
  refine ⟨⟨"length", some 4, ?_⟩, by intro c hc; cases hc; intro v; rfl, rfl⟩
  simp only [propertyHead, List.cons_append, List.nil_append]; impl))

theorem sub_instructionsProperty : SubOk instructionsProperty (ownLen "04.InstructionsProperty" [("property_type", uint 2 (some Spec.V04.propertyMembers))]
    (Spec.V04.propertyTail "04.InstructionsProperty")) true := by
  unfold Spec.V04.propertyTail; prop_sub
theorem sub_nextTablesProperty : SubOk nextTablesProperty (ownLen "04.NextTablesProperty" [("property_type", uint 2 (some Spec.V04.propertyMembers))]
    (Spec.V04.propertyTail "04.NextTablesProperty")) true := by
  unfold Spec.V04.propertyTail; prop_sub
theorem sub_actionsProperty : SubOk actionsProperty (ownLen "04.ActionsProperty" [("property_type", uint 2 (some Spec.V04.propertyMembers))]
    (Spec.V04.propertyTail "04.ActionsProperty")) true := by
  unfold Spec.V04.propertyTail; prop_sub
theorem sub_oxmProperty : SubOk oxmProperty (ownLen "04.OxmProperty" [("property_type", uint 2 (some Spec.V04.propertyMembers))]
    (Spec.V04.propertyTail "04.OxmProperty")) true := by
  unfold Spec.V04.propertyTail; prop_sub

theorem property_sub_of {t c} (h : Spec.V04.propertySel t = some c) :
    ∃ s, pickProperty t = .ok s ∧ s.name = c ∧ subOf propertySubs c = some s ∧
      SubOk s (ownLen c [("property_type", uint 2 (some Spec.V04.propertyMembers))] (Spec.V04.propertyTail c)) true ∧
      t ∈ propertyTypes := by
  unfold Spec.V04.propertySel at h
  split at h
  · rename_i h2; cases h
    rcases h2 with rfl | rfl <;> exact ⟨instructionsProperty, rfl, rfl, rfl, sub_instructionsProperty, by decide⟩
  split at h
  · rename_i h2; cases h
    rcases h2 with rfl | rfl <;> exact ⟨nextTablesProperty, rfl, rfl, rfl, sub_nextTablesProperty, by decide⟩
  split at h
  · rename_i h2; cases h
    rcases h2 with rfl | rfl | rfl | rfl <;> exact ⟨actionsProperty, rfl, rfl, rfl, sub_actionsProperty, by decide⟩
  split at h
  · rename_i h1 h2 h3 h4; cases h
    refine ⟨oxmProperty, ?_, rfl, rfl, sub_oxmProperty, h4⟩
    have : ¬ t ≤ 7 := by omega
    have h5 : ¬ t ≤ 3 := by omega
    have h6 : ¬ t ≤ 1 := by omega
    simp [pickProperty, this, h5, h6]
  · cases h

theorem nonEmpty_property : NonEmpty Spec.V04.property := nonEmpty_union fun _ _ _ => nonEmpty_ownLen
theorem enc_property : Enc property Spec.V04.property :=
  enc_variant fun _ _ h => let ⟨s, _, _, h3, h4, _⟩ := property_sub_of h; ⟨s, h3, true, h4⟩
theorem dec_property : Dec property Spec.V04.property false :=
  dec_undelimit (k := 2)
    (dec_variant_trunc (fun _ _ h => let ⟨s, h1, h2, _, h4, _⟩ := property_sub_of h; ⟨s, h1, h2, h4⟩)
      (by intro t c ds hc _ ms h; cases h; exact let ⟨_, _, _, _, _, h5⟩ := property_sub_of hc; h5) (fun _ _ _ => nonEmpty_ownLen))
    (selfSized_union fun _ _ _ => selfSized_ownLen (show FixedLens _ 2 by fixed_len))
theorem itemOk_property : ItemOk (isSub propertySubs) Spec.V04.property :=
  itemOk_union fun _ _ h => by obtain ⟨s, _, _, h3, _⟩ := property_sub_of h; simp [h3]
theorem enc_properties : Enc properties (Spec.list Spec.V04.property) := enc_list enc_property itemOk_property
theorem dec_properties : Dec properties (Spec.list Spec.V04.property) true := dec_list enc_property dec_property nonEmpty_property
macro_rules | `(tactic| enc1) => `(tactic| exact enc_properties)
macro_rules | `(tactic| dec1) => `(tactic| exact dec_properties)

macro "own_len" : tactic => `(tactic| (
  refine ⟨⟨"length", Option.none, ?_⟩, by intro c hc; cases hc; intro v; rfl, rfl⟩
  simp only [List.cons_append, List.nil_append]; impl))

theorem lens_tableFeatures : LenImpl true tableFeaturesFields 0 [] [("table_id", Spec.V04.u8), ("pad", Spec.pad 5), ("name", Spec.text 32),
   ("metadata_match", Spec.V04.u64), ("metadata_write", Spec.V04.u64), ("config", Spec.V04.u32),
   ("max_entries", Spec.V04.u32), ("properties", Spec.list Spec.V04.property)] := by
  unfold tableFeaturesFields; own_len
theorem enc_tableFeatures : Enc tableFeatures Spec.V04.tableFeatures :=
  enc_cut (lens_tableFeatures.enc "04.TableFeatures" _)
theorem dec_tableFeatures : Dec tableFeatures Spec.V04.tableFeatures false :=
  dec_undelimit (dec_lengthCut (lens_tableFeatures.dec "04.TableFeatures" _) nonEmpty_ownLen)
    (selfSized_ownLen (show FixedLens _ 0 by fixed_len))

/-! ## hello elements, meter statistics -/

theorem lens_helloElem : LenImpl true helloElemFields 1 [("element_type", Spec.V04.u16)] [("content", Spec.rest)] := by
  unfold helloElemFields; own_len
theorem enc_helloElem : Enc helloElem Spec.V04.helloElem := enc_cut (lens_helloElem.enc "04.HelloElemHeader" _)
theorem dec_helloElem : Dec helloElem Spec.V04.helloElem false :=
  dec_undelimit (dec_lengthCut (lens_helloElem.dec "04.HelloElemHeader" _) nonEmpty_ownLen)
    (selfSized_ownLen (show FixedLens _ 2 by fixed_len))
theorem enc_helloElems : Enc helloElems (Spec.list Spec.V04.helloElem) := enc_list enc_helloElem itemOk_ownLen
theorem dec_helloElems : Dec helloElems (Spec.list Spec.V04.helloElem) true := dec_list enc_helloElem dec_helloElem nonEmpty_ownLen
macro_rules | `(tactic| enc1) => `(tactic| exact enc_helloElems)
macro_rules | `(tactic| dec1) => `(tactic| exact dec_helloElems)

theorem impl_bandStats : Impl false [("packet_band_count", ubint 8), ("byte_band_count", ubint 8)]
    [("packet_band_count", Spec.V04.u64), ("byte_band_count", Spec.V04.u64)] := by impl
theorem enc_bandStats : Enc bandStats Spec.V04.bandStats := impl_bandStats.enc_struct _ _
theorem nonEmpty_bandStats : NonEmpty Spec.V04.bandStats := by unfold Spec.V04.bandStats; nonempty
theorem dec_bandStats : Dec bandStats Spec.V04.bandStats false := impl_bandStats.dec_struct _ _ nonEmpty_bandStats
theorem enc_bandStatsList : Enc bandStatsList (Spec.list Spec.V04.bandStats) := enc_list enc_bandStats itemOk_struct
theorem dec_bandStatsList : Dec bandStatsList (Spec.list Spec.V04.bandStats) true := dec_list enc_bandStats dec_bandStats nonEmpty_bandStats
macro_rules | `(tactic| enc1) => `(tactic| exact enc_bandStatsList)
macro_rules | `(tactic| dec1) => `(tactic| exact dec_bandStatsList)

theorem lens_meterStats : LenImpl true meterStatsFields 1 [("meter_id", Spec.V04.u32)]
  [("pad", Spec.pad 6), ("flow_count", Spec.V04.u32), ("packet_in_count", Spec.V04.u64), ("byte_in_count", Spec.V04.u64),
   ("duration_sec", Spec.V04.u32), ("duration_nsec", Spec.V04.u32), ("band_stats", Spec.list Spec.V04.bandStats)] := by
  unfold meterStatsFields; own_len
theorem enc_meterStats : Enc meterStats Spec.V04.meterStats := enc_cut (lens_meterStats.enc "04.MeterStats" _)
theorem dec_meterStats : Dec meterStats Spec.V04.meterStats false :=
  dec_undelimit (dec_lengthCut (lens_meterStats.dec "04.MeterStats" _) nonEmpty_ownLen)
    (selfSized_ownLen (show FixedLens _ 4 by fixed_len))

end Pyof.V04
