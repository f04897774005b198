import Verif.Lemmas.StableV01
import Verif.Lemmas.V04Body
import Verif.Lemmas.V04Facts
/-!
# Decoding arbitrary bytes and encoding the result again: the structures of OpenFlow 1.3
-/
namespace Pyof
open Spec

/-- If the whole encoding is available, decoding it is decoding known bytes. -/
theorem Back.of_dec {c f t avail d b} (hd : Dec c f false) (he : f.enc d = some b) (hk : f.ok d) (hl : b.length ≤ avail)
    (hb : b ≠ []) : Back c.unpack f t avail d b := by
  intro buff' off' j post ha
  obtain ⟨e1, e2⟩ := ha.split hl hb
  have := hd.unpack d b (buff'.take off') post he hk (by simp) (by rw [← e1]; exact ha.ne)
  rw [← e1, e2] at this
  exact this

theorem run_part {cs fs t tot s S} (h : StabRun cs fs t tot s) (hs : s ≤ S) : StabRun cs fs t false S := (h.mono hs).partial

theorem unpackItems_all {it : Attr} {Q : Val → Prop} {buff : Bytes} (h : ∀ off u, it.unpack buff off = .ok u → Q u) :
    ∀ k off xs, buff.length - off = k → unpackItems it buff off = .ok xs → ∀ x ∈ xs, Q x := by
  intro k
  induction k using Nat.strongRecOn with
  | _ k ih =>
    intro off xs hk hu
    rw [unpackItems] at hu
    split at hu
    · split at hu
      · cases hu
      · next u h1 =>
        split at hu
        · cases hu
        · next n h2 =>
          split at hu
          · cases hu
          · split at hu
            · cases hu
            · next r h3 =>
              cases hu
              intro x hx
              rcases List.mem_cons.mp hx with rfl | hx
              · exact h _ _ h1
              · exact ih (buff.length - (off + n)) (by omega) _ _ rfl h3 x hx
    · cases hu; simp

namespace V04

/-! ## OXM fields, match -/

theorem field_enum (n : Nat) : Spec.V04.fieldNum (.enum n) = some n ∧ Spec.V04.fieldNum (.int n) = some n := by
  simp [Spec.V04.fieldNum]

theorem oxmUnpack_inv {buff : Bytes} {off u} (hb : buff ≠ []) (h : oxmUnpack buff off = .ok u) :
    ∃ c fam len : Nat, off + 4 ≤ buff.length ∧ c ∈ oxmClasses ∧ c < 65536 ∧ fam < 256 ∧ len < 256 ∧ (c = 0x8000 → fam / 2 < 40) ∧
      Spec.V04.oxm.den u = some (.record [.num c, .num (fam / 2), .num (fam % 2),
        .raw (slice buff (off + 4) (off + 4 + len))]) ∧ u ≠ .none := by
  unfold oxmUnpack at h
  cases h1 : unpackAttrs oxmFields buff off with
  | error e => rw [h1] at h; cases h
  | ok p =>
    obtain ⟨vs, e⟩ := p
    rw [h1] at h
    unfold oxmFields at h1
    obtain ⟨v1, r1, k1, rfl, a1, b1, h2⟩ := first_attr h1 hb
    obtain ⟨v2, r2, k2, rfl, a2, b2, h3⟩ := first_attr h2 hb
    obtain ⟨v3, r3, k3, rfl, a3, b3, h4⟩ := first_attr h3 hb
    obtain ⟨v4, r4, k4, rfl, a4, b4, h5⟩ := first_attr h4 hb
    have : k1 = 2 := by simpa [ubint, eq_comm] using b1
    subst this
    have : k2 = 1 := by simpa [ubint, eq_comm] using b2
    subst this
    simp only [unpackAttrs] at h5
    cases h5
    have a1 : ubUnpack 2 (.enum oxmClasses) buff off = .ok v1 := a1
    have a2 : ubUnpack 1 .none buff (off + 2) = .ok v2 := a2
    have a3 : ubUnpack 1 .none buff (off + 2 + 1) = .ok v3 := a3
    obtain ⟨c, l1, _, c2, _, c4, c5, _, x1, c6, rfl⟩ := ubUnpack_read a1
    obtain ⟨fam, l2, _, d2, _, _, _, _, x2, d6, rfl⟩ := ubUnpack_read a2
    obtain ⟨len, l3, _, e2, _, _, _, _, x3, e6, rfl⟩ := ubUnpack_read a3
    simp only [refApply, Option.some.injEq] at d6 e6
    subst d6 e6
    simp only [Int.toNat_natCast] at h
    have hc : c ∈ oxmClasses := c5 _ rfl
    simp only [refApply, if_pos hc, Option.some.injEq] at c6
    subst c6
    have hmask : Spec.V04.maskNum (.int ((fam : Int) % 2)) = some (fam % 2) := by
      rcases Nat.mod_two_eq_zero_or_one fam with h | h
      · rw [show (fam : Int) % 2 = 0 by omega, h]; rfl
      · rw [show (fam : Int) % 2 = 1 by omega, h]; rfl
    have hcn : cmpNum (.ub 2 (.enum (c : Int))) = some (c : Int) := rfl
    rw [hcn] at h
    refine ⟨c, fam, len, by omega, hc, by simpa using c2, by simpa using d2, by simpa using e2, ?_⟩
    by_cases h8 : c = 0x8000
    · subst h8
      simp only [Int.reduceToNat, Option.some.injEq] at h
      rw [if_pos (by rfl)] at h
      split at h
      · next hf =>
        cases h
        refine ⟨fun _ => by simpa [ofbFields] using hf, ?_, by simp⟩
        simp only [Spec.V04.oxm, if_true, c4, (field_enum _).1, hmask, rest]
      · cases h
    · rw [if_neg (by simp; omega)] at h
      cases h
      refine ⟨fun h => absurd h h8, ?_, by simp⟩
      simp only [Spec.V04.oxm, if_true, c4, (field_enum _).2, hmask, rest]

theorem oxm_ok {buff : Bytes} {off u d} (hb : buff ≠ []) (h : oxmUnpack buff off = .ok u) (hd : Spec.V04.oxm.den u = some d) :
    Spec.V04.oxm.ok d := by
  obtain ⟨c, fam, len, _, hc, _, _, _, _, h2, _⟩ := oxmUnpack_inv hb h
  rw [h2] at hd
  cases hd
  simp only [oxmClasses, List.mem_cons, List.not_mem_nil, or_false] at hc
  exact hc

theorem stab_oxm : Stab oxm.unpack Spec.V04.oxm false true 0 := by
  intro buff off u hb _ hu
  have hu : oxmUnpack buff off = .ok u := hu
  obtain ⟨c, fam, len, hl, hc, hc2, hf, hn, h8, hden, hne⟩ := oxmUnpack_inv hb hu
  refine ⟨hne, fun _ => ⟨_, hden⟩, fun d hd => ?_⟩
  have hok := oxm_ok hb hu hd
  rw [hden] at hd
  cases hd
  generalize hv : slice buff (off + 4) (off + 4 + len) = v at *
  have hvl : v.length = min (off + 4 + len) buff.length - (off + 4) := by rw [← hv, slice_length]
  have henc : Spec.V04.oxm.enc (.record [.num c, .num (fam / 2), .num (fam % 2), .raw v]) =
      some (be 2 c ++ be 1 (fam / 2 * 2 + fam % 2) ++ be 1 v.length ++ v) := by
    simp only [Spec.V04.oxm]
    rw [if_pos ⟨hc2, by omega, h8, by omega, by omega⟩]
  refine ⟨_, henc, by simp; omega, Back.of_dec dec_oxm henc hok (by simp; omega) (by simp [be])⟩

theorem stab_oxms : Stab oxms.unpack Spec.V04.oxms true true 0 := stab_list enc_oxm stab_oxm

theorem stab_match : Stab «match».unpack Spec.V04.match false true 7 := by
  intro buff off u hb hm hu
  have hu : matchUnpack buff off = .ok u := hu
  unfold matchUnpack at hu
  cases h1 : unpackAttrs [("match_type", ubint 2 (.enum [0, 1])), ("length", ubint 2)] buff off with
  | error e => rw [h1] at hu; cases hu
  | ok p =>
    obtain ⟨vs, e⟩ := p
    rw [h1] at hu
    obtain ⟨v1, r1, k1, rfl, a1, b1, h2⟩ := first_attr h1 hb
    obtain ⟨v2, r2, k2, rfl, a2, b2, h3⟩ := first_attr h2 hb
    have : k1 = 2 := by simpa [ubint, eq_comm] using b1
    subst this
    have : k2 = 2 := by simpa [ubint, eq_comm] using b2
    subst this
    simp only [unpackAttrs] at h3
    cases h3
    have a1 : ubUnpack 2 (.enum [0, 1]) buff off = .ok v1 := a1
    have a2 : ubUnpack 2 .none buff (off + 2) = .ok v2 := a2
    obtain ⟨t, l1, _, t2, _, t4, t5, _, x1, t6, rfl⟩ := ubUnpack_read a1
    obtain ⟨n, l2, _, d2, _, _, _, _, x2, d6, rfl⟩ := ubUnpack_read a2
    simp only [refApply, Option.some.injEq] at d6
    subst d6
    simp only [Int.toNat_natCast] at hu
    have ht : t ∈ [0, 1] := t5 _ rfl
    generalize hc : buff.take (off + n) = cut at hu
    have hcl : cut.length = min (off + n) buff.length := by rw [← hc]; simp
    cases hx : unpackAttr oxms cut (off + 2 + 2) with
    | error e => rw [hx] at hu; cases hu
    | ok q =>
      obtain ⟨xs, k⟩ := q
      rw [hx] at hu
      cases hu
      have key : ∃ ds ob, Spec.V04.oxms.den xs = some (.arr ds) ∧ Spec.V04.oxms.enc (.arr ds) = some ob ∧ Spec.V04.oxms.ok (.arr ds) ∧
          off + 4 + ob.length ≤ buff.length := by
        unfold unpackAttr at hx
        split at hx
        · cases hx
          exact ⟨[], [], rfl, rfl, by simp [Spec.V04.oxms, Spec.list], by simp; omega⟩
        · next hcn =>
          simp only [oxms, listAttr] at hx
          cases hi : unpackItems oxm cut (off + 2 + 2) with
          | error e => rw [hi] at hx; cases hx
          | ok ys =>
            rw [hi] at hx
            simp only at hx
            obtain ⟨g1, g2⟩ := unpackItems_stab enc_oxm stab_oxm cut _ (off + 2 + 2) ys rfl (by omega) hi
            obtain ⟨ds, hds⟩ := g1 rfl
            obtain ⟨ob, g3, _, g4, g5, _⟩ := g2 ds hds
            have hok : ∀ x ∈ ys, ∀ d, Spec.V04.oxm.den x = some d → Spec.V04.oxm.ok d :=
              unpackItems_all (Q := fun x => ∀ d, Spec.V04.oxm.den x = some d → Spec.V04.oxm.ok d)
                (fun off u hu d hd => oxm_ok hcn hu hd) _ _ _ rfl hi
            have hxs : xs = .list true ys := by
              split at hx
              · cases hx
              · cases hx; rfl
            subst hxs
            refine ⟨ds, ob, by simp [Spec.V04.oxms, Spec.list, hds], g3, ?_, by omega⟩
            show ∀ d ∈ ds, Spec.V04.oxm.ok d
            intro d hd
            obtain ⟨x, hx, hxd⟩ := optMap_src hds d hd
            exact hok x hx d hxd
      obtain ⟨ds, ob, hden, henc, hok, hle⟩ := key
      have hd1 : matchCore.den (.obj "04.Match" [.ub 2 x1, .ub 2 (.int n), xs]) = some (.record [.num t, .arr ds]) :=
        ownLen_den (vs₁ := [.ub 2 x1]) (vs₂ := [xs]) (ds₁ := [.num t]) (ds₂ := [.arr ds])
          (by simp [denAll, uint, t4]) (by simp [denAll, hden])
      have hd2 : Spec.V04.match.den (.obj "04.Match" [.ub 2 x1, .ub 2 (.int n), xs]) = some (.record [.num t, .arr ds]) := hd1
      refine ⟨by simp, fun _ => ⟨_, hd2⟩, fun d hd => ?_⟩
      rw [hd2] at hd
      cases hd
      have hcore : matchCore.enc (.record [.num t, .arr ds]) = some (be 2 t ++ be 2 (4 + ob.length) ++ ob) := by
        have e1 : (uint 2 (some [0, 1])).enc (.num t) = some (be 2 t) := by simp only [uint]; exact if_pos t2
        have := lenFmt_ownLen.enc (cls := "04.Match") (fs₁ := [("match_type", uint 2 (some [0, 1]))])
          (fs₂ := [("oxm_match_fields", Spec.V04.oxms)]) [.num t] [.arr ds] (be 2 t) ob (4 + ob.length)
          (encAll_cons.mpr ⟨_, _, e1, rfl, by simp⟩) (encAll_cons.mpr ⟨_, _, henc, rfl, by simp⟩)
          (by simp) (by omega)
        simpa using this
      have hcok : matchCore.ok (.record [.num t, .arr ds]) := ⟨⟨fun ms hms => by cases hms; exact ht, trivial⟩, hok, trivial⟩
      generalize hp : be 2 t ++ be 2 (4 + ob.length) ++ ob = p at hcore
      have hpl : p.length = 4 + ob.length := by rw [← hp]; simp; omega
      have henc2 : Spec.V04.match.enc (.record [.num t, .arr ds]) = some (p ++ zeros8 p.length) := by
        show (matchCore.enc _).map _ = _
        rw [hcore]; rfl
      refine ⟨_, henc2, by simp [zeros8]; omega, ?_⟩
      intro buff' off' j post ha
      obtain ⟨e1, e2⟩ := ha.left.split (by omega) (by intro h; rw [h] at hpl; simp at hpl; omega)
      have := matchUnpack_spec (buff'.take off') ((zeros8 p.length).take (j - p.length) ++ post) hcore hcok
      rw [← e1, e2] at this
      obtain ⟨u', q1, q2, q3⟩ := this
      refine ⟨u', q1, ?_, q3⟩
      cases u' <;> first | exact absurd rfl q3 | exact q2

macro_rules | `(tactic| stab1) => `(tactic| exact stab_oxm)
macro_rules | `(tactic| stab1) => `(tactic| exact stab_oxms)
macro_rules | `(tactic| stab1) => `(tactic| exact stab_match)
macro_rules | `(tactic| stab1) => `(tactic| exact stab_rest8)
macro_rules | `(tactic| enc1) => `(tactic| exact enc_rest8)

/-! ## actions -/

macro "action_cut" : tactic => `(tactic| (
  rw [show Spec.V04.actionLay _ = _ from actionLay_ne (by decide)]
  refine SubStab.cut (nl := "length") (t := true) (tot := false) (nm := "action_type") rfl rfl ?_
  simp only [Spec.V04.actionTail]
  apply run_part
  · repeat run1
  · decide))

theorem sstab_group : SubStab (.enum actionTypes) true actionGroup (Spec.V04.actionLay actionGroup.name) true false 7 := by
  action_cut
theorem sstab_decMPLS : SubStab (.enum actionTypes) true actionDecMPLSTTL (Spec.V04.actionLay actionDecMPLSTTL.name) true false 7 := by
  action_cut
theorem sstab_setMPLS : SubStab (.enum actionTypes) true actionSetMPLSTTL (Spec.V04.actionLay actionSetMPLSTTL.name) true false 7 := by
  action_cut
theorem sstab_copyIn : SubStab (.enum actionTypes) true actionCopyTTLIn (Spec.V04.actionLay actionCopyTTLIn.name) true false 7 := by
  action_cut
theorem sstab_copyOut : SubStab (.enum actionTypes) true actionCopyTTLOut (Spec.V04.actionLay actionCopyTTLOut.name) true false 7 := by
  action_cut
theorem sstab_popVLAN : SubStab (.enum actionTypes) true actionPopVLAN (Spec.V04.actionLay actionPopVLAN.name) true false 7 := by
  action_cut
theorem sstab_popPBB : SubStab (.enum actionTypes) true actionPopPBB (Spec.V04.actionLay actionPopPBB.name) true false 7 := by
  action_cut
theorem sstab_decNW : SubStab (.enum actionTypes) true actionDecNWTTL (Spec.V04.actionLay actionDecNWTTL.name) true false 7 := by
  action_cut
theorem sstab_setNW : SubStab (.enum actionTypes) true actionSetNWTTL (Spec.V04.actionLay actionSetNWTTL.name) true false 7 := by
  action_cut
theorem sstab_output : SubStab (.enum actionTypes) true actionOutput (Spec.V04.actionLay actionOutput.name) true false 7 := by
  action_cut
theorem sstab_popMPLS : SubStab (.enum actionTypes) true actionPopMPLS (Spec.V04.actionLay actionPopMPLS.name) true false 7 := by
  action_cut
theorem sstab_push : SubStab (.enum actionTypes) true actionPush (Spec.V04.actionLay actionPush.name) true false 7 := by
  action_cut
theorem sstab_setQueue : SubStab (.enum actionTypes) true actionSetQueue (Spec.V04.actionLay actionSetQueue.name) true false 7 := by
  action_cut
theorem sstab_experimenter : SubStab (.enum actionTypes) true actionExperimenter (Spec.V04.actionLay actionExperimenter.name) true false 7 := by
  action_cut

theorem lenFmt_setField : LenFmt "04.ActionSetField" [("action_type", uint 2 (some Spec.V04.actionMembers))] [("field", Spec.V04.oxm)]
    Spec.V04.setField (fun n => (zeros8 n).length) where
  den := by
    intro vs₁ l vs₂ ds₁ ds₂ h1 h2
    match vs₁, vs₂, (denAll_length h1).1, (denAll_length h2).1 with
    | [t], [x], _, _ =>
      obtain ⟨d1, r1, h3, h4, rfl⟩ := denAll_cons.mp h1
      obtain ⟨d2, r2, h5, h6, rfl⟩ := denAll_cons.mp h2
      simp only [denAll] at h4 h6
      cases h4
      cases h6
      cases hn : numOf t with
      | none => cases t <;> simp [uint, hn] at h3
      | some n =>
        have : d1 = .num n := by
          cases t <;> simp [uint, hn] at h3 <;> first | exact h3.symm | cases hn
        subst this
        simp [Spec.V04.setField, hn, h5]
  inv := by
    intro vs d h
    obtain ⟨t, l, x, tn, xd, hv, ht, hx, rfl⟩ := setField_den_inv h
    cases hv
    refine ⟨[t], l, [x], [.num tn], [xd], rfl, ?_, by simp [denAll, hx], rfl⟩
    have : (uint 2 (some Spec.V04.actionMembers)).den t = some (.num tn) := by
      cases t <;> first | (simp [numOf] at ht; done) | (simp [uint, ht]; done)
    simp [denAll, this]
  enc := by
    intro ds₁ ds₂ b₁ b₂ n h1 h2 hn hlt
    obtain ⟨d1, r1, x1, y1, rfl, h3, h4, rfl⟩ := encAll_cons_inv h1
    obtain ⟨d2, r2, x2, y2, rfl, h5, h6, rfl⟩ := encAll_cons_inv h2
    obtain ⟨rfl, rfl⟩ := encAll_nil_inv h4
    obtain ⟨rfl, rfl⟩ := encAll_nil_inv h6
    obtain ⟨t, rfl, ht, rfl⟩ := uint_enc_inv h3
    have ht : t < 65536 := ht
    simp only [List.append_nil, be_length] at hn ⊢
    have hn : n = 4 + x2.length := by omega
    subst hn
    simp only [List.cons_append, List.nil_append, Spec.V04.setField, h5, if_pos ht]
    simp [zeros8]

theorem zeros8_le (n : Nat) : (zeros8 n).length ≤ 7 := by simp [zeros8]; omega

theorem sstab_setField : SubStab (.enum actionTypes) true actionSetField (Spec.V04.actionLay actionSetField.name) true false 7 := by
  have h : StabRun [("field", oxm)] [("field", Spec.V04.oxm)] false true 0 := run_cons enc_oxm stab_oxm run_nil
  exact SubStab.auto (s := actionSetField) (nm := "action_type") (nl := "length") (dv := .none) (zmax := 7) rfl rfl lenFmt_setField h zeros8_le
    (by simp) (by
      intro n ds b he
      obtain ⟨t, x, xb, hd, h2, h3, rfl⟩ := setField_enc_inv he
      cases hd
      exact ⟨h3, _, by simp only [List.append_assoc]; rfl⟩)

theorem stab_action : Stab action.unpack Spec.V04.action true false 7 := by
  refine stab_delimited 2 ?_
  show Stab (variantUnpack (.enum actionTypes) true pickAction) (union Spec.V04.actionSel Spec.V04.actionLay) true false 7
  refine stab_variant fun n s hm hp => ?_
  have hm := hm _ rfl
  simp only [actionTypes, List.mem_cons, List.not_mem_nil, or_false] at hm
  rcases hm with rfl | rfl | rfl | rfl | rfl | rfl | rfl | rfl | rfl | rfl | rfl | rfl | rfl | rfl | rfl | rfl | rfl
  · cases hp; exact ⟨rfl, sstab_output⟩
  · cases hp; exact ⟨rfl, sstab_copyOut⟩
  · cases hp; exact ⟨rfl, sstab_copyIn⟩
  · cases hp; exact ⟨rfl, sstab_setMPLS⟩
  · cases hp; exact ⟨rfl, sstab_decMPLS⟩
  · cases hp; exact ⟨rfl, sstab_push⟩
  · cases hp; exact ⟨rfl, sstab_popVLAN⟩
  · cases hp; exact ⟨rfl, sstab_push⟩
  · cases hp; exact ⟨rfl, sstab_popMPLS⟩
  · cases hp; exact ⟨rfl, sstab_setQueue⟩
  · cases hp; exact ⟨rfl, sstab_group⟩
  · cases hp; exact ⟨rfl, sstab_setNW⟩
  · cases hp; exact ⟨rfl, sstab_decNW⟩
  · cases hp; exact ⟨rfl, sstab_setField⟩
  · cases hp; exact ⟨rfl, sstab_push⟩
  · cases hp; exact ⟨rfl, sstab_popPBB⟩
  · cases hp; exact ⟨rfl, sstab_experimenter⟩

theorem stab_actions : Stab actions.unpack Spec.V04.actions true false 7 := stab_list enc_action stab_action
macro_rules | `(tactic| stab1) => `(tactic| exact stab_actions)

/-! ## instructions, properties -/

theorem _root_.Pyof.SubStab.mono {ref trunc s f t tot k k'} (h : SubStab ref trunc s f t tot k) (hk : k ≤ k') : SubStab ref trunc s f t tot k' :=
  ⟨h.stab.mono hk, h.type, h.head⟩

/-- A class of instructions. -/
abbrev InstrStab (s : Sub) : Prop := SubStab (.enum instructionTypes) true s
  (ownLen s.name [("instruction_type", uint 2 (some Spec.V04.instructionMembers))] (Spec.V04.instructionTail s.name)) true false 11

theorem own_sub {ref ref' : Ref} {ms dv cs fs t tot k} {s : Sub} {nm nm' nl : String} (hms : ms = ref'.members)
    (hf : s.fields = (nm, ubint 2 ref' .none) :: (nl, ubint 2 .none dv) :: cs) (h : StabRun cs fs t tot k) :
    SubStab ref true s (ownLen s.name [(nm', uint 2 ms none)] fs) true false k :=
  SubStab.auto (z := fun _ => 0) (zmax := 0) hms hf lenFmt_ownLen h (fun _ => Nat.le_refl _) (fun _ _ => rfl) type_ownLen

macro "instr_stab" : tactic => `(tactic| (
  refine own_sub (t := true) (tot := false) (nm := "instruction_type") (nl := "length") (dv := .none) rfl rfl ?_
  simp only [Spec.V04.instructionTail]
  apply run_part
  · repeat run1
  · decide))

theorem sstab_goto : InstrStab instructionGotoTable := by instr_stab
theorem sstab_writeMetadata : InstrStab instructionWriteMetadata := by instr_stab
theorem sstab_meter : InstrStab instructionMeter := by instr_stab
theorem sstab_writeAction : InstrStab instructionWriteAction := by instr_stab
theorem sstab_applyAction : InstrStab instructionApplyAction := by instr_stab
theorem sstab_clearAction : InstrStab instructionClearAction := by instr_stab

theorem stab_instruction : Stab instruction.unpack Spec.V04.instruction true false 11 := by
  show Stab (variantUnpack (.enum instructionTypes) true pickInstruction) (union Spec.V04.instructionSel _) true false 11
  refine stab_variant fun n s hm hp => ?_
  have hm := hm _ rfl
  simp only [instructionTypes, List.mem_cons, List.not_mem_nil, or_false] at hm
  rcases hm with rfl | rfl | rfl | rfl | rfl | rfl | rfl
  · cases hp; exact ⟨rfl, sstab_goto⟩
  · cases hp; exact ⟨rfl, sstab_writeMetadata⟩
  · cases hp; exact ⟨rfl, sstab_writeAction⟩
  · cases hp; exact ⟨rfl, sstab_applyAction⟩
  · cases hp; exact ⟨rfl, sstab_clearAction⟩
  · cases hp; exact ⟨rfl, sstab_meter⟩
  · cases hp

theorem stab_instructions : Stab instructions.unpack Spec.V04.instructions true false 11 := stab_list enc_instruction stab_instruction
macro_rules | `(tactic| stab1) => `(tactic| exact stab_instructions)

abbrev PropStab (s : Sub) : Prop := SubStab (.enum propertyTypes) true s
  (ownLen s.name [("property_type", uint 2 (some Spec.V04.propertyMembers))] (Spec.V04.propertyTail s.name)) true false 11

macro "prop_stab" : tactic => `(tactic| (
  refine own_sub (t := true) (tot := false) (nm := "property_type") (nl := "length") (dv := .int 4) rfl rfl ?_
  simp only [Spec.V04.propertyTail]
  apply run_part
  · repeat run1
  · decide))

theorem sstab_instructionsProperty : PropStab instructionsProperty := by prop_stab
theorem sstab_nextTablesProperty : PropStab nextTablesProperty := by prop_stab
theorem sstab_actionsProperty : PropStab actionsProperty := by prop_stab
theorem sstab_oxmProperty : PropStab oxmProperty := by prop_stab

theorem stab_property : Stab property.unpack Spec.V04.property true false 11 := by
  show Stab (variantUnpack (.enum propertyTypes) true pickProperty) (union Spec.V04.propertySel _) true false 11
  refine stab_variant fun n s hm hp => ?_
  have hm := hm _ rfl
  simp only [propertyTypes, List.mem_cons, List.not_mem_nil, or_false] at hm
  rcases hm with rfl | rfl | rfl | rfl | rfl | rfl | rfl | rfl | rfl | rfl | rfl | rfl | rfl | rfl | rfl | rfl <;> cases hp <;>
    first
    | exact ⟨rfl, sstab_instructionsProperty⟩
    | exact ⟨rfl, sstab_nextTablesProperty⟩
    | exact ⟨rfl, sstab_actionsProperty⟩
    | exact ⟨rfl, sstab_oxmProperty⟩

theorem stab_properties : Stab properties.unpack (Spec.list Spec.V04.property) true false 11 := stab_list enc_property stab_property
macro_rules | `(tactic| stab1) => `(tactic| exact stab_properties)

/-! ## bands -/

theorem stab_band : Stab band.unpack Spec.V04.band true false 4 := by
  refine stab_delimited 2 ?_
  show Stab (variantUnpack (.enum bandTypes) true pickBand) (union Spec.V04.bandSel _) true false 4
  refine stab_variant fun n s hm hp => ?_
  have hm := hm _ rfl
  simp only [bandTypes, List.mem_cons, List.not_mem_nil, or_false] at hm
  rcases hm with rfl | rfl | rfl
  · cases hp
    refine ⟨rfl, ?_⟩
    refine SubStab.cut (nl := "length") (t := true) (tot := false) (nm := "band_type") rfl rfl ?_
    apply run_part
    · repeat run1
    · decide
  · cases hp
    refine ⟨rfl, ?_⟩
    refine SubStab.cut (nl := "length") (t := true) (tot := false) (nm := "band_type") rfl rfl ?_
    apply run_part
    · repeat run1
    · decide
  · cases hp

theorem stab_bands : Stab bands.unpack (Spec.list Spec.V04.band) true false 4 := stab_list enc_band stab_band
macro_rules | `(tactic| stab1) => `(tactic| exact stab_bands)

/-! ## buckets -/

theorem stab_bucket : Stab bucket.unpack Spec.V04.bucket true false 11 := by
  refine stab_exact 0 (tot := false) ?_
  show Stab (cutU 0 (objUnpack "04.Bucket" bucketFields)) _ true false 11
  have e : objUnpack "04.Bucket" bucketFields = objUnpack "04.Bucket" bucketCounted := rfl
  rw [e]
  refine stab_cut (t := true) (tot := false) ?_ keeps2_first nilNone_first
  have h1 := enc_countedList enc_action itemOk_action
  have h2 : Stab (countedList (isSub actionSubs) action).unpack (bareList Spec.V04.action) true false 7 :=
    stab_bareList (isItem := isSub actionSubs) enc_action stab_action
  refine StabRun.obj ?_ _
  unfold bucketCounted
  apply run_part
  · repeat run1
  · decide

theorem stab_buckets : Stab buckets.unpack (Spec.list Spec.V04.bucket) true false 11 := stab_list enc_bucket stab_bucket
macro_rules | `(tactic| stab1) => `(tactic| exact stab_buckets)

theorem stab_bucketCounter : Stab bucketCounter.unpack Spec.V04.bucketCounter false true 0 := StabRun.struct (by runs) _ _
theorem stab_bucketCounters : Stab bucketCounters.unpack (Spec.list Spec.V04.bucketCounter) true true 0 :=
  stab_list enc_bucketCounter stab_bucketCounter
macro_rules | `(tactic| stab1) => `(tactic| exact stab_bucketCounters)
macro_rules | `(tactic| stab1) => `(tactic| exact stab_noItems)

/-! ## structures with a computed length -/

theorem stab_tableFeatures : Stab tableFeatures.unpack Spec.V04.tableFeatures false false 16 := by
  refine stab_auto (cs₁ := []) (zmax := 0) (t := true) (tot₂ := false) (s := 16) (z := fun _ => 0) lenFmt_ownLen run_nil ?_ rfl ?_ (fun _ => Nat.le_refl _) (fun _ _ => rfl) (nilNone_len0 lenFmt_ownLen)
  · intro ds b h; obtain ⟨rfl, rfl⟩ := encAll_nil_inv h; rfl
  · apply run_part
    · repeat run1
    · decide

theorem stab_bandStats : Stab bandStats.unpack Spec.V04.bandStats false true 0 := StabRun.struct (by runs) _ _
theorem stab_bandStatsList : Stab bandStatsList.unpack (Spec.list Spec.V04.bandStats) true true 0 := stab_list enc_bandStats stab_bandStats
macro_rules | `(tactic| stab1) => `(tactic| exact stab_bandStatsList)

theorem uint_run_len {nm w ms dflt ds b} (h : encAll [(nm, uint w ms dflt)] ds = some b) : b.length = w := by
  obtain ⟨d1, r1, x1, y1, rfl, h3, h4, rfl⟩ := encAll_cons_inv h
  obtain ⟨rfl, rfl⟩ := encAll_nil_inv h4
  obtain ⟨t, rfl, ht, rfl⟩ := uint_enc_inv h3
  simp

theorem stab_meterStats : Stab meterStats.unpack Spec.V04.meterStats false false 6 := by
  refine stab_auto (cs₁ := [("meter_id", ubint 4)]) (zmax := 0) (t := true) (tot₂ := false) (s := 6) (z := fun _ => 0) lenFmt_ownLen
    (by runs : StabRun [("meter_id", ubint 4)] [("meter_id", Spec.V04.u32)] false true 0) (fun _ _ => uint_run_len) rfl ?_ (fun _ => Nat.le_refl _) (fun _ _ => rfl) (nilNone_len1 lenFmt_ownLen)
  · apply run_part
    · repeat run1
    · decide

theorem stab_helloElem : Stab helloElem.unpack Spec.V04.helloElem false false 0 := by
  refine stab_auto (cs₁ := [("element_type", ubint 2)]) (zmax := 0) (t := true) (tot₂ := false) (s := 0) (z := fun _ => 0) lenFmt_ownLen
    (by runs : StabRun [("element_type", ubint 2)] [("element_type", Spec.V04.u16)] false true 0) (fun _ _ => uint_run_len) rfl ?_ (fun _ => Nat.le_refl _) (fun _ _ => rfl) (nilNone_len1 lenFmt_ownLen)
  · apply run_part
    · repeat run1
    · decide

theorem stab_flowStats : Stab flowStats.unpack Spec.V04.flowStats true false 23 := by
  refine stab_delimited 0 ?_
  refine stab_cut (t := true) (tot := false) ?_ keeps2_first nilNone_first
  refine StabRun.obj ?_ _
  apply run_part
  · repeat run1
  · decide

/-! ## structures of fixed layout -/

theorem stab_port : Stab port.unpack Spec.V04.port false true 6 := StabRun.struct (by unfold portFields; runs) _ _
macro_rules | `(tactic| stab1) => `(tactic| exact stab_port)
theorem stab_experimenterMultipart : Stab experimenterMultipart.unpack Spec.V04.experimenterMultipart false true 0 := StabRun.struct (by runs) _ _
theorem stab_flowStatsRequest : Stab flowStatsRequest.unpack Spec.V04.flowStatsRequest false true 14 := StabRun.struct (by unfold flowStatsRequestFields; runs) _ _
theorem stab_aggregateStatsRequest : Stab aggregateStatsRequest.unpack Spec.V04.aggregateStatsRequest false true 14 := StabRun.struct (by unfold flowStatsRequestFields; runs) _ _
theorem stab_portStatsRequest : Stab portStatsRequest.unpack Spec.V04.portStatsRequest false true 4 := StabRun.struct (by runs) _ _
theorem stab_queueStatsRequest : Stab queueStatsRequest.unpack Spec.V04.queueStatsRequest false true 0 := StabRun.struct (by runs) _ _
theorem stab_groupStatsRequest : Stab groupStatsRequest.unpack Spec.V04.groupStatsRequest false true 4 := StabRun.struct (by runs) _ _
theorem stab_meterMultipartRequest : Stab meterMultipartRequest.unpack Spec.V04.meterMultipartRequest false true 4 := StabRun.struct (by runs) _ _
theorem stab_aggregateStatsReply : Stab aggregateStatsReply.unpack Spec.V04.aggregateStatsReply false true 4 := StabRun.struct (by runs) _ _
theorem stab_desc : Stab desc.unpack Spec.V04.desc false true 0 := StabRun.struct (by runs) _ _
theorem stab_portStats : Stab portStats.unpack Spec.V04.portStats false true 4 := StabRun.struct (by runs) _ _
theorem stab_queueStats : Stab queueStats.unpack Spec.V04.queueStats false true 0 := StabRun.struct (by runs) _ _
theorem stab_groupFeatures : Stab groupFeatures.unpack Spec.V04.groupFeatures false true 0 := StabRun.struct (by runs) _ _
theorem stab_meterFeatures : Stab meterFeatures.unpack Spec.V04.meterFeatures false true 2 := StabRun.struct (by runs) _ _
theorem stab_tableStats : Stab tableStats.unpack Spec.V04.tableStats false true 3 := StabRun.struct (by runs) _ _

theorem stab_groupDescStats : Stab groupDescStats.unpack Spec.V04.groupDescStats true false 1 := by
  refine StabRun.struct ?_ _ _
  apply run_part
  · repeat run1
  · decide
theorem stab_groupStats : Stab groupStats.unpack Spec.V04.groupStats true true 6 := StabRun.struct (by runs) _ _
theorem stab_meterConfig : Stab meterConfig.unpack Spec.V04.meterConfig true false 4 := StabRun.struct (by runs) _ _

end V04
end Pyof
