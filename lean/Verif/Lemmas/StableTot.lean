import Verif.Lemmas.StableV04
import Verif.Spec.Stable
/-!
# Which decoded values have a content

`Tot U f s`: whatever `U` decodes has a content if it is `clean`.
-/
namespace Pyof
open Spec

def Tot (U : Unpacker) (f : Fmt) (s : Nat) : Prop :=
  ∀ buff off u, buff ≠ [] → max off buff.length + s < 65536 → U buff off = .ok u → clean u = true → ∃ d, f.den u = some d

def TotRun (cs : Fields) (fs : FieldFmts) (s : Nat) : Prop :=
  ∀ buff off vs e, buff ≠ [] → max off buff.length + s < 65536 → unpackAttrs cs buff off = .ok (vs, e) → cleanAll vs = true →
    ∃ ds, denAll fs vs = some ds

theorem Stab.total {U f t s} (h : Stab U f t true s) : Tot U f s :=
  fun buff off u hb hm hu _ => (h buff off u hb hm hu).2.1 rfl

theorem StabRun.total {cs fs t s} (h : StabRun cs fs t true s) : TotRun cs fs s :=
  fun buff off vs e hb hm hu _ => (h buff off vs e hb hm hu).1 rfl

theorem Tot.mono {U f s s'} (h : Tot U f s) (hs : s ≤ s') : Tot U f s' :=
  fun buff off u hb hm hu hc => h buff off u hb (by omega) hu hc

theorem TotRun.mono {cs fs s s'} (h : TotRun cs fs s) (hs : s ≤ s') : TotRun cs fs s' :=
  fun buff off u e hb hm hu hc => h buff off u e hb (by omega) hu hc

theorem cleanAll_cons {v vs} : cleanAll (v :: vs) = true ↔ clean v = true ∧ cleanAll vs = true := by
  simp [cleanAll]

theorem cleanAll_mem {vs} (h : cleanAll vs = true) : ∀ v ∈ vs, clean v = true := by
  induction vs with
  | nil => simp
  | cons v vs ih =>
    obtain ⟨h1, h2⟩ := cleanAll_cons.mp h
    intro x hx
    rcases List.mem_cons.mp hx with rfl | hx
    · exact h1
    · exact ih h2 x hx

theorem trun_nil : TotRun [] [] 0 := by
  intro buff off vs e _ _ hu _
  simp only [unpackAttrs] at hu
  cases hu
  exact ⟨[], rfl⟩

theorem trun_cons {c f t s cs fs s'} {n m : String} (he : Enc c f) (hs : Stab c.unpack f t true s) (h : TotRun cs fs s') :
    TotRun ((n, c) :: cs) ((m, f) :: fs) (s + s') := by
  intro buff off vs e hb hm hu hc
  obtain ⟨v, vs, k, rfl, h1, h2, h3⟩ := first_attr hu hb
  obtain ⟨hc1, hc2⟩ := cleanAll_cons.mp hc
  obtain ⟨hne, htot, hden⟩ := hs buff off v hb (by omega) h1
  obtain ⟨d, hd⟩ := htot rfl
  obtain ⟨b, heb, hle, _⟩ := hden d hd
  have hk := he.usize v d b hne hd heb
  rw [h2] at hk
  cases hk
  obtain ⟨ds, hds⟩ := h buff _ _ _ hb (by omega) h3 hc2
  exact ⟨d :: ds, denAll_cons.mpr ⟨_, _, hd, hds, rfl⟩⟩

theorem trun_last {c f s} {n m : String} (h : Tot c.unpack f s) : TotRun [(n, c)] [(m, f)] s := by
  intro buff off vs e hb hm hu hc
  obtain ⟨v, vs, k, rfl, h1, h2, h3⟩ := first_attr hu hb
  obtain ⟨hc1, hc2⟩ := cleanAll_cons.mp hc
  simp only [unpackAttrs] at h3
  cases h3
  obtain ⟨d, hd⟩ := h buff off v hb hm h1 hc1
  exact ⟨[d], denAll_cons.mpr ⟨_, _, hd, rfl, rfl⟩⟩

theorem TotRun.obj {cs fs s} (h : TotRun cs fs s) (cls : String) : Tot (objUnpack cls cs) (Spec.struct cls fs) s := by
  intro buff off u hb hm hu hc
  obtain ⟨vs, e, h1, rfl⟩ := objUnpack_ok hu
  simp only [clean, Bool.and_eq_true] at hc
  obtain ⟨ds, hds⟩ := h buff off vs e hb hm h1 hc.1
  exact ⟨.record ds, by simp [Spec.struct, hds]⟩

/-- What is decoded from nothing is not clean. -/
def NilDirty (U : Unpacker) : Prop := ∀ u, U [] 0 = .ok u → clean u = false

theorem nilDirty_obj {cls : String} {cs : Fields} (h : cleanAll (cs.map (·.2.proto)) = false) : NilDirty (objUnpack cls cs) := by
  intro u hu
  obtain ⟨vs, e, h1, rfl⟩ := objUnpack_ok hu
  rw [nil_length _ _ _ _ h1]
  simp [clean, h]

theorem tot_cut {k U f s} (h : Tot U f s) (hn : NilDirty U) : Tot (cutU k U) f s := by
  intro buff off u hb hm hu hc
  obtain ⟨n, h1, h2⟩ := cutU_ok hu
  generalize hcut : buff.take (off + gotNum n) = cut at h2
  by_cases hcn : cut = []
  · subst hcn
    have hm0 : off + gotNum n = 0 := by
      simp only [List.take_eq_nil_iff] at hcut
      rcases hcut with h | h
      · exact h
      · exact absurd h hb
    have : off = 0 := by omega
    subst this
    rw [hn u h2] at hc
    cases hc
  · have hcl : cut.length = min (off + gotNum n) buff.length := by rw [← hcut]; simp
    exact h cut off u hcn (by omega) h2 hc

/-- A class that computes its length. -/
theorem tot_auto {cls : String} {cs : Fields} {fs₁ fs₂ f z s} {nl : String} (hf : LenFmt cls fs₁ fs₂ f z)
    (g : Fmt) (h : TotRun cs (fs₁ ++ (nl, g) :: fs₂) s) : Tot (objUnpack cls cs) f s := by
  intro buff off u hb hm hu hc
  obtain ⟨vs, e, h1, rfl⟩ := objUnpack_ok hu
  simp only [clean, Bool.and_eq_true] at hc
  obtain ⟨ds, hds⟩ := h buff off vs e hb hm h1 hc.1
  obtain ⟨vs₁, vs₂, ds₁, ds₂, rfl, _, h2, h3⟩ := denAll_append_inv hds
  cases vs₂ with
  | nil => simp [denAll] at h3
  | cons l vs₂ =>
    obtain ⟨d, ds', _, h4, rfl⟩ := denAll_cons.mp h3
    exact ⟨_, hf.den _ _ _ _ _ h2 h4⟩

theorem tot_variant {ref trunc pick sel lay t tot k s'}
    (hs : ∀ n s, (∀ ms, ref.members = some ms → n ∈ ms) → pick n = .ok s →
      sel n = some s.name ∧ SubStab ref trunc s (lay s.name) t tot k ∧ Tot (subUnpack trunc s) (lay s.name) s') :
    Tot (variantUnpack ref trunc pick) (union sel lay) s' := by
  intro buff off u hb hm hu hc
  rw [variantUnpack_eq] at hu
  cases h1 : ubUnpack 2 ref buff off with
  | error e => rw [h1] at hu; cases hu
  | ok v =>
    rw [h1] at hu
    simp only at hu
    obtain ⟨n, hl, hn, hlt, hg, _, hmem, _, _⟩ := ubUnpack_read h1
    rw [hg] at hu
    cases h2 : pick n with
    | error e => rw [h2] at hu; cases hu
    | ok s =>
      rw [h2] at hu
      simp only at hu
      obtain ⟨hsel, hss, ht⟩ := hs n s hmem h2
      obtain ⟨vs, rfl⟩ := subUnpack_obj hu
      obtain ⟨d, hd⟩ := ht buff off _ hb hm hu hc
      obtain ⟨ds, rfl⟩ := hss.head buff off _ v d hu h1 hd
      rw [hg] at hd
      exact ⟨.tag s.name (.record (.num n :: ds)), by simp only [union, hd, hsel, if_true]⟩

/-- Every item was decoded somewhere inside the buffer. -/
theorem unpackItems_src {it : Attr} {buff : Bytes} : ∀ k off xs, buff.length - off = k → unpackItems it buff off = .ok xs →
    ∀ x ∈ xs, ∃ o, o < buff.length ∧ it.unpack buff o = .ok x := by
  intro k
  induction k using Nat.strongRecOn with
  | _ k ih =>
    intro off xs hk hu
    rw [unpackItems] at hu
    split at hu
    · next hlt =>
      split at hu
      · cases hu
      · next u h1 =>
        split at hu
        · cases hu
        · next n h2 =>
          split at hu
          · cases hu
          · split at hu
            · cases hu
            · next r h3 =>
              cases hu
              intro x hx
              rcases List.mem_cons.mp hx with rfl | hx
              · exact ⟨_, hlt, h1⟩
              · exact ih (buff.length - (off + n)) (by omega) _ _ rfl h3 x hx
    · cases hu; simp

theorem tot_items {it : Attr} {g : Fmt} {s : Nat} {buff : Bytes} {off : Nat} {xs : List Val} (h : Tot it.unpack g s)
    (hm : buff.length + s < 65536) (hu : unpackItems it buff off = .ok xs) (hc : cleanAll xs = true) :
    ∃ ds, optMap g.den xs = some ds := by
  have hsrc := unpackItems_src _ _ _ rfl hu
  have hcl := cleanAll_mem hc
  clear hu hc
  induction xs with
  | nil => exact ⟨[], rfl⟩
  | cons x xs ih =>
    obtain ⟨o, ho, hx⟩ := hsrc x (by simp)
    obtain ⟨d, hd⟩ := h buff o x (by intro h0; rw [h0] at ho; simp at ho) (by omega) hx (hcl x (by simp))
    obtain ⟨ds, hds⟩ := ih (fun y hy => hsrc y (by simp [hy])) (fun y hy => hcl y (by simp [hy]))
    exact ⟨d :: ds, by simp [optMap, hd, hds]⟩

theorem tot_list {isItem it g s} (h : Tot it.unpack g s) : Tot (listAttr isItem it).unpack (Spec.list g) s := by
  intro buff off u hb hm hu hc
  simp only [listAttr] at hu
  cases h1 : unpackItems it buff off with
  | error x => rw [h1] at hu; cases hu
  | ok xs =>
    rw [h1] at hu
    cases hu
    simp only [clean] at hc
    obtain ⟨ds, hds⟩ := tot_items h (by omega) h1 hc
    exact ⟨.arr ds, by simp [Spec.list, hds]⟩

theorem tot_delimited {U f s} (k : Nat) (h : Tot U f s) : Tot U (Spec.delimited k f) s := h

syntax "tot1" : tactic
macro_rules | `(tactic| tot1) => `(tactic| assumption)

/-- One step of the proof that the attributes have a content. -/
macro "trun1" : tactic => `(tactic| first
  | exact trun_nil
  | (apply trun_cons
     · enc1
     · stab1)
  | exact trun_last (by tot1))

/-! ## OpenFlow 1.0 -/

theorem V01.tot_flowStats : Tot V01.flowStats.unpack Spec.V01.flowStats 16 :=
  tot_delimited 0 (tot_cut (run_flowStats.total.obj "01.FlowStats") (nilDirty_obj rfl))

namespace V04

/-! ## OpenFlow 1.3 -/

/-- A class whose announced length is part of its content. -/
theorem tot_sub_cut {ms ref' cs fs k} {s : Sub} {nm nm' nl nl' : String}
    (hf : s.fields = (nm, ubint 2 ref' .none) :: (nl, ubint 2 .none .none) :: cs)
    (h : TotRun ((nm, ubint 2 ref' .none) :: (nl, ubint 2 .none .none) :: cs)
      ((nm', uint 2 ms none) :: (nl', uint 2 none none) :: fs) k) :
    Tot (subUnpack true s) (Spec.struct s.name ((nm', uint 2 ms none) :: (nl', uint 2 none none) :: fs)) k := by
  rw [← hf] at h
  exact tot_cut (h.obj s.name) (nilDirty_obj (by rw [hf]; simp [cleanAll, clean, ubint]))

theorem tot_sub_auto {ref' ms dv cs₂ fs₂ f z k} {s : Sub} {nm nm' nl nl' : String}
    (hf : s.fields = (nm, ubint 2 ref' .none) :: (nl, ubint 2 .none dv) :: cs₂)
    (hl : LenFmt s.name [(nm', uint 2 ms none)] fs₂ f z)
    (g : Fmt) (h : TotRun ((nm, ubint 2 ref' .none) :: (nl, ubint 2 .none dv) :: cs₂) ((nm', uint 2 ms none) :: (nl', g) :: fs₂) k) :
    Tot (subUnpack true s) f k := by
  rw [← hf] at h
  exact tot_cut (tot_auto hl g h) (nilDirty_obj (by rw [hf]; simp [cleanAll, clean, ubint]))

macro "action_tot" : tactic => `(tactic| (
  rw [show Spec.V04.actionLay _ = _ from actionLay_ne (by decide)]
  refine tot_sub_cut (nm := "action_type") (nl := "length") rfl ?_
  simp only [Spec.V04.actionTail]
  apply TotRun.mono
  · repeat trun1
  · decide))

theorem tot_actionGroup : Tot (subUnpack true actionGroup) (Spec.V04.actionLay actionGroup.name) 7 := by action_tot
theorem tot_actionDecMPLSTTL : Tot (subUnpack true actionDecMPLSTTL) (Spec.V04.actionLay actionDecMPLSTTL.name) 7 := by action_tot
theorem tot_actionSetMPLSTTL : Tot (subUnpack true actionSetMPLSTTL) (Spec.V04.actionLay actionSetMPLSTTL.name) 7 := by action_tot
theorem tot_actionCopyTTLIn : Tot (subUnpack true actionCopyTTLIn) (Spec.V04.actionLay actionCopyTTLIn.name) 7 := by action_tot
theorem tot_actionCopyTTLOut : Tot (subUnpack true actionCopyTTLOut) (Spec.V04.actionLay actionCopyTTLOut.name) 7 := by action_tot
theorem tot_actionPopVLAN : Tot (subUnpack true actionPopVLAN) (Spec.V04.actionLay actionPopVLAN.name) 7 := by action_tot
theorem tot_actionPopPBB : Tot (subUnpack true actionPopPBB) (Spec.V04.actionLay actionPopPBB.name) 7 := by action_tot
theorem tot_actionDecNWTTL : Tot (subUnpack true actionDecNWTTL) (Spec.V04.actionLay actionDecNWTTL.name) 7 := by action_tot
theorem tot_actionSetNWTTL : Tot (subUnpack true actionSetNWTTL) (Spec.V04.actionLay actionSetNWTTL.name) 7 := by action_tot
theorem tot_actionOutput : Tot (subUnpack true actionOutput) (Spec.V04.actionLay actionOutput.name) 7 := by action_tot
theorem tot_actionPopMPLS : Tot (subUnpack true actionPopMPLS) (Spec.V04.actionLay actionPopMPLS.name) 7 := by action_tot
theorem tot_actionPush : Tot (subUnpack true actionPush) (Spec.V04.actionLay actionPush.name) 7 := by action_tot
theorem tot_actionSetQueue : Tot (subUnpack true actionSetQueue) (Spec.V04.actionLay actionSetQueue.name) 7 := by action_tot

theorem tot_actionSetField : Tot (subUnpack true actionSetField) (Spec.V04.actionLay actionSetField.name) 7 := by
  refine tot_sub_auto (s := actionSetField) (nm := "action_type") (nl := "length") (nl' := "length") (dv := .none) rfl lenFmt_setField (uint 2) ?_
  apply TotRun.mono
  · repeat trun1
  · decide

theorem tot_actionExperimenter : Tot (subUnpack true actionExperimenter) (Spec.V04.actionLay actionExperimenter.name) 7 := by
  rw [show Spec.V04.actionLay _ = _ from actionLay_ne (by decide)]
  refine tot_cut (U := objUnpack actionExperimenter.name actionExperimenter.fields) ?_ (nilDirty_obj rfl)
  intro buff off u hb hm hu hc
  obtain ⟨vs, e, h1, rfl⟩ := objUnpack_ok hu
  have run : StabRun [("action_type", ubint 2 (.enum actionTypes)), ("length", ubint 2), ("experimenter", ubint 4), ("body", binAttr)]
      [("action_type", uint 2 (some Spec.V04.actionMembers)), ("length", Spec.V04.u16), ("experimenter", Spec.V04.u32), ("body", Spec.rest)]
      true true 0 := by runs
  obtain ⟨ds, hds⟩ := (run buff off vs e hb (by omega) h1).1 rfl
  have hc2 : sound "04.ActionExperimenter" vs = true := by
    simp only [clean, Bool.and_eq_true] at hc
    exact hc.2
  simp only [sound, if_true] at hc2
  split at hc2
  · next x1 x2 x3 b =>
    obtain ⟨d1, r1, g1, k1, rfl⟩ := denAll_cons.mp hds
    obtain ⟨d2, r2, g2, k2, rfl⟩ := denAll_cons.mp k1
    obtain ⟨d3, r3, g3, k3, rfl⟩ := denAll_cons.mp k2
    have g4 : rest8.den (.bin (.bytes b)) = some (.raw b) := by
      simp only [beq_iff_eq] at hc2
      simp [rest8, Spec.rest, hc2]
    exact ⟨.record [d1, d2, d3, .raw b], by
      show (Spec.struct "04.ActionExperimenter" _).den (.obj "04.ActionExperimenter" _) = _
      simp only [Spec.struct, if_true]
      show (denAll [_, _, _, ("body", rest8)] _).map _ = _
      simp [denAll, g1, g2, g3, g4]⟩
  · cases hc2

theorem tot_action : Tot action.unpack Spec.V04.action 7 := by
  refine tot_delimited 2 ?_
  show Tot (variantUnpack (.enum actionTypes) true pickAction) (union Spec.V04.actionSel Spec.V04.actionLay) 7
  refine tot_variant (t := true) (tot := false) (k := 7) fun n s hm hp => ?_
  have hm := hm _ rfl
  simp only [actionTypes, List.mem_cons, List.not_mem_nil, or_false] at hm
  rcases hm with rfl | rfl | rfl | rfl | rfl | rfl | rfl | rfl | rfl | rfl | rfl | rfl | rfl | rfl | rfl | rfl | rfl
  · cases hp; exact ⟨rfl, sstab_output, tot_actionOutput⟩
  · cases hp; exact ⟨rfl, sstab_copyOut, tot_actionCopyTTLOut⟩
  · cases hp; exact ⟨rfl, sstab_copyIn, tot_actionCopyTTLIn⟩
  · cases hp; exact ⟨rfl, sstab_setMPLS, tot_actionSetMPLSTTL⟩
  · cases hp; exact ⟨rfl, sstab_decMPLS, tot_actionDecMPLSTTL⟩
  · cases hp; exact ⟨rfl, sstab_push, tot_actionPush⟩
  · cases hp; exact ⟨rfl, sstab_popVLAN, tot_actionPopVLAN⟩
  · cases hp; exact ⟨rfl, sstab_push, tot_actionPush⟩
  · cases hp; exact ⟨rfl, sstab_popMPLS, tot_actionPopMPLS⟩
  · cases hp; exact ⟨rfl, sstab_setQueue, tot_actionSetQueue⟩
  · cases hp; exact ⟨rfl, sstab_group, tot_actionGroup⟩
  · cases hp; exact ⟨rfl, sstab_setNW, tot_actionSetNWTTL⟩
  · cases hp; exact ⟨rfl, sstab_decNW, tot_actionDecNWTTL⟩
  · cases hp; exact ⟨rfl, sstab_setField, tot_actionSetField⟩
  · cases hp; exact ⟨rfl, sstab_push, tot_actionPush⟩
  · cases hp; exact ⟨rfl, sstab_popPBB, tot_actionPopPBB⟩
  · cases hp; exact ⟨rfl, sstab_experimenter, tot_actionExperimenter⟩

theorem tot_actions : Tot actions.unpack Spec.V04.actions 7 := tot_list tot_action
macro_rules | `(tactic| tot1) => `(tactic| exact tot_actions)

macro "instr_tot" : tactic => `(tactic| (
  refine tot_sub_auto (nm := "instruction_type") (nl := "length") (nl' := "length") (dv := .none) rfl lenFmt_ownLen (uint 2) ?_
  simp only [Spec.V04.instructionTail]
  apply TotRun.mono
  · repeat trun1
  · decide))

/-- A class of instructions. -/
abbrev InstrTot (s : Sub) : Prop := Tot (subUnpack true s)
  (ownLen s.name [("instruction_type", uint 2 (some Spec.V04.instructionMembers))] (Spec.V04.instructionTail s.name)) 11

theorem tot_goto : InstrTot instructionGotoTable := by instr_tot
theorem tot_writeMetadata : InstrTot instructionWriteMetadata := by instr_tot
theorem tot_meter : InstrTot instructionMeter := by instr_tot
theorem tot_writeAction : InstrTot instructionWriteAction := by instr_tot
theorem tot_applyAction : InstrTot instructionApplyAction := by instr_tot
theorem tot_clearAction : InstrTot instructionClearAction := by instr_tot

theorem tot_instruction : Tot instruction.unpack Spec.V04.instruction 11 := by
  show Tot (variantUnpack (.enum instructionTypes) true pickInstruction) (union Spec.V04.instructionSel _) 11
  refine tot_variant (t := true) (tot := false) (k := 11) fun n s hm hp => ?_
  have hm := hm _ rfl
  simp only [instructionTypes, List.mem_cons, List.not_mem_nil, or_false] at hm
  rcases hm with rfl | rfl | rfl | rfl | rfl | rfl | rfl
  · cases hp; exact ⟨rfl, sstab_goto, tot_goto⟩
  · cases hp; exact ⟨rfl, sstab_writeMetadata, tot_writeMetadata⟩
  · cases hp; exact ⟨rfl, sstab_writeAction, tot_writeAction⟩
  · cases hp; exact ⟨rfl, sstab_applyAction, tot_applyAction⟩
  · cases hp; exact ⟨rfl, sstab_clearAction, tot_clearAction⟩
  · cases hp; exact ⟨rfl, sstab_meter, tot_meter⟩
  · cases hp

theorem tot_instructions : Tot instructions.unpack Spec.V04.instructions 11 := tot_list tot_instruction
macro_rules | `(tactic| tot1) => `(tactic| exact tot_instructions)

abbrev PropTot (s : Sub) : Prop := Tot (subUnpack true s)
  (ownLen s.name [("property_type", uint 2 (some Spec.V04.propertyMembers))] (Spec.V04.propertyTail s.name)) 11

macro "prop_tot" : tactic => `(tactic| (
  refine tot_sub_auto (nm := "property_type") (nl := "length") (nl' := "length") (dv := .int 4) rfl lenFmt_ownLen (uint 2 none (some 4)) ?_
  simp only [Spec.V04.propertyTail]
  apply TotRun.mono
  · repeat trun1
  · decide))

theorem tot_instructionsProperty : PropTot instructionsProperty := by prop_tot
theorem tot_nextTablesProperty : PropTot nextTablesProperty := by prop_tot
theorem tot_actionsProperty : PropTot actionsProperty := by prop_tot
theorem tot_oxmProperty : PropTot oxmProperty := by prop_tot

theorem tot_property : Tot property.unpack Spec.V04.property 11 := by
  show Tot (variantUnpack (.enum propertyTypes) true pickProperty) (union Spec.V04.propertySel _) 11
  refine tot_variant (t := true) (tot := false) (k := 11) fun n s hm hp => ?_
  have hm := hm _ rfl
  simp only [propertyTypes, List.mem_cons, List.not_mem_nil, or_false] at hm
  rcases hm with rfl | rfl | rfl | rfl | rfl | rfl | rfl | rfl | rfl | rfl | rfl | rfl | rfl | rfl | rfl | rfl <;> cases hp <;>
    first
    | exact ⟨rfl, sstab_instructionsProperty, tot_instructionsProperty⟩
    | exact ⟨rfl, sstab_nextTablesProperty, tot_nextTablesProperty⟩
    | exact ⟨rfl, sstab_actionsProperty, tot_actionsProperty⟩
    | exact ⟨rfl, sstab_oxmProperty, tot_oxmProperty⟩

theorem tot_properties : Tot properties.unpack (Spec.list Spec.V04.property) 11 := tot_list tot_property
macro_rules | `(tactic| tot1) => `(tactic| exact tot_properties)

theorem tot_band : Tot band.unpack Spec.V04.band 4 := by
  refine tot_delimited 2 ?_
  show Tot (variantUnpack (.enum bandTypes) true pickBand) (union Spec.V04.bandSel _) 4
  refine tot_variant (t := true) (tot := false) (k := 4) fun n s hm hp => ?_
  have hm := hm _ rfl
  simp only [bandTypes, List.mem_cons, List.not_mem_nil, or_false] at hm
  rcases hm with rfl | rfl | rfl
  · cases hp
    refine ⟨rfl, ?_, ?_⟩
    · refine SubStab.cut (nl := "length") (t := true) (tot := false) (nm := "band_type") rfl rfl ?_
      apply run_part
      · repeat run1
      · decide
    · refine tot_sub_cut (nm := "band_type") (nl := "length") rfl ?_
      apply TotRun.mono
      · repeat trun1
      · decide
  · cases hp
    refine ⟨rfl, ?_, ?_⟩
    · refine SubStab.cut (nl := "length") (t := true) (tot := false) (nm := "band_type") rfl rfl ?_
      apply run_part
      · repeat run1
      · decide
    · refine tot_sub_cut (nm := "band_type") (nl := "length") rfl ?_
      apply TotRun.mono
      · repeat trun1
      · decide
  · cases hp

theorem tot_bands : Tot bands.unpack (Spec.list Spec.V04.band) 4 := tot_list tot_band
macro_rules | `(tactic| tot1) => `(tactic| exact tot_bands)

/-! ## structures with a length -/

theorem tot_tableFeatures : Tot tableFeatures.unpack Spec.V04.tableFeatures 16 := by
  refine tot_cut (tot_auto (nl := "length") lenFmt_ownLen (uint 2) ?_) (nilDirty_obj rfl)
  apply TotRun.mono
  · repeat trun1
  · decide

theorem tot_meterStats : Tot meterStats.unpack Spec.V04.meterStats 6 := by
  refine tot_cut (tot_auto (nl := "length") lenFmt_ownLen (uint 2) ?_) (nilDirty_obj rfl)
  apply TotRun.mono
  · repeat trun1
  · decide

theorem tot_helloElem : Tot helloElem.unpack Spec.V04.helloElem 0 := by
  refine tot_cut (tot_auto (nl := "length") lenFmt_ownLen (uint 2) ?_) (nilDirty_obj rfl)
  apply TotRun.mono
  · repeat trun1
  · decide

theorem tot_flowStats : Tot flowStats.unpack Spec.V04.flowStats 23 := by
  refine tot_delimited 0 (tot_cut (TotRun.obj ?_ _) (nilDirty_obj rfl))
  apply TotRun.mono
  · repeat trun1
  · decide

theorem tot_meterConfig : Tot meterConfig.unpack Spec.V04.meterConfig 4 := by
  refine TotRun.obj ?_ _
  apply TotRun.mono
  · repeat trun1
  · decide

/-! ## buckets -/

theorem tot_bareList {isItem it g s} (h : Tot it.unpack g s) : Tot (bareListAttr isItem it).unpack (Spec.bareList g) s := by
  intro buff off u hb hm hu hc
  obtain ⟨d, hd⟩ := tot_list (isItem := isItem) h buff off u hb hm hu hc
  refine ⟨d, ?_⟩
  simp only [bareListAttr, listAttr] at hu
  cases h1 : unpackItems it buff off with
  | error x => rw [h1] at hu; cases hu
  | ok xs => rw [h1] at hu; cases hu; exact hd

theorem tot_bucket : Tot bucket.unpack Spec.V04.bucket 11 := by
  show Tot (cutU 0 (objUnpack "04.Bucket" bucketCounted)) _ _
  refine tot_cut ?_ (nilDirty_obj rfl)
  have h1 := enc_countedList enc_action itemOk_action
  have h2 : Stab (countedList (isSub actionSubs) action).unpack (bareList Spec.V04.action) true false 7 :=
    stab_bareList (isItem := isSub actionSubs) enc_action stab_action
  have h3 : Tot (countedList (isSub actionSubs) action).unpack (bareList Spec.V04.action) 7 :=
    tot_bareList (isItem := isSub actionSubs) tot_action
  have stab : StabRun bucketCounted [("length", Spec.V04.u16), ("weight", Spec.V04.u16), ("watch_port", Spec.V04.u32),
      ("watch_group", Spec.V04.u32), ("pad", pad 4), ("actions", bareList Spec.V04.action)] true false 11 := by
    unfold bucketCounted
    apply run_part
    · repeat run1
    · decide
  have tot : TotRun bucketCounted [("length", Spec.V04.u16), ("weight", Spec.V04.u16), ("watch_port", Spec.V04.u32),
      ("watch_group", Spec.V04.u32), ("pad", pad 4), ("actions", bareList Spec.V04.action)] 11 := by
    unfold bucketCounted
    apply TotRun.mono
    · repeat trun1
    · decide
  intro buff off u hb hm hu hc
  obtain ⟨vs, e, hv, rfl⟩ := objUnpack_ok hu
  simp only [clean, Bool.and_eq_true] at hc
  obtain ⟨ds, hds⟩ := tot buff off vs e hb hm hv hc.1
  obtain ⟨b, hb1, hb2, hb3, _⟩ := (stab buff off vs e hb hm hv).2 ds hds
  have hden : (Spec.V04.bucketRaw (bareList Spec.V04.action)).den (.obj "04.Bucket" vs) = some (.record ds) := by
    simp [Spec.V04.bucketRaw, Spec.struct, hds]
  have henc : (Spec.V04.bucketRaw (bareList Spec.V04.action)).enc (.record ds) = some b := hb1
  refine ⟨.record ds, ?_⟩
  simp only [Spec.V04.bucket, Spec.exact, hden, henc]
  refine if_pos ?_
  have hs := hc.2
  simp only [sound, if_neg (show ¬ ("04.Bucket" = "04.ActionExperimenter") by decide), if_true] at hs
  split at hs
  · next length w wp wg pd acts =>
    split at hs
    · next n ab hn hab =>
      simp only [beq_iff_eq] at hs
      obtain ⟨d1, r1, g1, k1, rfl⟩ := denAll_cons.mp hds
      obtain ⟨d2, r2, g2, k2, rfl⟩ := denAll_cons.mp k1
      obtain ⟨d3, r3, g3, k3, rfl⟩ := denAll_cons.mp k2
      obtain ⟨d4, r4, g4, k4, rfl⟩ := denAll_cons.mp k3
      obtain ⟨d5, r5, g5, k5, rfl⟩ := denAll_cons.mp k4
      obtain ⟨d6, r6, g6, k6, rfl⟩ := denAll_cons.mp k5
      obtain ⟨_, rfl⟩ := denAll_nil_inv k6
      obtain ⟨b1, c1, f1, j1, rfl⟩ := encAll_cons.mp hb1
      obtain ⟨b2, c2, f2, j2, rfl⟩ := encAll_cons.mp j1
      obtain ⟨b3, c3, f3, j3, rfl⟩ := encAll_cons.mp j2
      obtain ⟨b4, c4, f4, j4, rfl⟩ := encAll_cons.mp j3
      obtain ⟨b5, c5, f5, j5, rfl⟩ := encAll_cons.mp j4
      obtain ⟨b6, c6, f6, j6, rfl⟩ := encAll_cons.mp j5
      simp only [encAll, Option.some.injEq] at j6
      subst j6
      have hd1 : d1 = .num n := by
        cases length <;> first | (simp [numOf] at hn; done) | (simp [Spec.V04.u16, uint, hn] at g1; exact g1.symm)
      subst hd1
      obtain ⟨n1, hn1, _, rfl⟩ := uint_enc_inv f1
      cases hn1
      obtain ⟨n2, _, _, rfl⟩ := uint_enc_inv f2
      obtain ⟨n3, _, _, rfl⟩ := uint_enc_inv f3
      obtain ⟨n4, _, _, rfl⟩ := uint_enc_inv f4
      have hb5 : b5.length = 4 := by
        simp only [Spec.pad] at f5
        split at f5
        · cases f5; simp
        · cases f5
      have hb6 : b6.length = ab.length := by
        obtain ⟨_, g6⟩ := bareList_den_inv g6
        rw [show Spec.V04.actions.den acts = some d6 from g6] at hab
        have : some b6 = some ab := f6.symm.trans hab
        cases this
        rfl
      have hlen : (be 2 n ++ (be 2 n2 ++ (be 4 n3 ++ (be 4 n4 ++ (b5 ++ (b6 ++ [])))))).length = n := by
        simp; omega
      refine ⟨?_, ?_⟩
      · rw [hlen]
        have := slice_mid' [] (be 2 n) (be 2 n2 ++ (be 4 n3 ++ (be 4 n4 ++ (b5 ++ (b6 ++ []))))) (n := 2) (by simp)
        simpa using this
      · rw [hlen]; simpa using ‹n < 256 ^ 2›
    · cases hs
  · cases hs

theorem tot_buckets : Tot buckets.unpack (Spec.list Spec.V04.bucket) 11 := tot_list tot_bucket
macro_rules | `(tactic| tot1) => `(tactic| exact tot_buckets)

/-! ## lists that are not counted -/

/-- Attributes of which the last is a list that is not counted. -/
theorem tot_noItems {cs fs t s} {n m : String} {c : Attr} (h : StabRun cs fs t true s) {buff off vs e} (hb : buff ≠ [])
    (hm : max off buff.length + s < 65536) (hu : unpackAttrs (cs ++ [(n, c)]) buff off = .ok (vs, e))
    (hl : vs.getLast? = some (.list true [])) : ∃ ds, denAll (fs ++ [(m, noItems)]) vs = some ds := by
  obtain ⟨vs₁, e₁, vs₂, e₂, h1, h2, heq⟩ := unpackAttrs_append.mp hu
  cases heq
  obtain ⟨v, vs, k, rfl, _, _, h3⟩ := first_attr h2 hb
  simp only [unpackAttrs] at h3
  cases h3
  simp only [List.getLast?_append, List.getLast?_singleton, Option.some_or, Option.some.injEq] at hl
  subst hl
  obtain ⟨ds, hds⟩ := (h buff off vs₁ e₁ hb hm h1).1 rfl
  exact ⟨_, denAll_append hds (es := [.arr []]) (by simp [denAll, noItems])⟩

theorem sound_last {cls : String} {vs : List Val} (h : sound cls vs = true) (hc : cls = "04.GroupDescStats" ∨ cls = "04.MeterMod") :
    vs.getLast? = some (.list true []) := by
  have h1 : cls ≠ "04.ActionExperimenter" := by rcases hc with rfl | rfl <;> decide
  have h2 : cls ≠ "04.Bucket" := by rcases hc with rfl | rfl <;> decide
  simp only [sound, if_neg h1, if_neg h2, if_pos hc] at h
  split at h
  · next h3 => exact h3
  · cases h

theorem tot_groupDescStats : Tot groupDescStats.unpack Spec.V04.groupDescStats 1 := by
  intro buff off u hb hm hu hc
  obtain ⟨vs, e, h1, rfl⟩ := objUnpack_ok (cls := "04.GroupDescStats") hu
  simp only [clean, Bool.and_eq_true] at hc
  have run : StabRun [("length", ubint 2), ("group_type", ubint 1), ("pad", padAttr 1), ("group_id", ubint 4)]
      [("length", Spec.V04.u16), ("group_type", Spec.V04.u8), ("pad", pad 1), ("group_id", Spec.V04.u32)] true true 1 := by runs
  have hl := sound_last hc.2 (.inl rfl)
  obtain ⟨ds, hds⟩ := tot_noItems (m := "buckets") run hb hm h1 hl
  refine ⟨.record ds, ?_⟩
  simp only [List.cons_append, List.nil_append] at hds
  simp only [Spec.V04.groupDescStats, Spec.struct, if_true, hds]
  rfl

end V04
end Pyof
