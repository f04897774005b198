import Verif.Spec.Local
import Verif.Model.Extra
import Verif.Lemmas.Window
import Verif.Lemmas.StableCut
import Verif.Lemmas.ErrsV01
import Verif.Lemmas.ErrsV04
/-!
# What precedes the offset does not matter, class by class
-/
namespace Pyof
open Spec

theorem slice_of_drop (b : Bytes) (o n : Nat) : slice b o (o + n) = (b.drop o).take n := by
  have := slice_drop b o 0 n
  simpa using this

theorem drop_more {a b : Bytes} {o o' : Nat} (h : a.drop o = b.drop o') (k : Nat) : a.drop (o + k) = b.drop (o' + k) := by
  rw [← List.drop_drop, ← List.drop_drop, h]

theorem drop_cut {a b : Bytes} {o o' : Nat} (h : a.drop o = b.drop o') (n : Nat) : (a.take (o + n)).drop o = (b.take (o' + n)).drop o' := by
  have e1 := slice_of_drop a o n
  have e2 := slice_of_drop b o' n
  unfold slice at e1 e2
  rw [e1, e2, h]

theorem take_ne {a : Bytes} {o n : Nat} (ha : a ≠ []) (ho : 1 ≤ o) : a.take (o + n) ≠ [] := by
  cases a with
  | nil => exact absurd rfl ha
  | cons x xs =>
    obtain ⟨m, hm⟩ : ∃ m, o + n = m + 1 := ⟨o + n - 1, by omega⟩
    rw [hm]; simp

theorem ubUnpack_drop {w ref a b o o'} (hw : 0 < w) (h : a.drop o = b.drop o') : ubUnpack w ref a o = ubUnpack w ref b o' := by
  have hl := congrArg List.length h
  simp only [List.length_drop] at hl
  have : unpackFrom w a o = unpackFrom w b o' := by
    simp only [unpackFrom, slice_of_drop, h]
    by_cases hc : o + w ≤ a.length
    · rw [if_pos hc, if_pos (by omega)]
    · rw [if_neg hc, if_neg (by omega)]
  simp only [ubUnpack, this]

theorem local_window {lo c n} (h : Window c n) : Local lo c := by
  intro a b o o' ha hb _ _ hd
  refine h.same a b o o' ha hb ?_
  rw [slice_of_drop, slice_of_drop, hd]

theorem local_num {lo w ref d} (hw : 0 < w) : Local lo (ubint w ref d) := fun _ _ _ _ _ _ _ _ h => ubUnpack_drop hw h
theorem local_pad {lo n} : Local lo (padAttr n) := local_window (window_pad n)
theorem local_hw {lo d} : Local lo (hwAttr d) := local_window (window_hw d)
theorem local_ip {lo a m} : Local lo (ipAttr a m) := local_window (window_ip a m)
theorem local_char {lo n} : Local lo (charAttr n) := local_window (window_char n)
theorem local_bin {lo d} : Local lo (binAttr d) := by
  intro a b o o' _ _ _ _ h
  simp only [binAttr, h]

/-- The same for consecutive attributes; the distance from the offset to the end is the same too. -/
def FLocal (lo : Nat) (fs : Fields) : Prop :=
  ∀ a b o o', a ≠ [] → b ≠ [] → lo ≤ o → lo ≤ o' → a.drop o = b.drop o' →
    ∃ r : Res (List Val × Nat), unpackAttrs fs a o = r.map (fun p => (p.1, o + p.2)) ∧ unpackAttrs fs b o' = r.map (fun p => (p.1, o' + p.2))

theorem FLocal.nil {lo} : FLocal lo [] := by
  intro a b o o' _ _ _ _ _
  exact ⟨.ok ([], 0), rfl, rfl⟩

theorem FLocal.cons {lo n c fs} (hc : Local lo c) (hf : FLocal lo fs) : FLocal lo ((n, c) :: fs) := by
  intro a b o o' ha hb ho ho' hd
  have e := hc a b o o' ha hb ho ho' hd
  simp only [unpackAttrs, unpackAttr, if_neg ha, if_neg hb, e]
  cases hu : c.unpack b o' with
  | error e => exact ⟨.error e, rfl, rfl⟩
  | ok v =>
    cases hs : c.usize v with
    | error e => exact ⟨.error e, by simp only [hs]; rfl, by simp only [hs]; rfl⟩
    | ok k =>
      obtain ⟨r, h1, h2⟩ := hf a b (o + k) (o' + k) ha hb (by omega) (by omega) (drop_more hd k)
      simp only [hs, h1, h2]
      cases r with
      | error e => exact ⟨.error e, rfl, rfl⟩
      | ok p => exact ⟨.ok (v :: p.1, k + p.2), by simp [Except.map, Nat.add_assoc], by simp [Except.map, Nat.add_assoc]⟩

theorem local_struct {lo cls fields init} (hf : FLocal lo fields) : Local lo (structAttr cls fields init) := by
  intro a b o o' ha hb ho ho' hd
  obtain ⟨r, h1, h2⟩ := hf a b o o' ha hb ho ho' hd
  simp only [structAttr, h1, h2]
  cases r <;> rfl

theorem local_auto {lo cls fields i init} (hf : FLocal lo fields) : Local lo (autoStruct cls fields i init) :=
  local_struct (init := init) hf

theorem local_cut {k c} (h : Local 1 c) : Local 1 (lengthCut k c) := by
  intro a b o o' ha hb ho ho' hd
  simp only [lengthCut]
  rw [ubUnpack_drop (ref := .none) (w := 2) (by decide) (drop_more hd k)]
  cases ubUnpack 2 .none b (o' + k) with
  | error e => rfl
  | ok n => exact h _ _ _ _ (take_ne ha ho) (take_ne hb ho') ho ho' (drop_cut hd _)

theorem local_variant {lo proto ref tr pick subs} (hl : tr = true → 1 ≤ lo) (hs : ∀ {t s}, pick t = .ok s → FLocal lo s.fields) :
    Local lo (variantAttr proto ref tr pick subs) := by
  intro a b o o' ha hb ho ho' hd
  simp only [variantAttr, variantUnpack]
  rw [ubUnpack_drop (ref := ref) (w := 2) (by decide) hd, ubUnpack_drop (ref := .none) (w := 2) (by decide) (drop_more hd 2)]
  cases ubUnpack 2 ref b o' with
  | error e => rfl
  | ok t =>
    simp only
    cases hp : pick (gotNum t) with
    | error e => rfl
    | ok s =>
      simp only
      cases tr with
      | false =>
        obtain ⟨r, h1, h2⟩ := hs hp a b o o' ha hb ho ho' hd
        simp only [Bool.false_eq_true, if_false, h1, h2]
        cases r <;> rfl
      | true =>
        simp only [if_true]
        cases ubUnpack 2 .none b (o' + 2) with
        | error e => rfl
        | ok n =>
          have hlo := hl rfl
          obtain ⟨r, h1, h2⟩ := hs hp _ _ o o' (take_ne (n := gotNum n) ha (by omega)) (take_ne (n := gotNum n) hb (by omega)) ho ho'
            (drop_cut hd (gotNum n))
          simp only [h1, h2]
          cases r <;> rfl

theorem unpackItems_local {lo it} (hi : Local lo it) {a b : Bytes} (ha : a ≠ []) (hb : b ≠ []) : ∀ (m o o' : Nat), a.length - o ≤ m → lo ≤ o → lo ≤ o' →
    a.drop o = b.drop o' → unpackItems it a o = unpackItems it b o' := by
  intro m
  induction m with
  | zero =>
    intro o o' hm ho ho' hd
    have hl := congrArg List.length hd
    simp only [List.length_drop] at hl
    rw [unpackItems, unpackItems, if_neg (by omega), if_neg (by omega)]
  | succ m ih =>
    intro o o' hm ho ho' hd
    have hl := congrArg List.length hd
    simp only [List.length_drop] at hl
    rw [unpackItems, unpackItems]
    by_cases hc : o < a.length
    · rw [if_pos hc, if_pos (by omega), hi a b o o' ha hb ho ho' hd]
      cases it.unpack b o' with
      | error e => rfl
      | ok u =>
        simp only
        cases it.usize u with
        | error e => rfl
        | ok n =>
          simp only
          by_cases hn : n = 0
          · simp only [hn, if_true]
          · simp only [if_neg hn]
            rw [ih (o + n) (o' + n) (by omega) (by omega) (by omega) (drop_more hd n)]
    · rw [if_neg hc, if_neg (by omega)]

theorem local_list {lo isItem it} (hi : Local lo it) : Local lo (listAttr isItem it) := by
  intro a b o o' ha hb ho ho' hd
  simp only [listAttr, unpackItems_local hi ha hb _ o o' (Nat.le_refl _) ho ho' hd]

theorem local_bare {lo isItem it} (hi : Local lo it) : Local lo (bareListAttr isItem it) := local_list (isItem := isItem) hi

macro "flocal" : tactic => `(tactic| repeat' (first
  | exact FLocal.nil
  | exact local_pad
  | exact local_hw
  | exact local_ip
  | exact local_char
  | exact local_bin
  | (exact local_num (by decide))
  | assumption
  | apply FLocal.cons
  | apply local_struct))

namespace V01

theorem local_action {lo} : Local lo action := by
  refine local_variant (by simp) ?_
  intro t s h
  obtain ⟨s', h', hs⟩ := pickAction_total t
  cases h.symm.trans h'
  rcases hs with rfl | ⟨p, hp, rfl⟩
  · show FLocal lo actionHead
    unfold actionHead; flocal
  · simp only [actionClasses, List.mem_cons, List.not_mem_nil, or_false] at hp
    rcases hp with rfl | rfl | rfl | rfl | rfl | rfl | rfl | rfl | rfl | rfl <;>
      · simp only [actionOutput, actionStripVlan, actionEnqueue, actionVlanVid, actionVlanPCP, actionDLAddr, actionNWAddr, actionNWTos,
          actionTPPort, actionVendorHeader, plainSub, actionHead, List.cons_append, List.nil_append]
        flocal

theorem local_actions {lo} : Local lo actions := local_list local_action

theorem local_match {lo} : Local lo «match» := by
  intro a b o o' ha hb ho ho' hd
  have hf : FLocal lo matchFields := by unfold matchFields; flocal
  obtain ⟨r, h1, h2⟩ := hf a b o o' ha hb ho ho' hd
  simp only [«match», matchUnpack, h1, h2, ubUnpack_drop (ref := .mask) (w := 4) (by decide) hd]
  cases r <;> rfl

theorem local_phyPort {lo} : Local lo phyPort := local_struct (by unfold phyPortFields; flocal)
theorem local_phyPorts {lo} : Local lo phyPorts := local_list local_phyPort
theorem local_queueProp {lo} : Local lo queuePropHeader := local_struct (by unfold queuePropHeaderFields; flocal)
theorem local_queueProps {lo} : Local lo queueProps := local_list local_queueProp
theorem local_packetQueue {lo} : Local lo packetQueue := by
  have := @local_queueProps lo
  exact local_struct (by unfold packetQueueFields; flocal)
theorem local_queues {lo} : Local lo queues := local_list local_packetQueue
theorem local_queuePropMinRate {lo} : Local lo queuePropMinRate := by
  have h := @local_queueProp lo
  exact local_struct (fields := queuePropMinRateFields) (FLocal.cons (fun a b o o' h1 h2 h3 h4 h5 => h a b o o' h1 h2 h3 h4 h5) (by flocal))
theorem local_flowStats : Local 1 flowStats := by
  have h1 := @local_match 1
  have h2 := @local_actions 1
  exact local_cut (local_struct (by unfold flowStatsFields; flocal))

end V01

namespace V04

theorem local_oxm {lo} : Local lo oxm := by
  intro a b o o' ha hb ho ho' hd
  have hf : FLocal lo oxmFields := by unfold oxmFields; flocal
  obtain ⟨r, h1, h2⟩ := hf a b o o' ha hb ho ho' hd
  simp only [oxm, oxmUnpack, h1, h2, slice_of_drop, drop_more hd 4]
  cases r with
  | error e => rfl
  | ok p =>
    obtain ⟨vs, k⟩ := p
    obtain ⟨c, f, l, x, rfl, -⟩ := oxm_shape ha h1
    rfl

theorem local_oxms {lo} : Local lo oxms := local_list local_oxm

theorem local_match : Local 1 «match» := by
  intro a b o o' ha hb ho ho' hd
  have hf : FLocal 1 [("match_type", ubint 2 (.enum [0, 1])), ("length", ubint 2)] := by flocal
  obtain ⟨r, h1, h2⟩ := hf a b o o' ha hb ho ho' hd
  simp only [«match», matchUnpack, h1, h2]
  cases r with
  | error e => rfl
  | ok p =>
    obtain ⟨vs, k⟩ := p
    obtain ⟨t, n, rfl, -⟩ := matchHead_shape ha h1
    simp only [Except.map]
    have ha' := take_ne (n := (n : Int).toNat) ha ho
    have hb' := take_ne (n := (n : Int).toNat) hb ho'
    have hd' := drop_more (drop_cut hd (n : Int).toNat) k
    simp only [unpackAttr, if_neg ha', if_neg hb', @local_oxms 1 _ _ (o + k) (o' + k) ha' hb' (by omega) (by omega) hd']

theorem local_action : Local 1 action := by
  refine local_variant (by simp) ?_
  intro t s h
  have ho := @local_oxm 1
  obtain ⟨s', h', hs⟩ := pickAction_total t
  cases h.symm.trans h'
  rcases hs with rfl | ⟨p, hp, rfl⟩
  · show FLocal 1 (actionHead ++ [])
    unfold actionHead; simp only [List.append_nil]; flocal
  · simp only [actionClasses, List.mem_cons, List.not_mem_nil, or_false] at hp
    rcases hp with rfl | rfl | rfl | rfl | rfl | rfl | rfl | rfl | rfl | rfl | rfl | rfl | rfl | rfl | rfl <;>
      · simp only [actionExperimenter, actionGroup, actionDecMPLSTTL, actionSetMPLSTTL, actionCopyTTLIn, actionCopyTTLOut, actionPopVLAN,
          actionPopPBB, actionDecNWTTL, actionSetNWTTL, actionOutput, actionPopMPLS, actionPush, actionSetField, actionSetQueue, actionSub,
          setFieldFields, actionHead, List.cons_append, List.nil_append]
        flocal

theorem local_actions : Local 1 actions := local_list local_action

theorem local_instruction : Local 1 instruction := by
  refine local_variant (by simp) ?_
  intro t s h
  have ha := local_actions
  unfold pickInstruction at h
  split at h <;> cases h <;>
    · simp only [instructionApplyAction, instructionClearAction, instructionGotoTable, instructionMeter, instructionWriteAction,
        instructionWriteMetadata, instructionSub, autoSub, instructionHead, List.cons_append, List.nil_append]
      flocal

theorem local_instructions : Local 1 instructions := local_list local_instruction

theorem local_band : Local 1 band := by
  refine local_variant (by simp) ?_
  intro t s h
  unfold pickBand at h
  split at h <;> cases h <;>
    · simp only [bandDrop, bandDscpRemark, bandExperimenter, plainSub, bandHead, List.cons_append, List.nil_append]
      flocal

theorem local_property : Local 1 property := by
  refine local_variant (by simp) ?_
  intro t s h
  have h1 := local_actions
  have h2 := local_instructions
  have h3 := @local_oxms 1
  unfold pickProperty at h
  repeat' split at h
  all_goals
    cases h
    simp only [instructionsProperty, nextTablesProperty, actionsProperty, oxmProperty, propertySub, autoSub, propertyHead, List.cons_append,
      List.nil_append]
    flocal

theorem local_properties : Local 1 properties := local_list local_property
theorem local_bands : Local 1 bands := local_list local_band
theorem local_port {lo} : Local lo port := local_struct (by unfold portFields; flocal)
theorem local_queueProp {lo} : Local lo queuePropHeader := local_struct (by unfold queuePropHeaderFields; flocal)
theorem local_queueProps {lo} : Local lo queueProps := local_list local_queueProp
theorem local_packetQueue {lo} : Local lo packetQueue := by
  have := @local_queueProps lo
  exact local_struct (by unfold packetQueueFields; flocal)
theorem local_queues {lo} : Local lo queues := local_list local_packetQueue
theorem local_bucket : Local 1 bucket := by
  have h := local_bare (isItem := isSub actionSubs) local_action
  have := local_struct (cls := "04.Bucket") (init := [.none, .none, .none, .none, .pad 4, .none]) (show FLocal 1 bucketFields by unfold bucketFields; flocal)
  exact local_cut (fun a b o o' h1 h2 h3 h4 h5 => this a b o o' h1 h2 h3 h4 h5)
theorem local_buckets : Local 1 buckets := local_list local_bucket
theorem local_tableFeatures : Local 1 tableFeatures := by
  have h := local_properties
  exact local_cut (local_auto (by unfold tableFeaturesFields; flocal))
theorem local_flowStatsRequestFields : FLocal 1 flowStatsRequestFields := by
  have h := local_match
  unfold flowStatsRequestFields; flocal
theorem local_flowStats : Local 1 flowStats := by
  have h1 := local_match
  have h2 := local_instructions
  exact local_cut (local_struct (by unfold flowStatsFields; flocal))
theorem local_groupDescStats : Local 1 groupDescStats := by
  have h := local_bare (isItem := isObj "04.Bucket") local_bucket
  exact local_struct (by flocal)
theorem local_bucketCounters {lo} : Local lo bucketCounters := local_list (local_struct (by flocal))
theorem local_groupStats {lo} : Local lo groupStats := by
  have h := @local_bucketCounters lo
  exact local_struct (by flocal)
theorem local_meterConfig : Local 1 meterConfig := by
  have h := local_bands
  exact local_struct (by flocal)
theorem local_bandStatsList {lo} : Local lo bandStatsList := local_list (local_struct (by flocal))
theorem local_meterStats : Local 1 meterStats := by
  have h := @local_bandStatsList 1
  exact local_cut (local_auto (by unfold meterStatsFields; flocal))
theorem local_helloElem : Local 1 helloElem := local_cut (local_auto (by unfold helloElemFields; flocal))

end V04

end Pyof
