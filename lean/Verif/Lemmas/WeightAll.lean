import Verif.Lemmas.Weight
/-! `Lin` for every class. -/
namespace Pyof
open Spec

/-- The sum over the attributes is within the bounds of the goal. -/
macro "flinle" : tactic => `(tactic| (apply FLin.le; (· flin); all_goals decide))

namespace V01

theorem lin_actionSub {t s} (h : pickAction t = .ok s) : FLin 0 0 s.fields ∧ weights (protos s.fields) + 1 ≤ 40 := by
  obtain ⟨s', h', hs⟩ := pickAction_total t
  cases h.symm.trans h'
  rcases hs with rfl | ⟨p, hp, rfl⟩
  · refine ⟨?_, by decide⟩
    show FLin 0 0 actionHead
    unfold actionHead; flinle
  · simp only [actionClasses, List.mem_cons, List.not_mem_nil, or_false] at hp
    rcases hp with rfl | rfl | rfl | rfl | rfl | rfl | rfl | rfl | rfl | rfl <;>
      · refine ⟨?_, by decide⟩
        simp only [actionOutput, actionStripVlan, actionEnqueue, actionVlanVid, actionVlanPCP, actionDLAddr, actionNWAddr, actionNWTos,
          actionTPPort, actionVendorHeader, plainSub, actionHead, List.cons_append, List.nil_append]
        flinle

theorem lin_action : Lin 40 0 action := lin_variant (d := 0) (fun h => ⟨(fol_actionSub h).1, (fol_actionSub h).2, (lin_actionSub h).1, (lin_actionSub h).2⟩) (by decide)
theorem lin_actions : Lin 40 1 actions := lin_list lin_action

theorem lin_match : Lin 0 0 «match» := by
  have hf : FFol 4 matchFields := by unfold matchFields; ffol
  have hl : FLin 0 0 matchFields := by unfold matchFields; flinle
  intro a o u n ha hu hn
  simp only [«match», matchUnpack] at hu
  split at hu
  · cases hu
  rename_i vs z h1
  split at hu
  · cases hu
  rename_i w h2
  cases hu
  obtain ⟨m, g1, g2, rfl, _⟩ := hf a o vs z ha h1
  have g3 := (hl ha h1).2
  obtain ⟨v, k, ws, e1, e2, e3, rfl⟩ := unpackAttrs_cons_inv ha h1
  have : «match».usize (.obj "01.Match" (w :: List.drop 1 (v :: ws))) = sizeAttrs matchFields (v :: ws) := rfl
  rw [this, g2] at hn
  cases hn
  have w1 := ub_weight h2
  have w2 : weight v = 2 := ub_weight (w := 4) (ref := .mask) e1
  simp only [weight, weights, List.drop_succ_cons, List.drop_zero] at g3 ⊢
  omega

theorem lin_phyPort : Lin 0 0 phyPort := lin_struct (k := 0) (by unfold phyPortFields; ffol) (by unfold phyPortFields; flinle)
theorem lin_phyPorts : Lin 0 1 phyPorts := lin_list lin_phyPort
theorem lin_queueProp : Lin 0 0 queuePropHeader := lin_struct (k := 0) (by unfold queuePropHeaderFields; ffol) (by unfold queuePropHeaderFields; flinle)
theorem lin_queueProps : Lin 0 1 queueProps := lin_list lin_queueProp
theorem lin_packetQueue : Lin 0 0 packetQueue := by
  have := fol_queueProps
  have := lin_queueProps
  exact lin_struct (k := 0) (by unfold packetQueueFields; ffol) (by unfold packetQueueFields; flinle)
theorem lin_queues : Lin 0 1 queues := lin_list lin_packetQueue
theorem lin_queuePropMinRate : Lin 0 0 queuePropMinRate := by
  have h := fol_queueProp
  have h' := lin_queueProp
  exact lin_struct (k := 0) (fields := queuePropMinRateFields) (FFol.cons ⟨fun h1 h2 => h.agree h1 h2, h.follow⟩ (by ffol)) (by
    apply FLin.le
    · exact FLin.cons (d := 0) (e := 0) (fun _ _ _ _ h1 h2 h3 => h' h1 h2 h3) (by flin)
    all_goals decide)
theorem lin_flowStats : Lin 150 0 flowStats := by
  have h1 := fol_match
  have h2 := fol_actions
  have h3 := lin_match
  have h4 := lin_actions
  exact lin_cut (d := 40) (k := 0) (by unfold flowStatsFields; ffol) (by unfold flowStatsFields; flinle) (by decide) (by decide)
theorem lin_portStatsRequest : Lin 0 0 portStatsRequest := lin_struct (k := 0) (by ffol) (by flinle)

end V01

namespace V04

theorem lin_oxm : Lin 0 0 oxm := by
  intro a o u n ha hu hn
  have key : ∀ {c f m : Val} {x y : Nat} {bs : Bytes}, weight c = 2 → weight f = 1 → weight m = 1 → o + 4 ≤ a.length → bs.length + o + 4 ≤ a.length →
      u = .obj "04.OxmTLV" [c, .ub 1 (.int x), .ub 1 (.int y), .bytes bs, f, m] → weight u ≤ atStart 0 o + 0 + 5 * min n (a.length - o) := by
    intro c f m x y bs hc hf hm h4 hl he
    subst he
    cases hn
    simp only [weight, weights, hc, hf, hm]
    omega
  simp only [oxm, oxmUnpack] at hu
  cases hx : unpackAttrs oxmFields a o with
  | error e' => simp only [hx] at hu; cases hu
  | ok q =>
    obtain ⟨vs, e'⟩ := q
    obtain ⟨c, x, y, d, rfl, g1, g2, g3⟩ := oxmHead ha hx
    have w1 : weight c = 2 := ub_weight (w := 2) (ref := .enum oxmClasses) g1
    have hl := ubUnpack_fits (w := 1) (ref := .none) (by decide) g3
    simp only [hx] at hu
    have hs : ∀ k, (slice a (o + 4) (o + 4 + k)).length + o + 4 ≤ a.length := by
      intro k; rw [slice_length]; omega
    split at hu
    · split at hu
      · cases hu
        exact key w1 rfl rfl (by omega) (hs _) rfl
      · cases hu
    · cases hu
      exact key w1 rfl rfl (by omega) (hs _) rfl

theorem lin_oxms : Lin 0 1 oxms := lin_list lin_oxm

theorem lin_match : Lin 0 0 «match» := by
  intro a o u n ha hu hn
  simp only [«match», matchUnpack] at hu
  cases h1 : unpackAttrs [("match_type", ubint 2 (.enum [0, 1])), ("length", ubint 2)] a o with
  | error e => simp [h1] at hu
  | ok q =>
    obtain ⟨vs, e⟩ := q
    obtain ⟨c, L, rfl, rfl⟩ := matchHead_shape ha h1
    obtain ⟨_, _, _, k1, k2, hr, he⟩ := unpackAttrs_cons_inv ha h1
    cases k2
    cases he
    have hw : weight c = 2 := ub_weight (w := 2) (ref := .enum [0, 1]) k1
    obtain ⟨_, _, _, k3, _, _, _⟩ := unpackAttrs_cons_inv ha hr
    have hfit := ubUnpack_fits (w := 2) (ref := .none) (by decide) k3
    simp only [h1] at hu
    split at hu
    · cases hu
    rename_i xs e' h2
    cases hu
    rw [match_usize] at hn
    obtain ⟨k, hk, rfl⟩ : ∃ k, oxms.size xs = .ok k ∧ n = ceil8 (4 + k) := by
      cases hs : oxms.size xs with
      | error e => simp [hs] at hn
      | ok k => simp only [hs] at hn; cases hn; exact ⟨k, rfl, by congr 1; omega⟩
    have hx : weight xs ≤ 1 + 5 * min k (a.length - (o + 4)) := by
      by_cases hc : a.take (o + (L : Int).toNat) = []
      · simp only [unpackAttr, hc, if_true] at h2
        cases h2
        have : weight oxms.proto = 1 := rfl
        omega
      · simp only [unpackAttr, if_neg hc] at h2
        split at h2
        · cases h2
        rename_i u hu
        split at h2
        · cases h2
        rename_i j hj
        cases h2
        have := fol_oxms.agree hc hu
        rw [hk, hj] at this
        cases this
        have h5 := lin_oxms hc hu hj
        rw [atStart_pos (by omega)] at h5
        have : (a.take (o + (L : Int).toNat)).length ≤ a.length := by simp; omega
        omega
    simp only [weight, weights, ceil8]
    have : atStart 0 o = 0 := by unfold atStart; split <;> rfl
    omega

theorem lin_actionSub {t s} (h : pickAction t = .ok s) : FLin 0 0 s.fields ∧ weights (protos s.fields) + 1 ≤ 40 := by
  have ho := lin_oxm
  obtain ⟨s', h', hs⟩ := pickAction_total t
  cases h.symm.trans h'
  rcases hs with rfl | ⟨p, hp, rfl⟩
  · refine ⟨?_, by decide⟩
    show FLin 0 0 (actionHead ++ [])
    unfold actionHead; simp only [List.append_nil]; flinle
  · simp only [actionClasses, List.mem_cons, List.not_mem_nil, or_false] at hp
    rcases hp with rfl | rfl | rfl | rfl | rfl | rfl | rfl | rfl | rfl | rfl | rfl | rfl | rfl | rfl | rfl <;>
      · refine ⟨?_, by decide⟩
        simp only [actionExperimenter, actionGroup, actionDecMPLSTTL, actionSetMPLSTTL, actionCopyTTLIn, actionCopyTTLOut, actionPopVLAN,
          actionPopPBB, actionDecNWTTL, actionSetNWTTL, actionOutput, actionPopMPLS, actionPush, actionSetField, actionSetQueue, actionSub,
          setFieldFields, actionHead, List.cons_append, List.nil_append]
        flinle

theorem lin_action : Lin 40 0 action := lin_variant (d := 0) (fun h => ⟨(fol_actionSub h).1, (fol_actionSub h).2, (lin_actionSub h).1, (lin_actionSub h).2⟩) (by decide)
theorem lin_actions : Lin 40 1 actions := lin_list lin_action

theorem subs_lin {pick subs proto ref tr d d' e} (hv : ∀ {t s}, pick t = .ok s → SubFol s ∧ subOf subs s.name = some s) (hd : d ≤ d')
    (hl : ∀ {t s}, pick t = .ok s → FLin d e s.fields ∧ weights (protos s.fields) + 1 ≤ d') : Lin d' e (variantAttr proto ref tr pick subs) :=
  lin_variant (fun h => ⟨(hv h).1, (hv h).2, (hl h).1, (hl h).2⟩) hd

theorem lin_instructionSub {t s} (h : pickInstruction t = .ok s) : FLin 40 0 s.fields ∧ weights (protos s.fields) + 1 ≤ 40 := by
  have ha := lin_actions
  unfold pickInstruction at h
  split at h <;> cases h <;>
    · refine ⟨?_, by decide⟩
      simp only [instructionApplyAction, instructionClearAction, instructionGotoTable, instructionMeter, instructionWriteAction,
        instructionWriteMetadata, instructionSub, autoSub, instructionHead, List.cons_append, List.nil_append]
      flinle

theorem lin_instruction : Lin 40 0 instruction := subs_lin subFol_instruction (Nat.le_refl _) lin_instructionSub
theorem lin_instructions : Lin 40 1 instructions := lin_list lin_instruction

theorem lin_bandSub {t s} (h : pickBand t = .ok s) : FLin 0 0 s.fields ∧ weights (protos s.fields) + 1 ≤ 40 := by
  unfold pickBand at h
  split at h <;> cases h <;>
    · refine ⟨?_, by decide⟩
      simp only [bandDrop, bandDscpRemark, bandExperimenter, plainSub, bandHead, List.cons_append, List.nil_append]
      flinle

theorem lin_band : Lin 40 0 band := subs_lin subFol_band (by decide) lin_bandSub
theorem lin_bands : Lin 40 1 bands := lin_list lin_band

theorem lin_propertySub {t s} (h : pickProperty t = .ok s) : FLin 40 0 s.fields ∧ weights (protos s.fields) + 1 ≤ 40 := by
  have h1 := lin_actions
  have h3 := lin_oxms
  have h2 := lin_instructions
  unfold pickProperty at h
  repeat' split at h
  all_goals
    cases h
    refine ⟨?_, by decide⟩
    simp only [instructionsProperty, nextTablesProperty, actionsProperty, oxmProperty, propertySub, autoSub, propertyHead, List.cons_append,
      List.nil_append]
    flinle

theorem lin_property : Lin 40 0 property := subs_lin subFol_property (Nat.le_refl _) lin_propertySub
theorem lin_properties : Lin 40 1 properties := lin_list lin_property
theorem lin_port : Lin 0 0 port := lin_struct (k := 0) (by unfold portFields; ffol) (by unfold portFields; flinle)
theorem lin_ports : Lin 0 1 ports := lin_list lin_port
theorem lin_queueProp : Lin 0 0 queuePropHeader := lin_struct (k := 0) (by unfold queuePropHeaderFields; ffol) (by unfold queuePropHeaderFields; flinle)
theorem lin_queueProps : Lin 0 1 queueProps := lin_list lin_queueProp
theorem lin_packetQueue : Lin 0 0 packetQueue := by
  have := fol_queueProps
  have := lin_queueProps
  exact lin_struct (k := 0) (by unfold packetQueueFields; ffol) (by unfold packetQueueFields; flinle)
theorem lin_queues : Lin 0 1 queues := lin_list lin_packetQueue

theorem lin_bucketFields : FLin 40 0 bucketFields := by
  have := lin_actions
  unfold bucketFields; flinle

theorem lin_bucket : Lin 40 0 bucket := by
  intro a o u n ha hu hn
  obtain ⟨L, vs, z, hL, h1, rfl⟩ := bucket_inv hu
  have hc : a.take (o + L) ≠ [] := by
    intro hc
    rw [hc, unpackAttrs_empty] at h1
    cases h1
    cases hn
  have g1 := (lin_bucketFields hc h1).2
  obtain ⟨v, m, ws, h2, h3, h4, rfl⟩ := unpackAttrs_cons_inv hc h1
  obtain ⟨x, rfl, hx⟩ := ubUnpack_int h2
  have hfit := ubUnpack_fits (w := 2) (ref := .none) (by decide) h2
  have hfit' : o + 2 ≤ o + L ∧ o + 2 ≤ a.length := by simp only [List.length_take] at hfit; omega
  have hxL : x = L := by
    simp only [unpackFrom, if_pos hfit] at hx
    simp only [unpackFrom, if_pos hfit'.2] at hL
    rw [slice_same (b := a.take (o + L)) (a := a) (by rw [List.take_take, Nat.min_eq_left hfit'.1])] at hx
    exact Option.some.inj (hx.symm.trans hL)
  subst hxL
  have hn' : n = x := by
    have : bucket.usize (.obj "04.Bucket" (.ub 2 (.int x) :: ws)) = .ok x := by
      show _ = Except.ok ((x : Int).toNat)
      rfl
    rw [this] at hn
    cases hn
    rfl
  subst hn'
  have g2 : (a.take (o + n)).length = min (o + n) a.length := List.length_take
  simp only [weight]
  omega
theorem lin_buckets : Lin 40 1 buckets := lin_list lin_bucket

theorem lin_tableFeatures : Lin 100 0 tableFeatures := by
  have h := fol_properties
  have h' := lin_properties
  exact lin_cutAuto (d := 40) (k := 0) (by unfold tableFeaturesFields; ffol) (by unfold tableFeaturesFields; flinle) (by decide) (by decide)
theorem lin_flowStats : Lin 100 0 flowStats := by
  have h1 := fol_match
  have h2 := fol_instructions
  have h3 := lin_match
  have h4 := lin_instructions
  exact lin_cut (d := 40) (k := 0) (by unfold flowStatsFields; ffol) (by unfold flowStatsFields; flinle) (by decide) (by decide)
theorem lin_bucketCounter : Lin 0 0 bucketCounter := lin_struct (k := 0) (by ffol) (by flinle)
theorem lin_bucketCounters : Lin 0 1 bucketCounters := lin_list lin_bucketCounter
theorem lin_bandStats : Lin 0 0 bandStats := lin_struct (k := 0) (by ffol) (by flinle)
theorem lin_bandStatsList : Lin 0 1 bandStatsList := lin_list lin_bandStats
theorem lin_meterStats : Lin 100 0 meterStats := by
  have h := fol_bandStatsList
  have h' := lin_bandStatsList
  exact lin_cutAuto (d := 0) (k := 0) (by unfold meterStatsFields; ffol) (by unfold meterStatsFields; flinle) (by decide) (by decide)
theorem lin_helloElem : Lin 100 0 helloElem := lin_cutAuto (d := 0) (k := 0) (by unfold helloElemFields; ffol) (by unfold helloElemFields; flinle) (by decide) (by decide)
theorem lin_helloElems : Lin 100 1 helloElems := lin_list lin_helloElem

end V04
end Pyof
