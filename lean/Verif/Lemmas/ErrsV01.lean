import Verif.Lemmas.Errs
import Verif.Model.V01
/-!
# Lemmas: the exceptions of decoding OpenFlow 1.0
-/
namespace Pyof
open Spec

/-- One field after the other: numbers, paddings, addresses and so on, or what is known. -/
macro "ferrs" : tactic => `(tactic| repeat' (first
  | exact FErrs.nil
  | refine FErrs.cons ?_ ?_
  | assumption
  | exact errs_num (by assumption)
  | exact errs_pad
  | exact errs_hw (by assumption)
  | exact errs_ip (by assumption)
  | exact errs_bin
  | exact errs_char (by assumption) (by assumption)
  | exact errs_dpid (by assumption)))

/-- `unpack` of a message only raises exceptions in `P`. -/
def MsgErrs (P : Err → Prop) (m : MsgCls) : Prop := ∀ buff e, m.unpack buff = .error e → P e

variable {P : Err → Prop}

theorem plainSub_ok {lo name n w ref d fs} (hw : 0 < w) (h : FErrs P lo ((n, ubint w ref d) :: fs)) :
    SubErrs P lo (plainSub name ((n, ubint w ref d) :: fs)) where
  fields := h
  err := id
  pos := fun hv h => Nat.lt_of_lt_of_le hw (sizeAttrs_num hv h)
  head := ⟨_, _, rfl⟩

namespace V01

theorem msg_errs {name code body} (hf : FErrs P 0 body) : MsgErrs P (msg name code body) := by
  intro buff e h
  simp only [msg] at h
  split at h
  · cases h
  · rename_i h'; cases h; exact hf.unpack (Nat.le_refl _) h'

theorem pickAction_total (t : Nat) : ∃ s, pickAction t = .ok s ∧ (s = actionHeader ∨ ∃ p ∈ actionClasses, s = p.2) := by
  unfold pickAction
  cases h : actionClasses.find? (fun p => p.1.contains t) with
  | none => exact ⟨_, rfl, .inl rfl⟩
  | some p => exact ⟨_, rfl, .inr ⟨p, List.mem_of_find?_eq_some h, rfl⟩⟩

theorem actionSub_ok (hu : P .unpack) {lo t s} (h : pickAction t = .ok s) : SubErrs P lo s ∧ subOf actionSubs s.name = some s := by
  obtain ⟨s', h1, h2⟩ := pickAction_total t
  rw [h] at h1
  cases h1
  rcases h2 with rfl | ⟨p, hp, rfl⟩
  · exact ⟨plainSub_ok (by decide) (by ferrs), rfl⟩
  · simp only [actionClasses, List.mem_cons, List.not_mem_nil, or_false] at hp
    rcases hp with rfl | rfl | rfl | rfl | rfl | rfl | rfl | rfl | rfl | rfl <;> exact ⟨plainSub_ok (by decide) (by ferrs), rfl⟩

theorem errs_action (hu : P .unpack) {lo} : Errs P lo action := by
  refine errs_variant hu ?_ (actionSub_ok hu) ⟨4, rfl⟩
  intro buff off t e _ h
  obtain ⟨s, h', _⟩ := pickAction_total (gotNum t)
  rw [h'] at h
  cases h

theorem advances_action : Advances action := advances_variant (P := fun _ => True) (lo := 0) (actionSub_ok trivial)
theorem gives_action : Gives action (isSub actionSubs) := gives_variant (fun h => (actionSub_ok (P := fun _ => True) (lo := 0) trivial h).2)

theorem errs_actions (hu : P .unpack) {lo} : Errs P lo actions := (errs_list (errs_action hu) advances_action gives_action).errs

theorem errs_match (hu : P .unpack) {lo} : Errs P lo «match» := by
  have h : ErrsE P lo (structAttr "01.Match" matchFields matchInit) := errs_struct (by ferrs) ⟨_, rfl⟩
  have hv : ∀ {buff off v}, «match».unpack buff off = .ok v → ∃ w vs, v = .obj "01.Match" (w :: vs.drop 1) ∧
      (structAttr "01.Match" matchFields matchInit).unpack buff off = .ok (.obj "01.Match" vs) := by
    intro buff off v h
    simp only [«match», matchUnpack] at h
    split at h
    · cases h
    · rename_i h'
      split at h
      · cases h
      · cases h; exact ⟨_, _, rfl, by simp only [structAttr, h']⟩
  refine ⟨?_, ?_, ?_, h.proto⟩
  · intro buff off e hl hb h1
    simp only [«match», matchUnpack] at h1
    split at h1
    · rename_i h'
      cases h1
      exact h.unpack (buff := buff) hl (by simp only [structAttr, h'])
    · split at h1
      · rename_i h'; cases h1; exact ubUnpack_err h' ▸ hu
      · cases h1
  · intro buff off v e hl hb h1 h2
    obtain ⟨w, vs, rfl, h3⟩ := hv h1
    refine h.usize hl h3 (e := e) ?_
    cases vs with
    | nil => exact absurd h3 (by simp only [structAttr]; split <;> simp; rintro rfl; rename_i h'; exact unpackAttrs_cons_ne h' rfl)
    | cons v vs => simpa [«match», structAttr, sizeAttrs, matchFields, ubint] using h2
  · intro buff off v e hl hb h1 h2
    obtain ⟨w, vs, rfl, h3⟩ := hv h1
    refine h.size hl h3 (e := e) ?_
    cases vs with
    | nil => exact absurd h3 (by simp only [structAttr]; split <;> simp; rintro rfl; rename_i h'; exact unpackAttrs_cons_ne h' rfl)
    | cons v vs => simpa [«match», structAttr, sizeAttrs, matchFields, ubint] using h2

theorem errs_phyPort (hu : P .unpack) (hv : P .value) (hp : P .plain) {lo} : Errs P lo phyPort :=
  (errs_struct (by ferrs) ⟨_, rfl⟩).errs
theorem advances_phyPort : Advances phyPort := advances_struct (by decide)
theorem errs_phyPorts (hu : P .unpack) (hv : P .value) (hp : P .plain) {lo} : Errs P lo phyPorts :=
  (errs_list (errs_phyPort hu hv hp) advances_phyPort gives_struct).errs

theorem errs_queueProp (hu : P .unpack) {lo} : Errs P lo queuePropHeader := (errs_struct (by ferrs) ⟨_, rfl⟩).errs
theorem advances_queueProp : Advances queuePropHeader := advances_struct (by decide)
theorem errs_queueProps (hu : P .unpack) {lo} : Errs P lo queueProps := (errs_list (errs_queueProp hu) advances_queueProp gives_struct).errs
theorem errs_packetQueue (hu : P .unpack) {lo} : Errs P lo packetQueue := by
  have := errs_queueProps hu (lo := lo)
  exact (errs_struct (by ferrs) ⟨_, rfl⟩).errs
theorem advances_packetQueue : Advances packetQueue := advances_struct (by decide)
theorem errs_queues (hu : P .unpack) {lo} : Errs P lo queues := (errs_list (errs_packetQueue hu) advances_packetQueue gives_struct).errs

theorem advances_flowStats : Advances flowStats := (advances_cut (i := 0) (by decide)).1

theorem errs_flowStats (hu : P .unpack) {lo} : Errs P lo flowStats := by
  have h1 := errs_match hu (lo := lo)
  have h2 := errs_actions hu (lo := lo)
  exact errs_cut hu (errs_struct (by ferrs) ⟨_, rfl⟩)

/-- The request classes. -/
theorem errs_requestClass (hu : P .unpack) {t c lo} (h : requestClass t = some c) : Errs P lo c ∧ Advances c := by
  have h1 := errs_match hu (lo := lo)
  unfold requestClass at h
  split at h <;> cases h
  · exact ⟨(errs_struct (by ferrs) ⟨_, rfl⟩).errs, advances_mem (n := "table_id") (.tail _ (.head _)) (by decide)⟩
  · exact ⟨(errs_struct (by ferrs) ⟨_, rfl⟩).errs, advances_mem (n := "table_id") (.tail _ (.head _)) (by decide)⟩
  · exact ⟨(errs_struct (by ferrs) ⟨_, rfl⟩).errs, advances_struct (by decide)⟩
  · exact ⟨(errs_struct (by ferrs) ⟨_, rfl⟩).errs, advances_struct (by decide)⟩
  · exact ⟨(errs_struct (by ferrs) ⟨_, rfl⟩).errs, advances_struct (by decide)⟩

/-- The reply classes without text. -/
theorem errs_replyClass (hu : P .unpack) {t c lo} (hv : t = 3 → P .value) (hp : t = 3 → P .plain) (h : replyClass t = some c) :
    Errs P lo c ∧ Advances c := by
  unfold replyClass at h
  split at h <;> cases h
  · exact ⟨errs_flowStats hu, advances_flowStats⟩
  · exact ⟨(errs_struct (by ferrs) ⟨_, rfl⟩).errs, advances_struct (by decide)⟩
  · have hv := hv rfl
    have hp := hp rfl
    exact ⟨(errs_struct (by ferrs) ⟨_, rfl⟩).errs, advances_struct (by decide)⟩
  · exact ⟨(errs_struct (by ferrs) ⟨_, rfl⟩).errs, advances_struct (by decide)⟩
  · exact ⟨(errs_struct (by ferrs) ⟨_, rfl⟩).errs, advances_struct (by decide)⟩
  · exact ⟨(errs_struct (by ferrs) ⟨_, rfl⟩).errs, advances_struct (by decide)⟩

/-! ## Messages with their own `unpack` -/

theorem errs_packetOut (hu : P .unpack) : MsgErrs P packetOut := by
  intro buff e h
  have ha : ErrsE P 0 actions := errs_list (errs_action hu) advances_action gives_action
  simp only [packetOut, packetOutUnpack] at h
  repeat' split at h
  all_goals first
    | (rename_i h'; cases h; exact ubUnpack_err h' ▸ hu)
    | (rename_i h'; cases h; exact ha.unpack (Nat.le_refl _) h')
    | (rename_i h1 _ h'; cases h; exact ha.usize (Nat.le_refl _) h1 h')
    | (rename_i h1 _ _ h'; cases h; exact ha.usize (Nat.le_refl _) h1 h')
    | (cases h; done)
    | (rename_i h'; cases h')

theorem errs_error (hu : P .unpack) (hv : P .value) : MsgErrs P errorMsg := by
  intro buff e h
  have hf : FErrs P 0 errorFields := by ferrs
  simp only [errorMsg, errorUnpack] at h
  repeat' split at h
  all_goals first
    | (rename_i h'; cases h; exact hf.unpack (Nat.le_refl _) h')
    | (cases h; assumption)
    | (cases h; done)

theorem errs_statsRequest (hu : P .unpack) (hv : P .value) (ht : P .type) : MsgErrs P statsRequest := by
  intro buff e h
  have hf : FErrs P 0 statsFields := by ferrs
  simp only [statsRequest, statsRequestUnpack] at h
  repeat' split at h
  all_goals first
    | (rename_i h'; cases h; exact hf.unpack (Nat.le_refl _) h')
    | (cases h; assumption)
    | (rename_i hc _ _ h'; cases h; obtain ⟨h1, h2⟩ := errs_requestClass hu (lo := 0) hc; exact unpackItems_err h1 h2 (Nat.le_refl _) h')
    | (rename_i hc _ h'; cases h; obtain ⟨h1, h2⟩ := errs_requestClass hu (lo := 0) hc; exact unpackItems_err h1 h2 (Nat.le_refl _) h')
    | (cases h; done)

theorem errs_statsReply (hu : P .unpack) (hv : P .value) (hp : P .plain) : MsgErrs P statsReply := by
  intro buff e h
  have hf : FErrs P 0 statsFields := by ferrs
  have hd : ErrsE P 0 descStats := errs_struct (by ferrs) ⟨_, rfl⟩
  simp only [statsReply, statsReplyUnpack] at h
  repeat' split at h
  all_goals first
    | (rename_i h'; cases h; exact hf.unpack (Nat.le_refl _) h')
    | (cases h; assumption)
    | (rename_i h'; cases h; exact hd.unpack (Nat.le_refl _) h')
    | (rename_i hc _ _ h'; cases h; obtain ⟨h1, h2⟩ := errs_replyClass hu (lo := 0) (fun _ => hv) (fun _ => hp) hc; exact unpackItems_err h1 h2 (Nat.le_refl _) h')
    | (rename_i hc _ h'; cases h; obtain ⟨h1, h2⟩ := errs_replyClass hu (lo := 0) (fun _ => hv) (fun _ => hp) hc; exact unpackItems_err h1 h2 (Nat.le_refl _) h')
    | (cases h; done)

/-- The exceptions of every message of the version; `L` is what the message type `t` may raise besides `UnpackException` and `ValueError`. -/
theorem lib_errs (hu : P .unpack) (hv : P .value) {t : Nat} {m : MsgCls} (h : lib.find t = some m)
    (h6 : t = 6 → P .struct ∧ P .plain) (h12 : t = 12 → P .plain) (h16 : t = 16 → P .type) (h17 : t = 17 → P .plain) : MsgErrs P m := by
  unfold Lib.find at h
  cases hc : lib.classes.find? (fun p => p.1 == t) with
  | none => simp [hc] at h
  | some p =>
    simp only [hc, Option.map_some, Option.some.injEq] at h
    subst h
    have ht := List.find?_some hc
    have hm := List.mem_of_find?_eq_some hc
    have h1 := errs_match hu (lo := 0)
    have h2 := errs_actions hu (lo := 0)
    have h3 := errs_queues hu (lo := 0)
    simp only [lib, List.mem_cons, List.not_mem_nil, or_false] at hm
    simp only [beq_iff_eq] at ht
    rcases hm with rfl | rfl | rfl | rfl | rfl | rfl | rfl | rfl | rfl | rfl | rfl | rfl | rfl | rfl | rfl | rfl | rfl | rfl | rfl | rfl | rfl | rfl
    · exact msg_errs (by ferrs)
    · exact errs_error hu hv
    · exact msg_errs (by ferrs)
    · exact msg_errs (by ferrs)
    · exact msg_errs (by ferrs)
    · exact msg_errs (by ferrs)
    · obtain ⟨ha, hb⟩ := h6 ht.symm
      have h4 := errs_phyPorts hu hv hb (lo := 0)
      exact msg_errs (by ferrs)
    · exact msg_errs (by ferrs)
    · exact msg_errs (by ferrs)
    · exact msg_errs (by ferrs)
    · exact msg_errs (by ferrs)
    · exact msg_errs (by ferrs)
    · have hb := h12 ht.symm
      have h4 := errs_phyPort hu hv hb (lo := 0)
      exact msg_errs (by ferrs)
    · exact errs_packetOut hu
    · exact msg_errs (by ferrs)
    · exact msg_errs (by ferrs)
    · exact errs_statsRequest hu hv (h16 ht.symm)
    · exact errs_statsReply hu hv (h17 ht.symm)
    · exact msg_errs (by ferrs)
    · exact msg_errs (by ferrs)
    · exact msg_errs (by ferrs)
    · exact msg_errs (by ferrs)

end V01
end Pyof
