import Verif.Lemmas.ErrsV01
import Verif.Model.V04
/-!
# Lemmas: the exceptions of decoding OpenFlow 1.3
-/
namespace Pyof
open Spec
variable {P : Err → Prop}

theorem autoSub_ok {lo name n w ref d fs i} (hw : 0 < w) (h : FErrs P lo ((n, ubint w ref d) :: fs)) :
    SubErrs P lo (autoSub name ((n, ubint w ref d) :: fs) i) where
  fields := h
  err := id
  pos := fun hv h => Nat.lt_of_lt_of_le hw (sizeAttrs_num hv h)
  head := ⟨_, _, rfl⟩

/-- A decoded number without an enum class. -/
theorem ubUnpack_int {w buff off v} (h : ubUnpack w .none buff off = .ok v) : ∃ n : Nat, v = .ub w (.int n) ∧ unpackFrom w buff off = some n := by
  simp only [ubUnpack] at h
  split at h
  · cases h
  · rename_i n hn
    simp only [refApply] at h
    cases h
    exact ⟨n, rfl, hn⟩

/-- The first field of a struct decoded from a non-empty buffer. -/
theorem unpackAttrs_cons_inv {n c fs buff off vs e} (hb : buff ≠ []) (h : unpackAttrs ((n, c) :: fs) buff off = .ok (vs, e)) :
    ∃ v m ws, c.unpack buff off = .ok v ∧ c.usize v = .ok m ∧ unpackAttrs fs buff (off + m) = .ok (ws, e) ∧ vs = v :: ws := by
  simp only [unpackAttrs, unpackAttr, if_neg hb] at h
  cases hu : c.unpack buff off with
  | error e' => simp [hu] at h
  | ok v =>
    cases hs : c.usize v with
    | error e' => simp [hu, hs] at h
    | ok m =>
      simp only [hu, hs] at h
      split at h
      · cases h
      · rename_i h'; cases h; exact ⟨v, m, _, rfl, hs, h', rfl⟩

namespace V04

theorem msg_errs {name code body} (hf : FErrs P 0 body) : MsgErrs P (msg name code body) := by
  intro buff e h
  simp only [msg] at h
  split at h
  · cases h
  · rename_i h'; cases h; exact hf.unpack (Nat.le_refl _) h'

/-! ## Match -/

theorem oxm_shape {buff off vs e} (hb : buff ≠ []) (h : unpackAttrs oxmFields buff off = .ok (vs, e)) :
    ∃ c, ∃ a b : Nat, ∃ d, vs = [c, .ub 1 (.int a), .ub 1 (.int b), d] := by
  obtain ⟨c, _, _, _, _, h1, rfl⟩ := unpackAttrs_cons_inv hb h
  obtain ⟨a, _, _, ha, _, h2, rfl⟩ := unpackAttrs_cons_inv hb h1
  obtain ⟨b, _, _, hb', _, h3, rfl⟩ := unpackAttrs_cons_inv hb h2
  obtain ⟨d, _, _, _, _, h4, rfl⟩ := unpackAttrs_cons_inv hb h3
  cases h4
  obtain ⟨a, rfl, _⟩ := ubUnpack_int ha
  obtain ⟨b, rfl, _⟩ := ubUnpack_int hb'
  exact ⟨c, a, b, d, rfl⟩

theorem oxm_sizes {buff off v} (h : oxm.unpack buff off = .ok v) : ∃ n, oxm.usize v = .ok n ∧ oxm.size v = .ok n ∧ 4 ≤ n ∧ isObj "04.OxmTLV" v = true ∧ ∃ c vs, v = .obj c vs := by
  simp only [oxm, oxmUnpack] at h
  repeat' split at h
  all_goals first
    | (cases h; done)
    | (cases h; exact ⟨2 + (1 + (1 + (_ + 0))), rfl, rfl, by omega, rfl, _, _, rfl⟩)

theorem errs_oxm (hu : P .unpack) {lo} : Errs P lo oxm := by
  have hf : FErrs P 0 oxmFields := by ferrs
  refine ⟨?_, ?_, ?_, fun h => by cases h⟩
  · intro buff off e hl hb h
    simp only [oxm, oxmUnpack] at h
    cases hx : unpackAttrs oxmFields buff off with
    | error e' => simp only [hx] at h; cases h; exact hf.unpack (Nat.zero_le _) hx
    | ok q =>
      obtain ⟨vs, e'⟩ := q
      obtain ⟨c, a, b, d, rfl⟩ := oxm_shape hb hx
      simp only [hx] at h
      repeat' split at h
      all_goals first
        | (cases h; assumption)
        | (cases h; done)
  · intro buff off v e hl hb h1 h
    obtain ⟨n, h2, h3, _⟩ := oxm_sizes h1
    rw [h2] at h; cases h
  · intro buff off v e hl hb h1 h
    obtain ⟨n, h2, h3, _⟩ := oxm_sizes h1
    rw [h3] at h; cases h

theorem advances_oxm : Advances oxm := by
  intro buff off v n hb h1 h
  obtain ⟨m, h2, h3, _⟩ := oxm_sizes h1
  rw [h2] at h; cases h; omega

theorem gives_oxm : Gives oxm (isObj "04.OxmTLV") := by
  intro buff off v h
  obtain ⟨n, _, _, _, h1, h2⟩ := oxm_sizes h
  exact ⟨h2, h1⟩

theorem errs_oxmsE (hu : P .unpack) {lo} : ErrsE P lo oxms := errs_list (errs_oxm hu) advances_oxm gives_oxm
theorem errs_oxms (hu : P .unpack) {lo} : Errs P lo oxms := (errs_oxmsE hu).errs

theorem matchHead_shape {buff off vs e} (hb : buff ≠ [])
    (h : unpackAttrs [("match_type", ubint 2 (.enum [0, 1])), ("length", ubint 2)] buff off = .ok (vs, e)) :
    ∃ c, ∃ n : Nat, vs = [c, .ub 2 (.int n)] ∧ e = off + 4 := by
  obtain ⟨c, _, _, _, h0, h1, rfl⟩ := unpackAttrs_cons_inv hb h
  obtain ⟨a, _, _, ha, h3, h2, rfl⟩ := unpackAttrs_cons_inv hb h1
  cases h2
  cases h0
  cases h3
  obtain ⟨a, rfl, _⟩ := ubUnpack_int ha
  exact ⟨c, a, rfl, rfl⟩

theorem match_inv {buff off v} (h : «match».unpack buff off = .ok v) :
    ∃ c n b e xs m, v = .obj "04.Match" [c, n, xs] ∧ unpackAttr oxms b e = .ok (xs, m) := by
  simp only [«match», matchUnpack] at h
  split at h
  · cases h
  · split at h
    · cases h
    · rename_i h'; cases h; exact ⟨_, _, _, _, _, _, rfl, h'⟩
  · cases h

theorem errs_match (hu : P .unpack) {lo} : Errs P lo «match» := by
  have ho := errs_oxmsE hu (lo := 0)
  have hsz : ∀ {buff off v e}, «match».unpack buff off = .ok v → ∀ c xs, v = .obj c xs → matchSize xs = .error e → P e := by
    intro buff off v e h1 c xs he h
    obtain ⟨a, n, b, o, ys, m, rfl, h2⟩ := match_inv h1
    cases he
    simp only [matchSize] at h
    split at h
    · rename_i h'
      cases h
      simp only [matchFields, sizeAttrs, ubint] at h'
      cases hs : oxms.size ys with
      | ok m => simp [hs] at h'
      | error e' =>
        simp only [hs] at h'
        cases h'
        simp only [unpackAttr] at h2
        split at h2
        · cases h2; exact ho.proto hs
        · split at h2
          · cases h2
          · rename_i h3
            split at h2
            · cases h2
            · cases h2; exact ho.size (Nat.zero_le _) h3 hs
    · cases h
  refine ⟨?_, ?_, ?_, fun h => by cases h⟩
  · intro buff off e hl hb h
    simp only [«match», matchUnpack] at h
    cases hx : unpackAttrs [("match_type", ubint 2 (.enum [0, 1])), ("length", ubint 2)] buff off with
    | error e' =>
      simp only [hx] at h; cases h
      exact (show FErrs P 0 _ by ferrs).unpack (Nat.zero_le _) hx
    | ok q =>
      obtain ⟨vs, e'⟩ := q
      obtain ⟨c, n, rfl, rfl⟩ := matchHead_shape hb hx
      simp only [hx] at h
      split at h
      · rename_i h'
        cases h
        simp only [unpackAttr] at h'
        split at h'
        · cases h'
        · split at h'
          · rename_i h2; cases h'; exact ho.unpack (Nat.zero_le _) h2
          · rename_i h3
            split at h'
            · rename_i h2; cases h'; exact ho.usize (Nat.zero_le _) h3 h2
            · cases h'
      · cases h
  · intro buff off v e hl hb h1 h
    obtain ⟨a, n, b, o, ys, m, rfl, h2⟩ := match_inv h1
    exact hsz h1 _ _ rfl h
  · intro buff off v e hl hb h1 h
    obtain ⟨a, n, b, o, ys, m, rfl, h2⟩ := match_inv h1
    exact hsz h1 _ _ rfl h

/-! ## Actions -/

theorem ceil8_pos {n : Nat} (h : 0 < n) : 0 < ceil8 n := by unfold ceil8; omega

theorem sub_ok {lo fs} {s : Sub} (hs : s.size = actionSize s.fields) (he : s.fields = actionHead ++ fs) (hf : FErrs P lo s.fields) : SubErrs P lo s where
  fields := hf
  err := by
    intro vs e h
    rw [hs] at h
    simp only [actionSize] at h
    split at h
    · rename_i h'; cases h; exact h'
    · cases h
  pos := by
    intro vs n hv h
    rw [hs] at h
    simp only [actionSize] at h
    split at h
    · cases h
    · rename_i h'
      cases h
      rw [he] at h'
      have := sizeAttrs_num hv h'
      exact ceil8_pos (by omega)
  head := by rw [he]; exact ⟨_, _, rfl⟩

theorem pickAction_total (t : Nat) : ∃ s, pickAction t = .ok s ∧ (s = actionHeader ∨ ∃ p ∈ actionClasses, s = p.2) := by
  unfold pickAction
  cases h : actionClasses.find? (fun p => p.1.contains t) with
  | none => exact ⟨_, rfl, .inl rfl⟩
  | some p => exact ⟨_, rfl, .inr ⟨p, List.mem_of_find?_eq_some h, rfl⟩⟩

theorem actionSub_ok (hu : P .unpack) {lo t s} (h : pickAction t = .ok s) : SubErrs P lo s ∧ subOf actionSubs s.name = some s := by
  obtain ⟨s', h1, h2⟩ := pickAction_total t
  rw [h] at h1
  cases h1
  have := errs_oxm hu (lo := lo)
  rcases h2 with rfl | ⟨p, hp, rfl⟩
  · exact ⟨sub_ok rfl rfl (by ferrs), rfl⟩
  · simp only [actionClasses, List.mem_cons, List.not_mem_nil, or_false] at hp
    rcases hp with rfl | rfl | rfl | rfl | rfl | rfl | rfl | rfl | rfl | rfl | rfl | rfl | rfl | rfl | rfl <;>
      exact ⟨sub_ok rfl rfl (by ferrs), rfl⟩

theorem errs_action (hu : P .unpack) {lo} : Errs P lo action := by
  refine errs_variant hu ?_ (actionSub_ok hu) ⟨8, rfl⟩
  intro buff off t e _ h
  obtain ⟨s, h', _⟩ := pickAction_total (gotNum t)
  rw [h'] at h
  cases h

theorem advances_action : Advances action := advances_variant (P := fun _ => True) (lo := 0) (actionSub_ok trivial)
theorem gives_action : Gives action (isSub actionSubs) := gives_variant (fun h => (actionSub_ok (P := fun _ => True) (lo := 0) trivial h).2)
theorem errs_actionsE (hu : P .unpack) {lo} : ErrsE P lo actions := errs_list (errs_action hu) advances_action gives_action
theorem errs_actions (hu : P .unpack) {lo} : Errs P lo actions := (errs_actionsE hu).errs

/-! ## Instructions -/

theorem instructionSub_ok (hu : P .unpack) {lo t s} (h : pickInstruction t = .ok s) : SubErrs P lo s ∧ subOf instructionSubs s.name = some s := by
  have := errs_actions hu (lo := lo)
  unfold pickInstruction at h
  split at h <;> cases h <;> exact ⟨autoSub_ok (by decide) (by ferrs), rfl⟩

theorem errs_instruction (hu : P .unpack) (ht : P .type) {lo} : Errs P lo instruction := by
  refine errs_variant hu ?_ (instructionSub_ok hu) ⟨4, rfl⟩
  intro buff off t e _ h
  unfold pickInstruction at h
  split at h <;> cases h
  exact ht

theorem advances_instruction : Advances instruction := advances_variant (P := fun _ => True) (lo := 0) (instructionSub_ok trivial)
theorem gives_instruction : Gives instruction (isSub instructionSubs) := gives_variant (fun h => (instructionSub_ok (P := fun _ => True) (lo := 0) trivial h).2)
theorem errs_instructions (hu : P .unpack) (ht : P .type) {lo} : Errs P lo instructions :=
  (errs_list (errs_instruction hu ht) advances_instruction gives_instruction).errs

/-! ## Ports, queues, groups, meters -/

theorem errs_port (hu : P .unpack) (hv : P .value) (hp : P .plain) {lo} : Errs P lo port := (errs_struct (by ferrs) ⟨_, rfl⟩).errs
theorem errs_queueProp (hu : P .unpack) {lo} : Errs P lo queuePropHeader := (errs_struct (by ferrs) ⟨_, rfl⟩).errs
theorem advances_queueProp : Advances queuePropHeader := advances_struct (by decide)
theorem errs_queueProps (hu : P .unpack) {lo} : Errs P lo queueProps := (errs_list (errs_queueProp hu) advances_queueProp gives_struct).errs
theorem errs_packetQueue (hu : P .unpack) {lo} : Errs P lo packetQueue := by
  have := errs_queueProps hu (lo := lo)
  exact (errs_struct (by ferrs) ⟨_, rfl⟩).errs
theorem advances_packetQueue : Advances packetQueue := advances_struct (by decide)
theorem errs_queues (hu : P .unpack) {lo} : Errs P lo queues := (errs_list (errs_packetQueue hu) advances_packetQueue gives_struct).errs

theorem bucket_inv {buff off v} (h : bucket.unpack buff off = .ok v) :
    ∃ L vs e, unpackFrom 2 buff off = some L ∧ unpackAttrs bucketFields (buff.take (off + L)) off = .ok (vs, e) ∧ v = .obj "04.Bucket" vs := by
  simp only [bucket, lengthCut, structAttr] at h
  split at h
  · cases h
  · rename_i n hn
    obtain ⟨L, rfl, hL⟩ := ubUnpack_int hn
    split at h
    · cases h
    · rename_i h'
      cases h
      simp only [gotNum, Int.toNat_natCast] at h'
      exact ⟨L, _, _, hL, h', rfl⟩

/-- The size of a decoded bucket is its first number, unless nothing was left of the buffer. -/
theorem bucket_size {buff off v} (hb : buff ≠ []) (h : bucket.unpack buff off = .ok v) :
    (∃ L, 2 ≤ L ∧ bucket.usize v = .ok L ∧ bucket.size v = .ok L) ∨ (off = 0 ∧ bucket.usize v = .error .type ∧ bucket.size v = .error .type) := by
  obtain ⟨L, vs, e, hL, h1, rfl⟩ := bucket_inv h
  by_cases hc : buff.take (off + L) = []
  · right
    rw [hc, unpackAttrs_empty] at h1
    cases h1
    refine ⟨?_, rfl, rfl⟩
    have := (List.take_eq_nil_iff.1 hc).resolve_right hb
    omega
  · left
    obtain ⟨a, m, ws, ha, _, _, rfl⟩ := unpackAttrs_cons_inv hc h1
    obtain ⟨x, rfl, hx⟩ := ubUnpack_int ha
    refine ⟨x, ?_, ?_, ?_⟩
    · unfold unpackFrom at hx hL
      split at hx
      · rename_i hl
        split at hL
        · cases hx
          cases hL
          simp only [List.length_take] at hl
          have hle : off + 2 ≤ off + beVal (slice buff off (off + 2)) := by omega
          have aux : ∀ L, off + 2 ≤ off + L → slice (buff.take (off + L)) off (off + 2) = slice buff off (off + 2) := by
            intro L h
            simp only [slice, List.take_take, Nat.min_eq_left h]
          rw [aux _ hle]
          omega
        · cases hL
      · cases hx
    · simp only [bucket, lengthCut, if_true, bucketSize, cmpNum, unwrap]
      simp
    · simp only [bucket, lengthCut, if_true, bucketSize, cmpNum, unwrap]
      simp

theorem errs_bucket (hu : P .unpack) {lo} (h : 1 ≤ lo ∨ P .type) : Errs P lo bucket := by
  have ha := errs_bare (isItem := isSub actionSubs) (errs_action hu) advances_action (lo := lo)
  have ha := ha.errs
  have hf : FErrs P lo bucketFields := by ferrs
  refine ⟨?_, ?_, ?_, ?_⟩
  · intro buff off e hl hb h
    simp only [bucket, lengthCut, structAttr] at h
    split at h
    · rename_i h'; cases h; exact ubUnpack_err h' ▸ hu
    · split at h
      · rename_i h'; cases h; exact hf.unpack hl h'
      · cases h
  · intro buff off v e hl hb h1 h2
    rcases bucket_size hb h1 with ⟨L, _, h3, h4⟩ | ⟨h0, h3, h4⟩
    · rw [h3] at h2; cases h2
    · rw [h3] at h2; cases h2; exact h.resolve_left (by omega)
  · intro buff off v e hl hb h1 h2
    rcases bucket_size hb h1 with ⟨L, _, h3, h4⟩ | ⟨h0, h3, h4⟩
    · rw [h4] at h2; cases h2
    · rw [h4] at h2; cases h2; exact h.resolve_left (by omega)
  · intro e h; cases h

theorem advances_bucket : Advances bucket := by
  intro buff off v n hb h1 h2
  rcases bucket_size hb h1 with ⟨L, _, h3, h4⟩ | ⟨h0, h3, h4⟩
  · rw [h3] at h2; cases h2; omega
  · rw [h3] at h2; cases h2

theorem gives_bucket : Gives bucket (isObj "04.Bucket") := by
  intro buff off v h
  obtain ⟨L, vs, e, hL, h1, rfl⟩ := bucket_inv h
  exact ⟨⟨_, _, rfl⟩, rfl⟩

theorem errs_buckets (hu : P .unpack) {lo} (h : 1 ≤ lo ∨ P .type) : Errs P lo buckets := (errs_list (errs_bucket hu h) advances_bucket gives_bucket).errs
theorem errs_bareBuckets (hu : P .unpack) {lo} (h : 1 ≤ lo ∨ P .type) : Errs P lo (bareListAttr (isObj "04.Bucket") bucket) :=
  (errs_bare (errs_bucket hu h) advances_bucket).errs

theorem errs_bucketCounters (hu : P .unpack) {lo} : Errs P lo bucketCounters :=
  (errs_list (errs_struct (by ferrs) ⟨_, rfl⟩).errs (advances_struct (by decide)) gives_struct).errs

theorem bandSub_ok (hu : P .unpack) {lo t s} (h : pickBand t = .ok s) : SubErrs P lo s ∧ subOf bandSubs s.name = some s := by
  unfold pickBand at h
  split at h <;> cases h <;> exact ⟨plainSub_ok (by decide) (by ferrs), rfl⟩

theorem errs_band (hu : P .unpack) (hk : P .key) {lo} : Errs P lo band := by
  refine errs_variant hu ?_ (bandSub_ok hu) ⟨12, rfl⟩
  intro buff off t e _ h
  unfold pickBand at h
  split at h <;> cases h
  exact hk

theorem advances_band : Advances band := advances_variant (P := fun _ => True) (lo := 0) (bandSub_ok trivial)
theorem gives_band : Gives band (isSub bandSubs) := gives_variant (fun h => (bandSub_ok (P := fun _ => True) (lo := 0) trivial h).2)
theorem errs_bands (hu : P .unpack) (hk : P .key) {lo} : Errs P lo bands := (errs_list (errs_band hu hk) advances_band gives_band).errs
theorem errs_bareBands (hu : P .unpack) (hk : P .key) {lo} : Errs P lo (bareListAttr (isSub bandSubs) band) :=
  (errs_bare (errs_band hu hk) advances_band).errs

/-! ## Table features -/

theorem propertySub_ok (hu : P .unpack) (ht : P .type) {lo t s} (h : pickProperty t = .ok s) : SubErrs P lo s ∧ subOf propertySubs s.name = some s := by
  have h1 := errs_actions hu (lo := lo)
  have h2 := errs_instructions hu ht (lo := lo)
  have h3 := errs_oxms hu (lo := lo)
  unfold pickProperty at h
  repeat' split at h
  all_goals cases h; exact ⟨autoSub_ok (by decide) (by ferrs), rfl⟩

theorem errs_property (hu : P .unpack) (ht : P .type) {lo} : Errs P lo property := by
  refine errs_variant hu ?_ (propertySub_ok hu ht) ⟨4, rfl⟩
  intro buff off t e _ h
  unfold pickProperty at h
  repeat' split at h
  all_goals cases h

theorem advances_property : Advances property := advances_variant (P := fun _ => True) (lo := 0) (propertySub_ok trivial trivial)
theorem gives_property : Gives property (isSub propertySubs) :=
  gives_variant (fun h => (propertySub_ok (P := fun _ => True) (lo := 0) trivial trivial h).2)
theorem errs_properties (hu : P .unpack) (ht : P .type) {lo} : Errs P lo properties :=
  (errs_list (errs_property hu ht) advances_property gives_property).errs

theorem errs_tableFeatures (hu : P .unpack) (hv : P .value) (hp : P .plain) (ht : P .type) {lo} : Errs P lo tableFeatures := by
  have h1 := errs_properties hu ht (lo := lo)
  exact errs_cut hu (errs_auto (by ferrs) ⟨_, rfl⟩)
theorem advances_tableFeatures : Advances tableFeatures := (advances_cut (by decide)).2

/-! ## Multipart bodies -/

theorem errs_flowStats (hu : P .unpack) (ht : P .type) {lo} : Errs P lo flowStats := by
  have h1 := errs_match hu (lo := lo)
  have h2 := errs_instructions hu ht (lo := lo)
  exact errs_cut hu (errs_struct (by ferrs) ⟨_, rfl⟩)

theorem errs_groupDescStats (hu : P .unpack) {lo} : Errs P lo groupDescStats := by
  have h1 := errs_bareBuckets hu (lo := lo + 2) (.inl (by omega))
  refine (errs_struct ?_ ⟨_, rfl⟩).errs
  refine FErrs.cons' (k := 2) ?_ (errs_num hu) (by ferrs) (.inr ⟨_, rfl⟩)
  intro buff off v m _ _ h; cases h; exact Nat.le_refl _

theorem errs_meterStats (hu : P .unpack) {lo} : Errs P lo meterStats := by
  have h1 : Errs P lo bandStatsList := (errs_list (errs_struct (by ferrs) ⟨_, rfl⟩).errs (advances_struct (by decide)) gives_struct).errs
  exact errs_cut hu (errs_auto (by ferrs) ⟨_, rfl⟩)

theorem errs_requestSimple (hu : P .unpack) {t c} (h : requestSimple t = some c) : ErrsE P 0 c := by
  have h1 := errs_match hu (lo := 0)
  unfold requestSimple at h
  split at h <;> cases h <;> exact errs_struct (by ferrs) ⟨_, rfl⟩

theorem errs_requestArray (hu : P .unpack) (hv : P .value) (hp : P .plain) (ht : P .type) {t n c} (h : requestArray t = some (n, c)) :
    Errs P 0 c ∧ Advances c := by
  unfold requestArray at h
  split at h <;> cases h
  exact ⟨errs_tableFeatures hu hv hp ht, advances_tableFeatures⟩

theorem errs_replySimple (hu : P .unpack) (hv : P .value) (hp : P .plain) {t c} (h : replySimple t = some c) : ErrsE P 0 c := by
  unfold replySimple at h
  split at h <;> cases h <;> exact errs_struct (by ferrs) ⟨_, rfl⟩

theorem errs_replyArray (hu : P .unpack) (hv : P .value) (hp : P .plain) (ht : P .type) (hk : P .key) {t n c} (h : replyArray t = some (n, c)) :
    Errs P 0 c ∧ Advances c := by
  have h1 := errs_bucketCounters hu (lo := 0)
  have h2 := errs_bands hu hk (lo := 0)
  unfold replyArray at h
  split at h <;> cases h
  · exact ⟨errs_flowStats hu ht, (advances_cut (i := 0) (by decide)).1⟩
  · exact ⟨(errs_struct (by ferrs) ⟨_, rfl⟩).errs, advances_struct (by decide)⟩
  · exact ⟨(errs_struct (by ferrs) ⟨_, rfl⟩).errs, advances_struct (by decide)⟩
  · exact ⟨(errs_struct (by ferrs) ⟨_, rfl⟩).errs, advances_struct (by decide)⟩
  · exact ⟨(errs_struct (by ferrs) ⟨_, rfl⟩).errs, advances_struct (by decide)⟩
  · exact ⟨(errs_struct (by ferrs) ⟨_, rfl⟩).errs, advances_struct (by decide)⟩
  · exact ⟨errs_groupDescStats hu, advances_struct (by decide)⟩
  · exact ⟨errs_meterStats hu, (advances_cut (by decide)).2⟩
  · exact ⟨(errs_struct (by ferrs) ⟨_, rfl⟩).errs, advances_struct (by decide)⟩
  · exact ⟨errs_tableFeatures hu hv hp ht, advances_tableFeatures⟩
  · exact ⟨errs_port hu hv hp, advances_struct (by decide)⟩

theorem errs_multipart {fields simple array} (hv : P .value) (hf : FErrs P 0 fields) (hs : ∀ {t : Nat} {c}, simple t = some c → ErrsE P 0 c)
    (ha : ∀ {t : Nat} {n c}, array t = some (n, c) → Errs P 0 c ∧ Advances c) {buff e} (h : multipartUnpack fields simple array buff = .error e) : P e := by
  simp only [multipartUnpack] at h
  split at h
  · rename_i h'; cases h; exact hf.unpack (Nat.le_refl _) h'
  · split at h
    · rename_i hc
      split at h
      · rename_i h'; cases h; exact (hs hc).unpack (Nat.le_refl _) h'
      · cases h
    · split at h
      · rename_i hc
        split at h
        · rename_i h'; cases h; exact unpackItems_err (ha hc).1 (ha hc).2 (Nat.le_refl _) h'
        · cases h
      · cases h
  · cases h; exact hv

/-! ## Messages -/

theorem errs_hello (hu : P .unpack) : MsgErrs P hello := by
  have h : Errs P 0 helloElem := errs_cut hu (errs_auto (by ferrs) ⟨_, rfl⟩)
  have h1 : Errs P 0 helloElems := (errs_list h (advances_cut (by decide)).2 (gives_cut gives_auto)).errs
  exact msg_errs (by ferrs)

theorem errs_packetOut (hu : P .unpack) : MsgErrs P packetOut := by
  intro buff e h
  have ha : ErrsE P 0 actions := errs_actionsE hu
  simp only [packetOut, packetOutUnpack] at h
  repeat' split at h
  all_goals first
    | (rename_i h'; cases h; exact ubUnpack_err h' ▸ hu)
    | (rename_i h'; cases h; exact ha.unpack (Nat.le_refl _) h')
    | (rename_i h1 _ h'; cases h; exact ha.usize (Nat.le_refl _) h1 h')
    | (rename_i h1 _ _ h'; cases h; exact ha.usize (Nat.le_refl _) h1 h')
    | (cases h; done)
    | (rename_i h'; cases h')

theorem errs_error (hu : P .unpack) (hv : P .value) : MsgErrs P errorMsg := by
  intro buff e h
  have hf : FErrs P 0 errorFields := by ferrs
  simp only [errorMsg, errorUnpack] at h
  repeat' split at h
  all_goals first
    | (rename_i h'; cases h; exact hf.unpack (Nat.le_refl _) h')
    | (cases h; assumption)
    | (cases h; done)

theorem errs_groupMod (hu : P .unpack) : MsgErrs P groupMod := by
  have h1 := errs_buckets hu (lo := 0 + 2) (.inl (by omega))
  refine msg_errs ?_
  refine FErrs.cons' (k := 2) ?_ (errs_num hu) (by ferrs) (.inr ⟨_, rfl⟩)
  intro buff off v m _ _ h; cases h; exact Nat.le_refl _

theorem lib_errs (hu : P .unpack) (hv : P .value) {t : Nat} {m : MsgCls} (h : lib.find t = some m)
    (h6 : t = 6 → P .struct) (h12 : t = 12 → P .plain) (h14 : t = 14 → P .type) (h18 : t = 18 → P .plain ∧ P .type)
    (h19 : t = 19 → P .plain ∧ P .type ∧ P .key) (h29 : t = 29 → P .key) : MsgErrs P m := by
  unfold Lib.find at h
  cases hc : lib.classes.find? (fun p => p.1 == t) with
  | none => simp [hc] at h
  | some p =>
    simp only [hc, Option.map_some, Option.some.injEq] at h
    subst h
    have ht := List.find?_some hc
    have hm := List.mem_of_find?_eq_some hc
    have h1 := errs_match hu (lo := 0)
    have h2 := errs_actions hu (lo := 0)
    have h3 := errs_queues hu (lo := 0)
    simp only [lib, List.mem_cons, List.not_mem_nil, or_false] at hm
    simp only [beq_iff_eq] at ht
    rcases hm with rfl | rfl | rfl | rfl | rfl | rfl | rfl | rfl | rfl | rfl | rfl | rfl | rfl | rfl | rfl | rfl | rfl | rfl | rfl | rfl | rfl | rfl | rfl | rfl | rfl | rfl | rfl | rfl | rfl | rfl
    · exact errs_hello hu
    · exact errs_error hu hv
    · exact msg_errs (by ferrs)
    · exact msg_errs (by ferrs)
    · exact msg_errs (by ferrs)
    · exact msg_errs (by ferrs)
    · have ha := h6 ht.symm
      exact msg_errs (by ferrs)
    · exact msg_errs (by ferrs)
    · exact msg_errs (by ferrs)
    · exact msg_errs (by ferrs)
    · exact msg_errs (by ferrs)
    · exact msg_errs (by ferrs)
    · have hb := h12 ht.symm
      have h4 := errs_port hu hv hb (lo := 0)
      exact msg_errs (by ferrs)
    · exact errs_packetOut hu
    · have h4 := errs_instructions hu (h14 ht.symm) (lo := 0)
      exact msg_errs (by ferrs)
    · exact errs_groupMod hu
    · exact msg_errs (by ferrs)
    · exact msg_errs (by ferrs)
    · obtain ⟨ha, hb⟩ := h18 ht.symm
      exact fun buff _ h => errs_multipart (fields := multipartRequestFields) (simple := requestSimple) (array := requestArray) (buff := buff) hv (by ferrs) (errs_requestSimple hu) (errs_requestArray hu hv ha hb) h
    · obtain ⟨ha, hb, hd⟩ := h19 ht.symm
      exact fun buff _ h => errs_multipart (fields := multipartReplyFields) (simple := replySimple) (array := replyArray) (buff := buff) hv (by ferrs) (errs_replySimple hu hv ha) (errs_replyArray hu hv ha hb hd) h
    · exact msg_errs (by ferrs)
    · exact msg_errs (by ferrs)
    · exact msg_errs (by ferrs)
    · exact msg_errs (by ferrs)
    · exact msg_errs (by ferrs)
    · exact msg_errs (by ferrs)
    · exact msg_errs (by ferrs)
    · exact msg_errs (by ferrs)
    · exact msg_errs (by ferrs)
    · have h4 := errs_bareBands hu (h29 ht.symm) (lo := 0)
      exact msg_errs (by ferrs)

end V04
end Pyof
