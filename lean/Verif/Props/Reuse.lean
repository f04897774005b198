import Verif.Lemmas.Reuse
import Verif.Props.Lists
/-!
# C67: decoding into an object that has been used

`unpack` is a method: it may be called on an object that has been filled, decoded into before, or left half decoded by an exception.
-/
namespace Pyof.Props
open Pyof.Meth

/-! ## Messages -/

/-- Something that happened to a message object before: an assignment to any attribute (what `pack` stores, or a change inside an
attribute, is one too), or a decoding at any offset, successful or not. -/
inductive Used
  | assign (name : String) (v : Val)
  | unpack (junk : Val) (buff : Bytes) (offset : Nat)

/-- The object after that history; it starts as the constructor leaves it. -/
def afterUse (m : MsgCls) : Dict → List Used → Dict
  | d, [] => d
  | d, .assign n v :: h => afterUse m (d.set n v) h
  | d, .unpack junk buff off :: h => afterUse m ((m.unpackInto junk buff off).run d).2 h

/-- The values of the class attributes as `pack` and `get_size` find them, in their order. -/
def attrsOf (fields : Fields) (d : Dict) : List Val := (instanceAttrs fields d).map (·.2)

/-- All message classes of both versions. -/
def allClasses : List MsgCls := (libs.flatMap (·.classes)).map (·.2)

theorem afterUse_sets {m : MsgCls} (hm : m ∈ allClasses) : ∀ (h : List Used) (d : Dict), ∃ ops, afterUse m d h = runSets d ops := by
  intro h
  induction h with
  | nil => intro d; exact ⟨[], rfl⟩
  | cons u h ih =>
    intro d
    cases u with
    | assign n v =>
      obtain ⟨ops, e⟩ := ih (d.set n v)
      exact ⟨(n, v) :: ops, e⟩
    | unpack junk buff off =>
      obtain ⟨o1, -, e1⟩ := sets_unpackInto hm junk buff off d
      obtain ⟨o2, e2⟩ := ih ((m.unpackInto junk buff off).run d).2
      exact ⟨o1 ++ o2, by simp only [afterUse, runSets_append]; rw [e2, e1]⟩

/-- C67.  A message object of any class, with any history of assignments and decodings: `unpack(buff)` ends as on a new object (same
exception, or none), and if it returns, the attributes are those a new object would get; only the header, which `unpack` does not
decode, is the one the object had. -/
theorem C67_messages {m : MsgCls} (hm : m ∈ allClasses) (h : List Used) (junk : Val) (buff : Bytes) :
    let d := afterUse m (newInstance m.fields) h
    let out := (m.unpackInto junk buff 0).run d
    out.1 = (m.unpack buff).map (fun _ => ()) ∧
    ∀ vs, m.unpack buff = .ok vs → ∃ header old, attrsOf m.fields d = header :: old ∧ attrsOf m.fields out.2 = header :: vs := by
  obtain ⟨ops, he⟩ := afterUse_sets hm h (newInstance m.fields)
  have hn := message_names hm
  obtain ⟨ops', ho, hx, hv⟩ := unpack_into hm junk buff (afterUse m (newInstance m.fields) h)
  simp only [hx]
  refine ⟨trivial, fun vs e => ?_⟩
  rw [he, ← runSets_append]
  simp only [attrsOf, runSets_attrs _ _ hn]
  simp only [MsgCls.fields, List.map_cons]
  refine ⟨_, _, rfl, ?_⟩
  simp only [lastAssigned_append]
  congr 1
  · apply lastAssigned_not_mem
    intro o h1 h2
    simp only [MsgCls.fields, List.map_cons, List.nodup_cons] at hn
    exact hn.1 (h2 ▸ ho o h1)
  · have hv := hv vs e fun n => lastAssigned n (initialOf m.body n) ops
    rw [← hv, List.map_map]
    apply List.map_congr_left
    intro p hp
    simp only [Function.comp]
    congr 2
    simp only [MsgCls.fields, List.map_cons, List.nodup_cons] at hn
    exact (find_of_mem hn.2 hp).symm

/-- C67.  Two objects of the same class with different histories: `unpack(buff)` ends the same way, and if it returns they agree in all
attributes but the header. -/
theorem C67_no_trace {m : MsgCls} (hm : m ∈ allClasses) (h1 h2 : List Used) (j1 j2 : Val) (buff : Bytes) :
    let out1 := (m.unpackInto j1 buff 0).run (afterUse m (newInstance m.fields) h1)
    let out2 := (m.unpackInto j2 buff 0).run (afterUse m (newInstance m.fields) h2)
    out1.1 = out2.1 ∧ (out1.1 = .ok () → (attrsOf m.fields out1.2).drop 1 = (attrsOf m.fields out2.2).drop 1) := by
  obtain ⟨a1, b1⟩ := C67_messages hm h1 j1 buff
  obtain ⟨a2, b2⟩ := C67_messages hm h2 j2 buff
  refine ⟨a1.trans a2.symm, fun ho => ?_⟩
  cases hu : m.unpack buff with
  | error e => rw [hu, ho] at a1; cases a1
  | ok vs =>
    obtain ⟨_, _, -, e1⟩ := b1 vs hu
    obtain ⟨_, _, -, e2⟩ := b2 vs hu
    rw [e1, e2]; rfl

/-- An echo request filled by the user, then half decoded, then decoded: nothing is left of the earlier contents. -/
example : attrsOf V01.echoRequest.fields ((V01.echoRequest.unpackInto .none [7, 8] 0).run
      (afterUse V01.echoRequest (newInstance V01.echoRequest.fields) [.assign "data" (.bytes [1, 2, 3]), .unpack .none [4, 5] 1])).2
    = [(headerAttr 1 V01.lib.types 2).proto, .bin (.bytes [7, 8])] := by rfl
example : V01.portMod ∈ allClasses := by simp [allClasses, libs, V01.lib]

/-- C67, the limits.  An exception leaves the object half decoded: the attributes read so far are new, the others old. -/
theorem C67_failed_counterexample :
    let d := newInstance V01.setConfig.fields |>.set "flags" (.enum 1) |>.set "miss_send_len" (.int 9)
    let out := (V01.setConfig.unpackInto .none [0, 2, 3] 0).run d
    out.1 = .error .unpack ∧ (attrsOf V01.setConfig.fields d).drop 1 = [.enum 1, .int 9] ∧
      (attrsOf V01.setConfig.fields out.2).drop 1 = [.ub 2 (.enum 2), .none] := by
  refine ⟨?_, ?_, ?_⟩ <;> decide +kernel

/-- C67, the limits.  `StatsRequest.unpack` ignores its `offset`: a request for flow statistics at offset 4 is not found there. -/
theorem C67_offset_counterexample :
    let req : Bytes := [0, 0, 0, 0]
    let other : Bytes := [0, 3, 0, 0]
    let d := newInstance V01.statsRequest.fields
    (attrsOf V01.statsRequest.fields ((V01.statsRequest.unpackInto .none req 0).run d).2).drop 1 = [.enum 0, .ub 2 (.int 0), .list true []] ∧
    ((V01.statsRequest.unpackInto .none (other ++ req) 4).run d).1 = .error .type := by
  refine ⟨?_, ?_⟩ <;> decide +kernel

/-! ## Structures -/

/-- C67.  Any structure whose `unpack` is the inherited one, with any attributes set before in any order: `unpack` ends as on a new object
and leaves the attributes a new object would get. -/
theorem C67_structs {fields : Fields} (hn : (fields.map (·.1)).Nodup) (ops : List (String × Val)) (junk : Val) (buff : Bytes) (off : Nat) :
    let out := (unpackLoop junk fields buff off).run (runSets (newInstance fields) ops)
    (∀ vs n, unpackAttrs fields buff off = .ok (vs, n) → out.1 = .ok n ∧ attrsOf fields out.2 = vs) ∧
    (∀ e, unpackAttrs fields buff off = .error e → out.1 = .error e) ∧
    ∃ more, out.2 = runSets (newInstance fields) (ops ++ more) := by
  refine ⟨fun vs n h => ?_, fun e h => ?_, ?_⟩
  · rw [loop_ok _ h]
    refine ⟨rfl, ?_⟩
    simp only [attrsOf, ← runSets_append, runSets_attrs _ _ hn, lastAssigned_append]
    have := lastAssigned_zip (ns := fields.map (·.1)) (vs := vs)
      (fun n => lastAssigned n (initialOf fields n) ops) hn
      (by rw [unpackAttrs_length h]; simp)
    conv => rhs; rw [← this]
    rw [List.map_map]
    apply List.map_congr_left
    intro p hp
    simp only [Function.comp]
    congr 2
    exact (find_of_mem hn hp).symm
  · obtain ⟨_, -, hl⟩ := loop_error (junk := junk) (runSets (newInstance fields) ops) h
    rw [hl]
  · obtain ⟨more, -, e⟩ := sets_loop (junk := junk) (buff := buff) (b := off) (self_names fields) (runSets (newInstance fields) ops)
    exact ⟨more, by rw [e, runSets_append]⟩

/-- C67.  The same for the structures that first read their own length and decode no further. -/
theorem C67_cut {fields : Fields} (hn : (fields.map (·.1)).Nodup) (k : Nat) (lenAttr : Option String) (ops : List (String × Val))
    (junk : Val) (buff : Bytes) (off : Nat) :
    let out := (cutInto k lenAttr fields junk buff off).run (runSets (newInstance fields) ops)
    (∀ n vs e, ubUnpack 2 .none buff (off + k) = .ok n → unpackAttrs fields (buff.take (off + gotNum n)) off = .ok (vs, e) →
      out.1 = .ok () ∧ attrsOf fields out.2 = vs) ∧
    (∀ e, ubUnpack 2 .none buff (off + k) = .error e → out.1 = .error e) ∧
    (∀ n e, ubUnpack 2 .none buff (off + k) = .ok n → unpackAttrs fields (buff.take (off + gotNum n)) off = .error e → out.1 = .error e) := by
  refine ⟨fun n vs e h1 h2 => ?_, fun e h => ?_, fun n e h1 h2 => ?_⟩
  · simp only [cutInto, h1, bind_eq, keepIn_sets, ← runSets_append]
    obtain ⟨a, -, -⟩ := C67_structs hn (ops ++ lenAttr.toList.map fun k => (k, n)) junk (buff.take (off + gotNum n)) off
    obtain ⟨a1, a2⟩ := a vs e h2
    rw [loop_ok _ h2] at a1 a2 ⊢
    exact ⟨rfl, a2⟩
  · simp only [cutInto, h]
  · simp only [cutInto, h1, bind_eq, keepIn_sets, ← runSets_append]
    obtain ⟨_, -, hl⟩ := loop_error (junk := junk) (runSets (newInstance fields) (ops ++ lenAttr.toList.map fun k => (k, n))) h2
    rw [hl]

/-- A v0x01 flow entry decoded from the bytes of another one. -/
example : ((cutInto 0 (some "length") [("length", ubint 2), ("table_id", ubint 1)] .none [0, 3, 5, 9, 9] 0).run
    (runSets (newInstance [("length", ubint 2), ("table_id", ubint 1)]) [("table_id", .int 8), ("note", .none)])).2
    = [("length", .ub 2 (.int 3)), ("table_id", .ub 1 (.int 5)), ("note", .none)] := by decide +kernel

/-! ## Objects that change their class -/

/-- What happened to an action, instruction, band or property before. -/
def afterUses (F : Family) : Obj → List Used → Obj
  | o, [] => o
  | o, .assign n v :: h => afterUses F ⟨o.cls, o.dict.set n v⟩ h
  | o, .unpack junk buff off :: h => afterUses F (F.unpackInto junk buff off o).2 h

/-- A family of classes: how a used object decodes, how a new one does, the base class and the others. -/
inductive IsFamily : Family → Attr → Sub → List Sub → Prop
  | actions01 : IsFamily actions01 V01.action V01.actionHeader (V01.actionClasses.map (·.2))
  | actions04 : IsFamily actions04 V04.action V04.actionHeader (V04.actionClasses.map (·.2))
  | instructions04 : IsFamily instructions04 V04.instruction V04.instructionBase
      [V04.instructionApplyAction, V04.instructionClearAction, V04.instructionGotoTable, V04.instructionMeter, V04.instructionWriteAction,
        V04.instructionWriteMetadata]
  | bands04 : IsFamily bands04 V04.band V04.bandBase [V04.bandDrop, V04.bandDscpRemark, V04.bandExperimenter]
  | properties04 : IsFamily properties04 V04.property V04.propertyBase
      [V04.instructionsProperty, V04.nextTablesProperty, V04.actionsProperty, V04.oxmProperty]

theorem family_ok {F : Family} {a : Attr} {base : Sub} {subs : List Sub} (h : IsFamily F a base subs) : FamOk F a base subs := by
  cases h with
  | actions01 =>
    refine ⟨?_, ?_, ?_, fun t s h => pick_find h, ?_, ?_, ?_⟩
    · funext b o; rfl
    · intro s hs
      simp only [V01.actionClasses, List.map_cons, List.map_nil, List.mem_cons, List.not_mem_nil, or_false] at hs
      rcases hs with rfl | rfl | rfl | rfl | rfl | rfl | rfl | rfl | rfl | rfl <;> rfl
    · intro s hs
      simp only [V01.actionClasses, List.map_cons, List.map_nil, List.mem_cons, List.not_mem_nil, or_false] at hs
      rcases hs with rfl | rfl | rfl | rfl | rfl | rfl | rfl | rfl | rfl | rfl <;> decide
    · intro s hs
      simp only [V01.actionClasses, List.map_cons, List.map_nil, List.mem_cons, List.not_mem_nil, or_false] at hs
      rcases hs with rfl | rfl | rfl | rfl | rfl | rfl | rfl | rfl | rfl | rfl | rfl <;> decide
    · intro s hs
      simp only [V01.actionClasses, List.map_cons, List.map_nil, List.mem_cons, List.not_mem_nil, or_false] at hs
      rcases hs with rfl | rfl | rfl | rfl | rfl | rfl | rfl | rfl | rfl | rfl | rfl <;> exact ⟨_, rfl⟩
    · decide
  | actions04 =>
    refine ⟨?_, ?_, ?_, fun t s h => pick_find h, ?_, ?_, ?_⟩
    · funext b o; rfl
    · intro s hs
      simp only [V04.actionClasses, List.map_cons, List.map_nil, List.mem_cons, List.not_mem_nil, or_false] at hs
      repeat' rcases hs with rfl | hs
      all_goals first | rfl | (subst hs; rfl)
    · intro s hs
      simp only [V04.actionClasses, List.map_cons, List.map_nil, List.mem_cons, List.not_mem_nil, or_false] at hs
      repeat' rcases hs with rfl | hs
      all_goals first | decide | (subst hs; decide)
    · intro s hs
      simp only [V04.actionClasses, List.map_cons, List.map_nil, List.mem_cons, List.not_mem_nil, or_false] at hs
      repeat' rcases hs with rfl | hs
      all_goals first | decide | (subst hs; decide)
    · intro s hs
      simp only [V04.actionClasses, List.map_cons, List.map_nil, List.mem_cons, List.not_mem_nil, or_false] at hs
      repeat' rcases hs with rfl | hs
      all_goals first | exact ⟨_, rfl⟩ | (subst hs; exact ⟨_, rfl⟩)
    · decide
  | instructions04 =>
    refine ⟨?_, ?_, ?_, ?_, ?_, ?_, ?_⟩
    · funext b o; rfl
    · intro s hs
      simp only [List.mem_cons, List.not_mem_nil, or_false] at hs
      rcases hs with rfl | rfl | rfl | rfl | rfl | rfl <;> rfl
    · intro s hs
      simp only [List.mem_cons, List.not_mem_nil, or_false] at hs
      rcases hs with rfl | rfl | rfl | rfl | rfl | rfl <;> decide
    · intro t s h
      have h : V04.pickInstruction t = .ok s := h
      refine .inr ⟨?_, fun _ => h⟩
      unfold V04.pickInstruction at h
      split at h <;> first | (cases h; simp) | cases h
    · intro s hs
      simp only [List.mem_cons, List.not_mem_nil, or_false] at hs
      rcases hs with rfl | rfl | rfl | rfl | rfl | rfl | rfl <;> decide
    · intro s hs
      simp only [List.mem_cons, List.not_mem_nil, or_false] at hs
      rcases hs with rfl | rfl | rfl | rfl | rfl | rfl | rfl <;> exact ⟨_, rfl⟩
    · decide
  | bands04 =>
    refine ⟨?_, ?_, ?_, ?_, ?_, ?_, ?_⟩
    · funext b o; rfl
    · intro s hs
      simp only [List.mem_cons, List.not_mem_nil, or_false] at hs
      rcases hs with rfl | rfl | rfl <;> rfl
    · intro s hs
      simp only [List.mem_cons, List.not_mem_nil, or_false] at hs
      rcases hs with rfl | rfl | rfl <;> decide
    · intro t s h
      have h : V04.pickBand t = .ok s := h
      refine .inr ⟨?_, fun _ => h⟩
      unfold V04.pickBand at h
      split at h <;> first | (cases h; simp) | cases h
    · intro s hs
      simp only [List.mem_cons, List.not_mem_nil, or_false] at hs
      rcases hs with rfl | rfl | rfl | rfl <;> decide
    · intro s hs
      simp only [List.mem_cons, List.not_mem_nil, or_false] at hs
      rcases hs with rfl | rfl | rfl | rfl <;> exact ⟨_, rfl⟩
    · decide
  | properties04 =>
    refine ⟨?_, ?_, ?_, ?_, ?_, ?_, ?_⟩
    · funext b o; rfl
    · intro s hs
      simp only [List.mem_cons, List.not_mem_nil, or_false] at hs
      rcases hs with rfl | rfl | rfl | rfl <;> rfl
    · intro s hs
      simp only [List.mem_cons, List.not_mem_nil, or_false] at hs
      rcases hs with rfl | rfl | rfl | rfl <;> decide
    · intro t s h
      have h : V04.pickProperty t = .ok s := h
      refine .inr ⟨?_, fun _ => h⟩
      unfold V04.pickProperty at h
      repeat' split at h
      all_goals (cases h; simp)
    · intro s hs
      simp only [List.mem_cons, List.not_mem_nil, or_false] at hs
      rcases hs with rfl | rfl | rfl | rfl | rfl <;> decide
    · intro s hs
      simp only [List.mem_cons, List.not_mem_nil, or_false] at hs
      rcases hs with rfl | rfl | rfl | rfl | rfl <;> exact ⟨_, rfl⟩
    · decide

theorem afterUses_sets (F : Family) : ∀ (h : List Used) (o : Obj), ∃ ops, (afterUses F o h).dict = runSets o.dict ops := by
  intro h
  induction h with
  | nil => intro o; exact ⟨[], rfl⟩
  | cons u h ih =>
    intro o
    cases u with
    | assign n v =>
      obtain ⟨ops, e⟩ := ih ⟨o.cls, o.dict.set n v⟩
      exact ⟨(n, v) :: ops, e⟩
    | unpack junk buff off =>
      obtain ⟨o1, e1⟩ := family_sets F junk buff off o
      obtain ⟨o2, e2⟩ := ih (F.unpackInto junk buff off o).2
      exact ⟨o1 ++ o2, by simp only [afterUses, runSets_append]; rw [e2, e1]⟩

/-- C67.  An action, instruction, meter band or table property that was constructed as class `s`, with any history, even one in which it was
decoded as other classes.  Where a new object finds `s` in the bytes, `unpack` succeeds, the object is an `s` again and has the
attributes of the new one. -/
theorem C67_own_class_partial {F : Family} {a : Attr} {base : Sub} {subs : List Sub} (hF : IsFamily F a base subs) {s : Sub} (hs : s ∈ subs)
    (h : List Used) (junk : Val) (buff : Bytes) (off : Nat) {vs : List Val} (hu : a.unpack buff off = .ok (.obj s.name vs)) :
    let out := F.unpackInto junk buff off (afterUses F ⟨s, newInstance s.fields⟩ h)
    out.1 = .ok () ∧ out.2.cls = s ∧ attrsOf s.fields out.2.dict = vs := by
  have k := family_ok hF
  obtain ⟨o, ho⟩ : ∃ o, o = afterUses F ⟨s, newInstance s.fields⟩ h := ⟨_, rfl⟩
  obtain ⟨ops, he⟩ := afterUses_sets F h ⟨s, newInstance s.fields⟩
  rw [← ho] at he ⊢
  rw [k.new] at hu
  have hp : ∀ t, ubUnpack 2 F.ref buff off = .ok t → F.pick o.cls (gotNum t) = F.pick base (gotNum t) := by
    intro t ht
    cases hb : F.pick base (gotNum t) with
    | error e =>
      unfold variantUnpack at hu
      simp only [ht, hb] at hu
      cases hu
    | ok s' =>
      rcases k.chosen _ _ hb with rfl | ⟨-, h⟩
      · exfalso
        unfold variantUnpack at hu
        simp only [ht, hb] at hu
        split at hu
        · cases hu
        split at hu
        · cases hu
        · simp only [Except.ok.injEq, Val.obj.injEq] at hu
          exact k.other s hs hu.1.symm
      · exact h _
  obtain ⟨e1, e2⟩ := family_same F junk buff off o (F.pick base) hp
  rw [hu] at e1
  obtain ⟨t, s', vs', ht, hs', hv, hl, t2, n, hd⟩ := e2 _ hu
  simp only [Val.obj.injEq] at hv
  obtain ⟨hv1, rfl⟩ := hv
  have : s' = s := by
    rcases k.chosen _ _ hs' with rfl | ⟨hm, -⟩
    · exact absurd hv1 (k.other s hs)
    · have h1 := k.named s' hm
      rw [← hv1, k.named s hs] at h1
      exact (Option.some.inj h1).symm
  subst this
  have hn := k.nodup s' (by simp [hs])
  refine ⟨e1, by rw [hd], ?_⟩
  rw [hd]
  simp only
  rw [he, ← runSets_append]
  simp only [attrsOf, runSets_attrs _ _ hn, lastAssigned_append]
  have := lastAssigned_zip (ns := s'.fields.map (·.1)) (vs := vs)
    (fun x => lastAssigned x (lastAssigned x (lastAssigned x (initialOf s'.fields x) ops)
      (F.typeAttr.toList.map fun k => (k, t2))) (if F.trunc then F.lenAttr.toList.map fun k => (k, n) else [])) hn (by simpa using hl)
  conv => rhs; rw [← this]
  rw [List.map_map]
  apply List.map_congr_left
  intro p hp
  simp only [Function.comp]
  rw [find_of_mem hn hp]

example := C67_own_class_partial .actions01 (s := V01.actionOutput) (by simp [V01.actionClasses])
  [.assign "port" (.int 9), .unpack .none [0, 11, 0, 16, 0, 1, 0, 0, 0, 0, 0, 0, 0, 0, 0, 5] 0] .none [0, 0, 0, 8, 0, 3, 0, 64] 0
  (vs := [.ub 2 (.mask 0), .ub 2 (.int 8), .ub 2 (.int 3), .ub 2 (.int 64)]) (by decide +kernel)

/-- C67.  An object of the base class whose attributes may have been assigned, decoded for the first time: `unpack` ends as on a new
object, whatever class the bytes hold. -/
theorem C67_base_object_partial {F : Family} {a : Attr} {base : Sub} {subs : List Sub} (hF : IsFamily F a base subs) (ops : List (String × Val))
    (ho : ∀ p ∈ ops, p.1 ∈ base.fields.map (·.1)) (junk : Val) (buff : Bytes) (off : Nat) :
    let out := F.unpackInto junk buff off ⟨base, runSets (newInstance base.fields) ops⟩
    out.1 = (a.unpack buff off).map (fun _ => ()) ∧
    ∀ c vs, a.unpack buff off = .ok (.obj c vs) → out.2.cls.name = c ∧ attrsOf out.2.cls.fields out.2.dict = vs := by
  have k := family_ok hF
  obtain ⟨e1, e2⟩ := family_same F junk buff off ⟨base, runSets (newInstance base.fields) ops⟩ (F.pick base) (fun _ _ => rfl)
  rw [k.new]
  refine ⟨e1, fun c vs hu => ?_⟩
  obtain ⟨t, s, vs', ht, hs, hv, hl, t2, n, hd⟩ := e2 _ hu
  simp only [Val.obj.injEq] at hv
  obtain ⟨rfl, rfl⟩ := hv
  rw [hd]
  refine ⟨rfl, ?_⟩
  simp only
  have hm : s ∈ base :: subs := by
    rcases k.chosen _ _ hs with rfl | ⟨hm, -⟩
    · simp
    · simp [hm]
  have hb := k.nodup base (by simp)
  have hk : ∀ (ops : List (String × Val)) (d : Dict), d.map (·.1) = base.fields.map (·.1) →
      (∀ p ∈ ops, p.1 ∈ base.fields.map (·.1)) → (runSets d ops).map (·.1) = base.fields.map (·.1) := by
    intro ops
    induction ops with
    | nil => intro d h _; exact h
    | cons p ops ih =>
      obtain ⟨x, v⟩ := p
      intro d h1 h2
      refine ih (d.set x v) ?_ fun q hq => h2 q (by simp [hq])
      rw [keys_set, h1, if_pos (h2 (x, v) (by simp))]
  have hnew : (newInstance base.fields).map (·.1) = base.fields.map (·.1) := by
    rw [newInstance_eq _ hb, List.map_map]; rfl
  obtain ⟨pre, hpre⟩ : ∃ pre, pre = (F.typeAttr.toList.map fun k => (k, t2)) ++ (if F.trunc then F.lenAttr.toList.map fun k => (k, n) else []) :=
    ⟨_, rfl⟩
  rw [← hpre, runSets_append]
  have hkeys : (runSets (runSets (newInstance base.fields) ops) pre).map (·.1) = base.fields.map (·.1) := by
    apply hk pre _ (hk ops _ hnew ho)
    intro p hp
    rw [hpre] at hp
    rcases List.mem_append.mp hp with hp | hp
    · obtain ⟨x, hx, rfl⟩ := List.mem_map.mp hp
      exact k.attrs x (by simp only [List.mem_append]; exact .inl hx)
    · split at hp
      · obtain ⟨x, hx, rfl⟩ := List.mem_map.mp hp
        exact k.attrs x (by simp only [List.mem_append]; exact .inr hx)
      · simp at hp
  refine ordered (k.nodup s hm) (by rw [hkeys]; exact hb) ?_ hl
  rw [hkeys]
  have hh := k.head s hm
  rw [List.filter_eq_self.mpr]
  · exact hh
  · intro x hx; simpa using hh.subset hx

/-- An `ActionOutput` that was in turn an `ActionEnqueue` and filled by the user is decoded as `ActionOutput` again. -/
example :
    let o := afterUses actions01 ⟨V01.actionOutput, newInstance V01.actionOutput.fields⟩
      [.assign "port" (.int 9), .unpack .none [0, 11, 0, 16, 0, 1, 0, 0, 0, 0, 0, 0, 0, 0, 0, 5] 0]
    o.cls.name = "01.ActionEnqueue" ∧
    V01.action.unpack [0, 0, 0, 8, 0, 3, 0, 64] 0 =
      .ok (.obj "01.ActionOutput" [.ub 2 (.mask 0), .ub 2 (.int 8), .ub 2 (.int 3), .ub 2 (.int 64)]) ∧
    attrsOf V01.actionOutput.fields (actions01.unpackInto .none [0, 0, 0, 8, 0, 3, 0, 64] 0 o).2.dict =
      [.ub 2 (.mask 0), .ub 2 (.int 8), .ub 2 (.int 3), .ub 2 (.int 64)] := by
  refine ⟨?_, ?_, ?_⟩ <;> decide +kernel

/-- C67 fails for an object that changes its class after having been of another one: the dictionary keeps the order of the first class, and
`pack` pairs it with the attributes of the new class by position.  The same bytes decoded by a new object are packed again. -/
theorem C67_other_class_counterexample :
    (let first : Bytes := [0, 24, 0, 8, 0, 0, 0, 0]      -- DEC_NW_TTL: a pad only
     let second : Bytes := [0, 23, 0, 8, 64, 0, 0, 0]    -- SET_NW_TTL: a number, then a pad
     let new : Obj := ⟨V04.actionHeader, newInstance V04.actionHeader.fields⟩
     let used := (actions04.unpackInto .none first 0 new).2
     let packed := fun o : Obj => o.cls.pack (attrsOf o.cls.fields o.dict)
     (actions04.unpackInto .none second 0 new).1 = .ok () ∧ packed (actions04.unpackInto .none second 0 new).2 = .ok second ∧
     (actions04.unpackInto .none second 0 used).1 = .ok () ∧ packed (actions04.unpackInto .none second 0 used).2 = .error .pack) ∧
    (let first : Bytes := [0, 2, 0, 24] ++ List.replicate 20 0  -- WRITE_METADATA
     let second : Bytes := [0, 1, 0, 8, 7, 0, 0, 0]            -- GOTO_TABLE
     let new : Obj := ⟨V04.instructionBase, newInstance V04.instructionBase.fields⟩
     let used := (instructions04.unpackInto .none first 0 new).2
     let packed := fun o : Obj => o.cls.pack (attrsOf o.cls.fields o.dict)
     packed (instructions04.unpackInto .none second 0 new).2 = .ok second ∧
     (instructions04.unpackInto .none second 0 used).1 = .ok () ∧ packed (instructions04.unpackInto .none second 0 used).2 = .error .pack) ∧
    (let first : Bytes := [0, 11, 0, 16, 0, 1, 0, 0, 0, 0, 0, 0, 0, 0, 0, 5]  -- ENQUEUE
     let second : Bytes := [0, 2, 0, 8, 5, 0, 0, 0]                          -- SET_VLAN_PCP
     let new : Obj := ⟨V01.actionHeader, newInstance V01.actionHeader.fields⟩
     let used := (actions01.unpackInto .none first 0 new).2
     let packed := fun o : Obj => o.cls.pack (attrsOf o.cls.fields o.dict)
     packed (actions01.unpackInto .none second 0 new).2 = .ok second ∧
     (actions01.unpackInto .none second 0 used).1 = .ok () ∧ packed (actions01.unpackInto .none second 0 used).2 = .error .pack) := by
  refine ⟨⟨?_, ?_, ?_, ?_⟩, ⟨?_, ?_, ?_⟩, ⟨?_, ?_, ?_⟩⟩ <;> decide +kernel

/-- C67 fails for types that no class of the version has: a v0x01 action keeps the class it had, so the eight bytes of an unknown action
become an `ActionOutput` in one object and a bare header in another. -/
theorem C67_unknown_type_counterexample :
    let bytes : Bytes := [0, 99, 0, 8, 0, 3, 0, 64]
    let used : Obj := ⟨V01.actionOutput, newInstance V01.actionOutput.fields⟩
    let new : Obj := ⟨V01.actionHeader, newInstance V01.actionHeader.fields⟩
    (actions01.unpackInto .none bytes 0 used).2.cls.name = "01.ActionOutput" ∧
    (actions01.unpackInto .none bytes 0 new).2.cls.name = "01.ActionHeader" := by
  refine ⟨?_, ?_⟩ <;> decide +kernel

/-- C67, the limits.  The class of an object of such a family after `unpack`, which may have failed.  A type that cannot be read, or that has no
class, leaves the class as it was.  A v0x04 action keeps it also if the length cannot be read.  In all other cases the object is of the class of
the type, whether or not the rest could be decoded. -/
theorem C67_failed_class {F : Family} (hF : F ∈ [actions01, actions04, instructions04, bands04, properties04]) (junk : Val) (buff : Bytes)
    (off : Nat) (o : Obj) :
    let out := F.unpackInto junk buff off o
    (∀ e, ubUnpack 2 F.ref buff off = .error e → out.1 = .error e ∧ out.2.cls = o.cls) ∧
    (∀ t e, ubUnpack 2 F.ref buff off = .ok t → F.pick o.cls (gotNum t) = .error e → out.1 = .error e ∧ out.2.cls = o.cls) ∧
    (∀ t s, ubUnpack 2 F.ref buff off = .ok t → F.pick o.cls (gotNum t) = .ok s → buff.length < off + 4 → F.trunc = true →
      out.1 = .error .unpack ∧ out.2.cls = if F.lenAttr = some "length" then o.cls else s) ∧
    (∀ t s, ubUnpack 2 F.ref buff off = .ok t → F.pick o.cls (gotNum t) = .ok s → off + 4 ≤ buff.length ∨ F.trunc = false → out.2.cls = s) := by
  have short : buff.length < off + 4 → ubUnpack 2 .none buff (off + 2) = .error .unpack := fun h => by
    simp only [ubUnpack, unpackFrom, if_neg (show ¬ off + 2 + 2 ≤ buff.length by omega)]
  have long : off + 4 ≤ buff.length → ∃ n, ubUnpack 2 .none buff (off + 2) = .ok n := fun h => by
    simp only [ubUnpack, unpackFrom, if_pos (show off + 2 + 2 ≤ buff.length by omega), refApply]
    exact ⟨_, rfl⟩
  have hl : F.lenAttr = none ∨ F.lenAttr = some "length" := by
    simp only [List.mem_cons, List.not_mem_nil, or_false] at hF
    rcases hF with rfl | rfl | rfl | rfl | rfl
    · exact Or.inl rfl
    · exact Or.inr rfl
    · exact Or.inl rfl
    · exact Or.inl rfl
    · exact Or.inl rfl
  refine ⟨fun e h => ?_, fun t e h1 h2 => ?_, fun t s h1 h2 h3 h4 => ?_, fun t s h1 h2 h3 => ?_⟩
  · simp only [Family.unpackInto, h]; exact ⟨trivial, trivial⟩
  · simp only [Family.unpackInto, h1, h2]; exact ⟨trivial, trivial⟩
  · simp only [Family.unpackInto, h1, h2, h4, if_true, short h3, true_and]
    rcases hl with e | e <;> simp [e]
  · cases ht : F.trunc with
    | false => simp only [Family.unpackInto, h1, h2, ht]; rfl
    | true =>
      obtain ⟨n, hn⟩ := long (h3.resolve_right (by rw [ht]; simp))
      simp only [Family.unpackInto, h1, h2, ht, if_true, hn]; rfl

/-- Two bytes of an instruction make an `InstructionGotoTable` of a new `Instruction`, and raise; two bytes of an action leave the action header. -/
example :
    let new : Obj := ⟨V04.actionHeader, newInstance V04.actionHeader.fields⟩
    (instructions04.unpackInto .none [0, 1] 0 new).1 = .error .unpack ∧ (instructions04.unpackInto .none [0, 1] 0 new).2.cls.name = "04.InstructionGotoTable" ∧
    (actions04.unpackInto .none [0, 0] 0 new).1 = .error .unpack ∧ (actions04.unpackInto .none [0, 0] 0 new).2.cls.name = new.cls.name ∧
    (actions04.unpackInto .none [0, 0, 0, 16] 0 new).1 = .error .unpack ∧ (actions04.unpackInto .none [0, 0, 0, 16] 0 new).2.cls.name = "04.ActionOutput" := by
  refine ⟨?_, ?_, ?_, ?_, ?_, ?_⟩ <;> decide +kernel

/-! ## Lists and addresses -/

theorem addSpec_prefix (isItem : Val → Bool) (st items : List Val) :
    addSpec isItem st items = (st ++ (addSpec isItem [] items).1, (addSpec isItem [] items).2) := by
  simp [addSpec]

/-- C67 fails for lists: `unpack` appends.  What a list holds afterwards is what it held before, followed by what a new list would hold;
the exception, if any, is the same. -/
theorem C67_lists (isItem : Val → Bool) (it : Attr) (buff : Bytes) (off : Nat) (st : List Val) :
    fixUnpack isItem it buff off st = (st ++ (fixUnpack isItem it buff off []).1, (fixUnpack isItem it buff off []).2) := by
  have key : ∀ n off (st : List Val), buff.length - off = n → ∀ pre, fixUnpack isItem it buff off (pre ++ st) =
      (pre ++ (fixUnpack isItem it buff off st).1, (fixUnpack isItem it buff off st).2) := by
    intro n
    induction n using Nat.strongRecOn with
    | ind n ih =>
    intro off st hn pre
    unfold fixUnpack
    split
    · rename_i hlt
      split
      · rfl
      · rename_i u hu
        have e : fixAppend isItem (pre ++ st) u = (pre ++ (fixAppend isItem st u).1, (fixAppend isItem st u).2) := by
          rw [fixAppend_spec, fixAppend_spec, addSpec_prefix, addSpec_prefix isItem st]; simp
        rw [e]
        rcases fixAppend isItem st u with ⟨st', _ | x⟩
        · simp only
          split
          · rfl
          · rename_i k hk
            split
            · rfl
            · exact ih (buff.length - (off + k)) (by omega) (off + k) st' rfl pre
        · rfl
    · rfl
  have := key _ off [] rfl st
  rwa [List.append_nil] at this

/-- Two decodings of one port number into the same list. -/
example : fixUnpack (fun v => match v with | .ub 2 _ => true | _ => false) (ubint 2) [0, 5] 0
    (fixUnpack (fun v => match v with | .ub 2 _ => true | _ => false) (ubint 2) [0, 5] 0 []).1 = ([.ub 2 (.int 5), .ub 2 (.int 5)], none) := by
  decide +kernel

/-- C67 for addresses: an `IPAddress` keeps its netmask when it is decoded into; the address itself does not depend on what it was. -/
theorem C67_address (m n : Int) (buff : Bytes) (off : Nat) (s : Val) (k : Int) (h : ipUnpack m buff off = .ok (.ip s k)) :
    k = m ∧ ipUnpack n buff off = .ok (.ip s n) := by
  unfold ipUnpack at h ⊢
  split at h
  · cases h; rename_i e; exact ⟨rfl, rfl⟩
  · cases h

example := C67_address 32 24 [7, 10, 0, 3, 255] 1 (.str "10.0.3.255".toList) 32 (by decide +kernel)

end Pyof.Props
