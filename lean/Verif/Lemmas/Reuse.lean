import Verif.Model.Reuse
import Verif.Props.Struct
/-! Helper lemmas for decoding into used objects (`Verif/Props/Reuse.lean`). -/
namespace Pyof
open Meth Props

theorem bind_eq {α β : Type} (p : Meth α) (k : α → Meth β) (d : Dict) :
    (p >>= k).run d = match p.run d with | (.ok a, d') => (k a).run d' | (.error e, d') => (.error e, d') := rfl
theorem pure_eq {α : Type} (a : α) (d : Dict) : (pure a : Meth α).run d = (.ok a, d) := rfl
theorem setattr_eq (n : String) (v : Val) (d : Dict) : (setattr n v).run d = (.ok (), d.set n v) := rfl
theorem raise_eq {α : Type} (e : Err) (d : Dict) : (raise e : Meth α).run d = (.error e, d) := rfl
theorem call_eq {α : Type} (r : Res α) (d : Dict) : (call r).run d = (r, d) := rfl

theorem set_lookup (d : Dict) (k : String) (v : Val) (n : String) :
    (d.set k v).lookup n = if n = k then some v else d.lookup n := by
  induction d with
  | nil =>
            simp only [Dict.set, List.lookup]
            by_cases h : n = k
            · simp [h]
            · have : (n == k) = false := by simpa using h
              simp [this, h]
  | cons p d ih =>
    obtain ⟨k', w⟩ := p
    simp only [Dict.set]
    split
    · rename_i h; subst h
      by_cases h : n = k'
      · simp [List.lookup, h]
      · have : (n == k') = false := by simpa using h
        simp [List.lookup, this, h]
    · rename_i h
      by_cases h1 : n = k'
      · subst h1; simp [List.lookup, h]
      · have : (n == k') = false := by simpa using h1
        simp only [List.lookup_cons, this, ih]

theorem getattr_set (k : String) (v : Val) (n : String) (d : Dict) :
    (getattr n).run (d.set k v) = if n = k then (.ok v, d.set k v) else (((getattr n).run d).1, d.set k v) := by
  simp only [getattr]
  rw [set_lookup]
  by_cases h : n = k
  · simp [h]
  · simp only [h, if_false]; cases d.lookup n <;> rfl

theorem runSets_append (d : Dict) (a b : List (String × Val)) : runSets d (a ++ b) = runSets (runSets d a) b := by
  simp [runSets, List.foldl_append]

theorem loop_ok {junk : Val} : ∀ {fs : Fields} {buff : Bytes} {b : Nat} {vs : List Val} {e : Nat} (d : Dict),
    unpackAttrs fs buff b = .ok (vs, e) → (unpackLoop junk fs buff b).run d = (.ok e, runSets d ((fs.map (·.1)).zip vs)) := by
  intro fs
  induction fs with
  | nil => intro buff b vs e d h; simp only [unpackAttrs] at h; cases h; rfl
  | cons p fs ih =>
    obtain ⟨n, c⟩ := p
    intro buff b vs e d h
    simp only [unpackAttrs] at h
    split at h
    · cases h
    rename_i v k hv
    split at h
    · cases h
    rename_i vs' e' hr
    cases h
    have h1 : (unpackAttribute junk n c buff b).run d = (.ok k, d.set n v) := by
      simp only [unpackAttr] at hv
      unfold unpackAttribute
      split at hv
      · rename_i hb; cases hv; rw [if_pos hb]; rfl
      · rename_i hb
        rw [if_neg hb]
        split at hv
        · cases hv
        rename_i v' hu
        split at hv
        · cases hv
        rename_i k' hs
        cases hv
        simp only [hu, bind_eq, setattr_eq, call_eq, hs]
    simp only [unpackLoop, bind_eq, h1, ih _ hr]
    rfl

theorem loop_error {junk : Val} : ∀ {fs : Fields} {buff : Bytes} {b : Nat} {x : Err} (d : Dict),
    unpackAttrs fs buff b = .error x →
    ∃ ops, (∀ o ∈ ops, o.1 ∈ fs.map (·.1)) ∧ (unpackLoop junk fs buff b).run d = (.error x, runSets d ops) := by
  intro fs
  induction fs with
  | nil => intro buff b x d h; simp only [unpackAttrs] at h; cases h
  | cons p fs ih =>
    obtain ⟨n, c⟩ := p
    intro buff b x d h
    simp only [unpackAttrs] at h
    split at h
    · rename_i e hv
      cases h
      simp only [unpackAttr] at hv
      split at hv
      · cases hv
      rename_i hb
      split at hv
      · rename_i hu
        cases hv
        refine ⟨[(n, junk)], by simp, ?_⟩
        simp only [unpackLoop, bind_eq, unpackAttribute, if_neg hb, hu, setattr_eq, raise_eq]
        rfl
      · rename_i v hu
        split at hv
        · rename_i hs
          cases hv
          refine ⟨[(n, v)], by simp, ?_⟩
          simp only [unpackLoop, bind_eq, unpackAttribute, if_neg hb, hu, setattr_eq, call_eq, hs]
          rfl
        · cases hv
    · rename_i v k hv
      split at h
      · rename_i e hr
        cases h
        have h1 : (unpackAttribute junk n c buff b).run d = (.ok k, d.set n v) := by
          simp only [unpackAttr] at hv
          unfold unpackAttribute
          split at hv
          · rename_i hb; cases hv; rw [if_pos hb]; rfl
          · rename_i hb
            rw [if_neg hb]
            split at hv
            · cases hv
            rename_i v' hu
            split at hv
            · cases hv
            rename_i k' hs
            cases hv
            simp only [hu, bind_eq, setattr_eq, call_eq, hs]
        obtain ⟨ops, ho, hl⟩ := ih (d.set n v) hr
        refine ⟨(n, v) :: ops, ?_, ?_⟩
        · intro o h
          rcases List.mem_cons.mp h with rfl | h
          · simp
          · simp only [List.map_cons, List.mem_cons]; exact .inr (ho o h)
        · simp only [unpackLoop, bind_eq, h1, hl]
          rfl
      · cases h

theorem unpackAttrs_length : ∀ {fs : Fields} {buff : Bytes} {b : Nat} {vs : List Val} {e : Nat},
    unpackAttrs fs buff b = .ok (vs, e) → vs.length = fs.length := by
  intro fs
  induction fs with
  | nil => intro buff b vs e h; simp only [unpackAttrs] at h; cases h; rfl
  | cons p fs ih =>
    obtain ⟨n, c⟩ := p
    intro buff b vs e h
    simp only [unpackAttrs] at h
    split at h
    · cases h
    split at h
    · cases h
    rename_i hr
    cases h
    simp [ih hr]

theorem lastAssigned_not_mem {n : String} : ∀ {ops : List (String × Val)} (v : Val), (∀ o ∈ ops, o.1 ≠ n) → lastAssigned n v ops = v := by
  intro ops
  induction ops with
  | nil => intro v _; rfl
  | cons o ops ih =>
    obtain ⟨k, w⟩ := o
    intro v h
    simp only [lastAssigned]
    rw [if_neg (h (k, w) (by simp))]
    exact ih v fun o ho => h o (by simp [ho])

theorem lastAssigned_append (n : String) (v : Val) (a b : List (String × Val)) :
    lastAssigned n v (a ++ b) = lastAssigned n (lastAssigned n v a) b := by
  induction a generalizing v with
  | nil => rfl
  | cons o a ih => obtain ⟨k, w⟩ := o; simp only [List.cons_append, lastAssigned]; exact ih _

theorem lastAssigned_zip : ∀ {ns : List String} {vs : List Val} (f : String → Val), ns.Nodup → vs.length = ns.length →
    ns.map (fun n => lastAssigned n (f n) (ns.zip vs)) = vs := by
  intro ns
  induction ns with
  | nil => intro vs f _ h; simp at h; subst h; rfl
  | cons n ns ih =>
    intro vs f hn h
    cases vs with
    | nil => simp at h
    | cons v vs =>
      simp only [List.nodup_cons] at hn
      simp only [List.length_cons, Nat.add_right_cancel_iff] at h
      simp only [List.map_cons, List.zip_cons_cons, lastAssigned, if_true]
      congr 1
      · apply lastAssigned_not_mem
        intro o ho e
        exact hn.1 (e ▸ (List.of_mem_zip ho).1)
      · exact ih (fun m => if n = m then v else f m) hn.2 h

/-- The outcome `x` of `unpack` on an object with dictionary `d`, given the outcome `r` on a new one: the same exception if any, only
assignments to `names`, and if there is no exception they end with the same values. -/
def IntoAt (names : List String) (d : Dict) (x : Res Unit × Dict) (r : Res (List Val)) : Prop :=
  ∃ ops, (∀ o ∈ ops, o.1 ∈ names) ∧ x = (r.map fun _ => (), runSets d ops) ∧
    ∀ vs, r = .ok vs → ∀ f : String → Val, names.map (fun n => lastAssigned n (f n) ops) = vs

def Into (names : List String) (p : Meth Unit) (r : Res (List Val)) : Prop := ∀ d, IntoAt names d (p.run d) r

theorem at_error {names : List String} {d : Dict} {e : Err} {ops : List (String × Val)} (h : ∀ o ∈ ops, o.1 ∈ names) :
    IntoAt names d (.error e, runSets d ops) (.error e) := ⟨ops, h, rfl, nofun⟩

theorem at_ok {names : List String} {d : Dict} {vs : List Val} {ops : List (String × Val)} (h : ∀ o ∈ ops, o.1 ∈ names)
    (hv : ∀ f : String → Val, names.map (fun n => lastAssigned n (f n) ops) = vs) :
    IntoAt names d (.ok (), runSets d ops) (.ok vs) := ⟨ops, h, rfl, fun _ e => by cases e; exact hv⟩

theorem generic_into {fs : Fields} (hn : (fs.map (·.1)).Nodup) (junk : Val) (buff : Bytes) (off : Nat) :
    Into (fs.map (·.1)) (do let _ ← unpackLoop junk fs buff off; pure ())
      (match unpackAttrs fs buff off with | .ok (vs, _) => .ok vs | .error e => .error e) := by
  intro d
  cases h : unpackAttrs fs buff off with
  | error e =>
    obtain ⟨ops, ho, hl⟩ := loop_error (junk := junk) d h
    simp only [bind_eq, hl]
    exact at_error ho
  | ok p =>
    obtain ⟨vs, e⟩ := p
    simp only [bind_eq, loop_ok d h, pure_eq]
    exact at_ok (fun o ho => (List.of_mem_zip ho).1) fun f => lastAssigned_zip f hn (by rw [unpackAttrs_length h]; simp)

/-- After the loop over three or four fields: the attributes just stored. -/
theorem loop_cases (junk : Val) (fs : Fields) (buff : Bytes) (off : Nat) (d : Dict) :
    (∃ e ops, unpackAttrs fs buff off = .error e ∧ (∀ o ∈ ops, o.1 ∈ fs.map (·.1)) ∧
      (unpackLoop junk fs buff off).run d = (.error e, runSets d ops)) ∨
    ∃ vs e, unpackAttrs fs buff off = .ok (vs, e) ∧ vs.length = fs.length ∧
      (unpackLoop junk fs buff off).run d = (.ok e, runSets d ((fs.map (·.1)).zip vs)) := by
  cases h : unpackAttrs fs buff off with
  | error e => obtain ⟨ops, ho, hl⟩ := loop_error (junk := junk) d h; exact .inl ⟨e, ops, rfl, ho, hl⟩
  | ok p => obtain ⟨vs, e⟩ := p; exact .inr ⟨vs, e, rfl, unpackAttrs_length h, loop_ok d h⟩

theorem three {α : Type} {vs : List α} (h : vs.length = 3) : ∃ a b c, vs = [a, b, c] := by
  match vs, h with
  | [a, b, c], _ => exact ⟨a, b, c, rfl⟩

theorem four {α : Type} {vs : List α} (h : vs.length = 4) : ∃ a b c d, vs = [a, b, c, d] := by
  match vs, h with
  | [a, b, c, d], _ => exact ⟨a, b, c, d, rfl⟩

/-- What decoding an enumerated number leaves in the attribute. -/
theorem enum_form {w : Nat} {es : List Nat} {buff : Bytes} {b : Nat} {v : Val} {k : Nat}
    (h : unpackAttr (ubint w (.enum es)) buff b = .ok (v, k)) : v = .ub w .none ∨ ∃ t, v = .ub w (.enum t) := by
  simp only [unpackAttr] at h
  split at h
  · cases h; exact .inl rfl
  have hu : ∀ v, (ubint w (.enum es)).unpack buff b = .ok v → ∃ t, v = .ub w (.enum t) := by
    intro v hv
    simp only [ubint, ubUnpack, refApply] at hv
    split at hv
    · cases hv
    rename_i n _
    by_cases hn : n ∈ es
    · simp only [hn, if_true] at hv; cases hv; exact ⟨_, rfl⟩
    · simp only [hn, if_false] at hv; cases hv
  split at h
  · cases h
  rename_i hv
  split at h
  · cases h
  cases h
  exact .inr (hu _ hv)

theorem int_form {w : Nat} {buff : Bytes} {b : Nat} {v : Val} {k : Nat}
    (h : unpackAttr (ubint w) buff b = .ok (v, k)) : v = .ub w .none ∨ ∃ t, v = .ub w (.int t) := by
  simp only [unpackAttr] at h
  split at h
  · cases h; exact .inl rfl
  have hu : ∀ v, (ubint w).unpack buff b = .ok v → ∃ t, v = .ub w (.int t) := by
    intro v hv
    simp only [ubint, ubUnpack, refApply] at hv
    split at hv
    · cases hv
    cases hv; exact ⟨_, rfl⟩
  split at h
  · cases h
  rename_i hv
  split at h
  · cases h
  cases h
  exact .inr (hu _ hv)

theorem attrs_head {n : String} {c : Attr} {fs : Fields} {buff : Bytes} {b : Nat} {v : Val} {vs : List Val} {e : Nat}
    (h : unpackAttrs ((n, c) :: fs) buff b = .ok (v :: vs, e)) :
    ∃ k, unpackAttr c buff b = .ok (v, k) ∧ unpackAttrs fs buff (b + k) = .ok (vs, e) := by
  simp only [unpackAttrs] at h
  split at h
  · cases h
  rename_i hv
  split at h
  · cases h
  rename_i hr
  cases h
  exact ⟨_, hv, hr⟩

set_option hygiene false in
macro "err_into" f:ident u:ident c:ident : tactic => `(tactic| (
  intro d
  unfold errorInto $u
  rcases loop_cases junk $f buff 0 d with ⟨e, ops, h, ho, hl⟩ | ⟨vs, e, h, hlen, hl⟩
  · simp only [h, bind_eq, hl]; exact at_error ho
  obtain ⟨a, b, c, rfl⟩ := three hlen
  obtain ⟨k, h1, hr⟩ := attrs_head h
  obtain ⟨k2, h2, -⟩ := attrs_head hr
  simp only [h, bind_eq, hl]
  clear h hl hlen hr
  simp only [$f:ident, runSets, List.foldl_cons, List.foldl_nil, List.map_cons, List.map_nil, List.zip_cons_cons, List.zip_nil_right, getattr_set]
  rcases enum_form h1 with rfl | ⟨t, rfl⟩
  · (refine at_error (ops := [("error_type", _), ("code", b), ("data", c)]) ?_; simp)
  simp only [String.reduceEq, if_false, if_true]
  rcases int_form h2 with rfl | ⟨i, rfl⟩
  · cases hms : List.lookup t.toNat $c with
    | none => simp only []; (refine at_error (ops := [("error_type", _), ("code", _), ("data", c)]) ?_; simp)
    | some ms =>
      simp only [bind_eq, getattr_set, String.reduceEq, if_false, if_true]
      (refine at_error (ops := [("error_type", _), ("code", _), ("data", c)]) ?_; simp)
  cases hms : List.lookup t.toNat $c with
  | none => simp only [hms]; (refine at_error (ops := [("error_type", _), ("code", _), ("data", c)]) ?_; simp)
  | some ms =>
    simp only [hms, bind_eq, getattr_set, String.reduceEq, if_false, if_true]
    by_cases hi : i.toNat ∈ ms
    · simp only [hi, if_true, setattr_eq]
      (refine at_ok (ops := [("error_type", _), ("code", _), ("data", c), ("code", _)]) ?_ ?_; simp; intro f; simp [lastAssigned])
    · simp only [hi, if_false, raise_eq]
      (refine at_error (ops := [("error_type", _), ("code", _), ("data", c)]) ?_; simp)))

theorem error_into01 (junk : Val) (buff : Bytes) :
    Into (V01.errorFields.map (·.1)) (errorInto V01.errorFields V01.errorCodes junk buff 0) (V01.errorUnpack buff) := by
  err_into V01.errorFields V01.errorUnpack V01.errorCodes

theorem error_into04 (junk : Val) (buff : Bytes) :
    Into (V04.errorFields.map (·.1)) (errorInto V04.errorFields V04.errorCodes junk buff 0) (V04.errorUnpack buff) := by
  err_into V04.errorFields V04.errorUnpack V04.errorCodes

theorem packetOut_into01 (buff : Bytes) :
    Into (V01.packetOutFields.map (·.1)) (packetOutInto V01.packetOutFields buff 0) (V01.packetOutUnpack buff) := by
  intro d
  simp only [V01.packetOutFields, packetOutInto, V01.packetOutUnpack, bind_eq, call_eq, setattr_eq, pure_eq, String.reduceEq, if_false, if_true]
  simp only [ubint, Nat.zero_add, Nat.reduceAdd, List.map_cons, List.map_nil]
  cases h1 : ubUnpack 4 .none buff 0 with
  | error e => exact at_error (ops := []) (by simp)
  | ok b =>
  simp only
  cases h2 : ubUnpack 2 .none buff 4 with
  | error e => exact at_error (ops := [("buffer_id", b)]) (by simp)
  | ok p =>
  simp only
  cases h3 : ubUnpack 2 .none buff 6 with
  | error e => exact at_error (ops := [("buffer_id", b), ("in_port", p)]) (by simp)
  | ok l =>
  simp only [getattr_set, if_true]
  cases h4 : V01.actions.unpack (slice buff 8 (8 + gotNum l)) 0 with
  | error e => exact at_error (ops := [("buffer_id", b), ("in_port", p), ("actions_len", l)]) (by simp)
  | ok acts =>
  simp only
  cases h5 : V01.actions.usize acts with
  | error e => exact at_error (ops := [("buffer_id", b), ("in_port", p), ("actions_len", l), ("actions", acts)]) (by simp)
  | ok n =>
  have h6 : binAttr.unpack buff (8 + n) = .ok (.bin (.bytes (buff.drop (8 + n)))) := rfl
  simp only [h6]
  refine at_ok (ops := [("buffer_id", b), ("in_port", p), ("actions_len", l), ("actions", acts), ("data", .bin (.bytes (buff.drop (8 + n))))]) ?_ ?_
  · simp
  · intro f; simp [lastAssigned]

theorem packetOut_into04 (buff : Bytes) :
    Into (V04.packetOutFields.map (·.1)) (packetOutInto V04.packetOutFields buff 0) (V04.packetOutUnpack buff) := by
  intro d
  simp only [V04.packetOutFields, packetOutInto, V04.packetOutUnpack, bind_eq, call_eq, setattr_eq, pure_eq, String.reduceEq, if_false, if_true]
  simp only [ubint, padAttr, Nat.zero_add, Nat.reduceAdd, List.map_cons, List.map_nil]
  cases h1 : ubUnpack 4 .none buff 0 with
  | error e => exact at_error (ops := []) (by simp)
  | ok b =>
  simp only
  cases h2 : ubUnpack 4 .none buff 4 with
  | error e => exact at_error (ops := [("buffer_id", b)]) (by simp)
  | ok p =>
  simp only
  cases h3 : ubUnpack 2 .none buff 8 with
  | error e => exact at_error (ops := [("buffer_id", b), ("in_port", p)]) (by simp)
  | ok l =>
  simp only [getattr_set, String.reduceEq, if_false, if_true]
  cases h4 : V04.actions.unpack (slice buff 16 (16 + gotNum l)) 0 with
  | error e => exact at_error (ops := [("buffer_id", b), ("in_port", p), ("actions_len", l), ("pad", .pad 6)]) (by simp)
  | ok acts =>
  simp only
  cases h5 : V04.actions.usize acts with
  | error e => exact at_error (ops := [("buffer_id", b), ("in_port", p), ("actions_len", l), ("pad", .pad 6), ("actions", acts)]) (by simp)
  | ok n =>
  have h6 : binAttr.unpack buff (16 + n) = .ok (.bin (.bytes (buff.drop (16 + n)))) := rfl
  simp only [h6]
  refine at_ok (ops := [("buffer_id", b), ("in_port", p), ("actions_len", l), ("pad", .pad 6), ("actions", acts), ("data", .bin (.bytes (buff.drop (16 + n))))]) ?_ ?_
  · simp
  · intro f; simp [lastAssigned]

theorem statsRequest_into (junk : Val) (buff : Bytes) :
    Into (V01.statsFields.map (·.1)) (statsRequestInto junk buff 0) (V01.statsRequestUnpack buff) := by
  intro d
  unfold statsRequestInto V01.statsRequestUnpack
  rcases loop_cases junk V01.statsFields buff 0 d with ⟨e, ops, h, ho, hl⟩ | ⟨vs, e, h, hlen, hl⟩
  · simp only [h, bind_eq, hl]; exact at_error ho
  obtain ⟨a, b, c, rfl⟩ := three hlen
  obtain ⟨k, h1, -⟩ := attrs_head h
  simp only [h, bind_eq, hl]
  clear h hl hlen
  simp only [V01.statsFields, runSets, List.foldl_cons, List.foldl_nil, List.map_cons, List.map_nil, List.zip_cons_cons, List.zip_nil_right,
    getattr_set]
  rcases enum_form h1 with rfl | ⟨t, rfl⟩
  · (refine at_error (ops := [("body_type", _), ("flags", b), ("body", c)]) ?_; simp)
  simp only [bind_eq, setattr_eq, getattr_set, String.reduceEq, if_false, if_true]
  cases hc : V01.requestClass t.toNat with
  | none =>
    simp only [bind_eq, setattr_eq]
    by_cases hb : rawBody c = []
    · simp only [hb, if_true, pure_eq]
      refine at_ok (ops := [("body_type", _), ("flags", b), ("body", c), ("body_type", _), ("body", _)]) ?_ ?_
      · simp
      · intro f; simp [lastAssigned]
    · simp only [hb, if_false, raise_eq]
      (refine at_error (ops := [("body_type", _), ("flags", b), ("body", c), ("body_type", _), ("body", _)]) ?_; simp)
  | some cl =>
    simp only
    cases hi : unpackItems cl (rawBody c) 0 with
    | error e =>
      simp only [bind_eq, setattr_eq, raise_eq]
      (refine at_error (ops := [("body_type", _), ("flags", b), ("body", c), ("body_type", _), ("body", _)]) ?_; simp)
    | ok xs =>
      simp only [setattr_eq]
      refine at_ok (ops := [("body_type", _), ("flags", b), ("body", c), ("body_type", _), ("body", _)]) ?_ ?_
      · simp
      · intro f; simp [lastAssigned]

theorem statsReply_into (junk : Val) (buff : Bytes) :
    Into (V01.statsFields.map (·.1)) (statsReplyInto junk buff 0) (V01.statsReplyUnpack buff) := by
  intro d
  unfold statsReplyInto V01.statsReplyUnpack
  simp only [List.drop_zero]
  rcases loop_cases junk V01.statsFields buff 0 d with ⟨e, ops, h, ho, hl⟩ | ⟨vs, e, h, hlen, hl⟩
  · simp only [h, bind_eq, hl]; exact at_error ho
  obtain ⟨a, b, c, rfl⟩ := three hlen
  obtain ⟨k, h1, -⟩ := attrs_head h
  simp only [h, bind_eq, hl]
  clear h hl hlen
  simp only [V01.statsFields, runSets, List.foldl_cons, List.foldl_nil, List.map_cons, List.map_nil, List.zip_cons_cons, List.zip_nil_right,
    getattr_set]
  rcases enum_form h1 with rfl | ⟨t, rfl⟩
  · (refine at_error (ops := [("body_type", _), ("flags", b), ("body", c)]) ?_; simp)
  simp only [bind_eq, setattr_eq, getattr_set, String.reduceEq, if_false, if_true]
  by_cases ht : t = 0
  · simp only [ht, if_true, bind_eq, call_eq]
    cases hu : V01.descStats.unpack (rawBody c) 0 with
    | error e => (refine at_error (ops := [("body_type", _), ("flags", b), ("body", c), ("body_type", _)]) ?_; simp)
    | ok u =>
      simp only [setattr_eq]
      refine at_ok (ops := [("body_type", _), ("flags", b), ("body", c), ("body_type", _), ("body", _)]) ?_ ?_
      · simp
      · intro f; simp [lastAssigned]
  simp only [ht, if_false]
  cases hc : V01.replyClass t.toNat with
  | none =>
    simp only [setattr_eq]
    refine at_ok (ops := [("body_type", _), ("flags", b), ("body", c), ("body_type", _), ("body", _)]) ?_ ?_
    · simp
    · intro f; simp [lastAssigned]
  | some cl =>
    simp only [bind_eq, call_eq]
    cases hi : unpackItems cl (rawBody c) 0 with
    | error e => (refine at_error (ops := [("body_type", _), ("flags", b), ("body", c), ("body_type", _)]) ?_; simp)
    | ok xs =>
      simp only [setattr_eq]
      refine at_ok (ops := [("body_type", _), ("flags", b), ("body", c), ("body_type", _), ("body", _)]) ?_ ?_
      · simp
      · intro f; simp [lastAssigned]

theorem multipart_into {es : List Nat} {fl : Attr} {fn : String} {fields : Fields} {simple : Nat → Option Attr} {array : Nat → Option (String × Attr)} (junk : Val)
    (buff : Bytes) (hf : fields = [("multipart_type", ubint 2 (.enum es)), (fn, fl), ("pad", padAttr 4), ("body", binAttr)])
    (h1 : fn ≠ "multipart_type") (h2 : fn ≠ "body") (h3 : fn ≠ "pad") :
    Into (fields.map (·.1)) (multipartInto fields simple array junk buff 0) (V04.multipartUnpack fields simple array buff) := by
  intro d
  unfold multipartInto V04.multipartUnpack
  simp only [List.drop_zero]
  rcases loop_cases junk fields buff 0 d with ⟨e, ops, h, ho, hl⟩ | ⟨vs, e, h, hlen, hl⟩
  · simp only [h, bind_eq, hl]; exact at_error ho
  obtain ⟨a, b, p, c, rfl⟩ := four (hlen.trans (by rw [hf]; rfl))
  obtain ⟨k, h1', -⟩ := attrs_head (hf ▸ h)
  simp only [h, bind_eq, hl]
  clear h hl hlen
  have h1 := h1.symm
  have h2 := h2.symm
  have h3 := h3.symm
  simp only [hf, runSets, List.foldl_cons, List.foldl_nil, List.map_cons, List.map_nil, List.zip_cons_cons, List.zip_nil_right, getattr_set]
  rcases enum_form h1' with rfl | ⟨t, rfl⟩
  · simp only [String.reduceEq, if_false, if_true, h1]
    (refine at_error (ops := [("multipart_type", _), (fn, b), ("pad", p), ("body", c)]) ?_; simp)
  simp only [bind_eq, setattr_eq, getattr_set, String.reduceEq, if_false, if_true, h1]
  cases hs : simple t.toNat with
  | some cl =>
    simp only [bind_eq, call_eq]
    cases hu : cl.unpack (rawBody c) 0 with
    | error e => (refine at_error (ops := [("multipart_type", _), (fn, b), ("pad", p), ("body", c), ("multipart_type", _)]) ?_; simp)
    | ok u =>
      simp only [setattr_eq]
      refine at_ok (ops := [("multipart_type", _), (fn, b), ("pad", p), ("body", c), ("multipart_type", _), ("body", _)]) ?_ ?_
      · simp
      · intro f; simp [lastAssigned, h1.symm, h2, h2.symm, h3, h3.symm, h1]
  | none =>
    simp only
    cases ha : array t.toNat with
    | none =>
      simp only [setattr_eq]
      refine at_ok (ops := [("multipart_type", _), (fn, b), ("pad", p), ("body", c), ("multipart_type", _), ("body", _)]) ?_ ?_
      · simp
      · intro f; simp [lastAssigned, h1.symm, h2, h2.symm, h3, h3.symm, h1]
    | some q =>
      obtain ⟨_, cl⟩ := q
      simp only [bind_eq, call_eq]
      cases hi : unpackItems cl (rawBody c) 0 with
      | error e => (refine at_error (ops := [("multipart_type", _), (fn, b), ("pad", p), ("body", c), ("multipart_type", _)]) ?_; simp)
      | ok xs =>
        simp only [setattr_eq]
        refine at_ok (ops := [("multipart_type", _), (fn, b), ("pad", p), ("body", c), ("multipart_type", _), ("body", _)]) ?_ ?_
        · simp
        · intro f; simp [lastAssigned, h1.symm, h2, h2.symm, h3, h3.symm, h1]

/-- `p` changes the object only by assigning attributes of `names`. -/
def OnlySets {α : Type} (names : List String) (p : Meth α) : Prop :=
  ∀ d, ∃ ops : List (String × Val), (∀ o ∈ ops, o.1 ∈ names) ∧ (p.run d).2 = runSets d ops

theorem sets_pure {α : Type} {names : List String} (a : α) : OnlySets names (pure a : Meth α) := fun _ => ⟨[], by simp, rfl⟩
theorem sets_raise {α : Type} {names : List String} (e : Err) : OnlySets names (raise e : Meth α) := fun _ => ⟨[], by simp, rfl⟩
theorem sets_call {α : Type} {names : List String} (r : Res α) : OnlySets names (call r) := fun _ => ⟨[], by simp, rfl⟩
theorem sets_getattr {names : List String} (n : String) : OnlySets names (getattr n) := fun d => ⟨[], by simp, by
  simp only [getattr]; cases d.lookup n <;> rfl⟩
theorem sets_setattr {names : List String} {n : String} (v : Val) (h : n ∈ names) : OnlySets names (setattr n v) :=
  fun _ => ⟨[(n, v)], by simpa using h, rfl⟩
theorem sets_bind {α β : Type} {names : List String} {p : Meth α} {k : α → Meth β} (hp : OnlySets names p)
    (hk : ∀ a, OnlySets names (k a)) : OnlySets names (p >>= k) := by
  intro d
  obtain ⟨o1, h1, e1⟩ := hp d
  rw [bind_eq]
  cases h : p.run d with
  | mk r d' =>
  rw [h] at e1
  cases r with
  | error e => exact ⟨o1, h1, e1⟩
  | ok a =>
    obtain ⟨o2, h2, e2⟩ := hk a d'
    refine ⟨o1 ++ o2, ?_, ?_⟩
    · intro o ho; rcases List.mem_append.mp ho with h | h
      · exact h1 o h
      · exact h2 o h
    · simp only at e1
      subst e1
      simp only [runSets_append]
      exact e2

macro "sets1" : tactic => `(tactic| first
  | exact sets_pure _ | exact sets_raise _ | exact sets_call _ | exact sets_getattr _
  | exact sets_setattr _ (by first | assumption | simp_all)
  | (refine sets_bind ?_ fun _ => ?_)
  | split)

theorem sets_attribute {names : List String} {junk : Val} {n : String} {c : Attr} {buff : Bytes} {b : Nat} (h : n ∈ names) :
    OnlySets names (unpackAttribute junk n c buff b) := by
  unfold unpackAttribute
  repeat' sets1

theorem sets_loop {names : List String} {junk : Val} : ∀ {fs : Fields} {buff : Bytes} {b : Nat}, (∀ f ∈ fs, f.1 ∈ names) →
    OnlySets names (unpackLoop junk fs buff b) := by
  intro fs
  induction fs with
  | nil => intro buff b _; exact sets_pure _
  | cons p fs ih =>
    obtain ⟨n, c⟩ := p
    intro buff b h
    exact sets_bind (sets_attribute (h (n, c) (by simp))) fun _ => ih fun f hf => h f (by simp [hf])

theorem sets_packetOut {names : List String} : ∀ {fs : Fields} {buff : Bytes} {b : Nat}, (∀ f ∈ fs, f.1 ∈ names) →
    OnlySets names (packetOutInto fs buff b) := by
  intro fs
  induction fs with
  | nil => intro buff b _; exact sets_pure _
  | cons p fs ih =>
    obtain ⟨n, c⟩ := p
    intro buff b h
    unfold packetOutInto
    refine sets_bind ?_ fun _ => ?_
    · repeat' sets1
    refine sets_bind (sets_setattr _ (h (n, c) (by simp))) fun _ => sets_bind (sets_call _) fun _ => ih fun f hf => h f (by simp [hf])

theorem self_names (fs : Fields) : ∀ f ∈ fs, f.1 ∈ fs.map (·.1) := fun _ h => List.mem_map_of_mem h

theorem sets_unpackInto {m : MsgCls} (h : m ∈ (libs.flatMap (·.classes)).map (·.2)) (junk : Val) (buff : Bytes) (off : Nat) :
    OnlySets (m.body.map (·.1)) (m.unpackInto junk buff off) := by
  have hb : (m.name = "01.ErrorMsg" ∨ m.name = "04.ErrorMsg" → "code" ∈ m.body.map (·.1)) ∧
      (m.name = "01.StatsRequest" ∨ m.name = "01.StatsReply" → m.body.map (·.1) = V01.statsFields.map (·.1)) ∧
      (m.name = "04.MultipartRequest" ∨ m.name = "04.MultipartReply" → "multipart_type" ∈ m.body.map (·.1) ∧ "body" ∈ m.body.map (·.1)) := by
    revert h
    have : ∀ x ∈ (libs.flatMap (·.classes)).map (fun c => (c.2.name, c.2.body.map (·.1))),
      (x.1 = "01.ErrorMsg" ∨ x.1 = "04.ErrorMsg" → "code" ∈ x.2) ∧
      (x.1 = "01.StatsRequest" ∨ x.1 = "01.StatsReply" → x.2 = V01.statsFields.map (·.1)) ∧
      (x.1 = "04.MultipartRequest" ∨ x.1 = "04.MultipartReply" → "multipart_type" ∈ x.2 ∧ "body" ∈ x.2) := by decide +kernel
    intro h
    obtain ⟨c, hc, rfl⟩ := List.mem_map.mp h
    exact this _ (List.mem_map_of_mem (f := fun c : Nat × MsgCls => (c.2.name, c.2.body.map (·.1))) hc)
  obtain ⟨h1, h2, h3⟩ := hb
  unfold MsgCls.unpackInto
  split
  · exact sets_packetOut (self_names _)
  split
  · rename_i hn; have h1 := h1 (.inl hn); unfold errorInto
    refine sets_bind (sets_loop (self_names _)) fun _ => ?_
    repeat' sets1
  split
  · rename_i hn; have h1 := h1 (.inr hn); unfold errorInto
    refine sets_bind (sets_loop (self_names _)) fun _ => ?_
    repeat' sets1
  split
  · rename_i hn; rw [h2 (.inl hn)]; unfold statsRequestInto
    refine sets_bind (sets_loop (self_names _)) fun _ => ?_
    have hk : "body_type" ∈ V01.statsFields.map (·.1) ∧ "body" ∈ V01.statsFields.map (·.1) := by decide
    obtain ⟨hk1, hk2⟩ := hk
    repeat' sets1
  split
  · rename_i hn; rw [h2 (.inr hn)]; unfold statsReplyInto
    refine sets_bind (sets_loop (self_names _)) fun _ => ?_
    have hk : "body_type" ∈ V01.statsFields.map (·.1) ∧ "body" ∈ V01.statsFields.map (·.1) := by decide
    obtain ⟨hk1, hk2⟩ := hk
    repeat' sets1
  split
  · rename_i hn; obtain ⟨h3, h4⟩ := h3 (.inl hn); unfold multipartInto
    refine sets_bind (sets_loop (self_names _)) fun _ => ?_
    repeat' sets1
  split
  · rename_i hn; obtain ⟨h3, h4⟩ := h3 (.inr hn); unfold multipartInto
    refine sets_bind (sets_loop (self_names _)) fun _ => ?_
    repeat' sets1
  · exact sets_bind (sets_loop (self_names _)) fun _ => sets_pure _

theorem message_names {m : MsgCls} (h : m ∈ (libs.flatMap (·.classes)).map (·.2)) : (m.fields.map (·.1)).Nodup := by
  have : ∀ x ∈ (libs.flatMap (·.classes)).map (fun c => c.2.fields.map (·.1)), x.Nodup := by decide +kernel
  obtain ⟨c, hc, rfl⟩ := List.mem_map.mp h
  exact this _ (List.mem_map_of_mem (f := fun c : Nat × MsgCls => c.2.fields.map (·.1)) hc)

theorem unpack_into {m : MsgCls} (h : m ∈ (libs.flatMap (·.classes)).map (·.2)) (junk : Val) (buff : Bytes) :
    Into (m.body.map (·.1)) (m.unpackInto junk buff 0) (m.unpack buff) := by
  have hnd : (m.body.map (·.1)).Nodup := by
    have := message_names h
    simp only [MsgCls.fields, List.map_cons, List.nodup_cons] at this
    exact this.2
  simp only [libs, V01.lib, V04.lib, List.flatMap_cons, List.flatMap_nil, List.append_nil, List.map_append, List.map_cons, List.map_nil,
    List.mem_append, List.mem_cons, List.not_mem_nil, or_false] at h
  rcases h with h | h
  · repeat' rcases h with rfl | h
    all_goals first
      | exact generic_into hnd junk buff 0
      | exact error_into01 junk buff
      | exact packetOut_into01 buff
      | exact statsRequest_into junk buff
      | exact statsReply_into junk buff
      | (subst h; exact generic_into hnd junk buff 0)
  · repeat' rcases h with rfl | h
    all_goals first
      | exact generic_into hnd junk buff 0
      | exact error_into04 junk buff
      | exact packetOut_into04 buff
      | exact multipart_into junk buff rfl (by decide) (by decide) (by decide)
      | (subst h; exact generic_into hnd junk buff 0)

/-! ### Objects that change their class -/

theorem keys_set (d : Dict) (n : String) (v : Val) :
    (d.set n v).map (·.1) = if n ∈ d.map (·.1) then d.map (·.1) else d.map (·.1) ++ [n] := by
  induction d with
  | nil => simp [Dict.set]
  | cons p d ih =>
    obtain ⟨k, w⟩ := p
    simp only [Dict.set]
    by_cases h : k = n
    · simp [h]
    · simp only [h, if_false, List.map_cons, ih, List.mem_cons]
      by_cases h' : n ∈ d.map (·.1)
      · rw [if_pos h', if_pos (.inr h')]
      · rw [if_neg h', if_neg (by rintro (rfl | h1); exact h rfl; exact h' h1)]
        rfl

theorem keys_zip : ∀ (ns : List String) (vs : List Val) (d : Dict), ns.Nodup → vs.length = ns.length →
    (runSets d (ns.zip vs)).map (·.1) = d.map (·.1) ++ ns.filter (fun n => decide (n ∉ d.map (·.1))) := by
  intro ns
  induction ns with
  | nil => intro vs d _ _; simp [runSets]
  | cons n ns ih =>
    intro vs d hn hl
    cases vs with
    | nil => simp at hl
    | cons v vs =>
      simp only [List.nodup_cons] at hn
      have e := ih vs (d.set n v) hn.2 (by simpa using hl)
      simp only [List.zip_cons_cons]
      have r : runSets d ((n, v) :: ns.zip vs) = runSets (d.set n v) (ns.zip vs) := rfl
      rw [r, e, keys_set]
      by_cases h : n ∈ d.map (·.1)
      · rw [if_pos h, List.filter_cons_of_neg (by simpa using h)]
      · rw [if_neg h, List.filter_cons_of_pos (by simpa using h), List.append_assoc]
        congr 1
        simp only [List.singleton_append]
        congr 1
        apply List.filter_congr
        intro x hx
        have : x ≠ n := fun e => hn.1 (e ▸ hx)
        simp [this]

theorem lookup_runSets {n : String} (x : Val) : ∀ (ops : List (String × Val)) (d : Dict), (n ∈ ops.map (·.1) ∨ d.lookup n = some x) →
    (runSets d ops).lookup n = some (lastAssigned n x ops) := by
  intro ops
  induction ops generalizing x with
  | nil => intro d h; simpa [runSets, lastAssigned] using h
  | cons o ops ih =>
    obtain ⟨k, v⟩ := o
    intro d h
    have r : runSets d ((k, v) :: ops) = runSets (d.set k v) ops := rfl
    rw [r]
    simp only [lastAssigned]
    apply ih
    rw [set_lookup]
    by_cases e : k = n
    · right; simp [e]
    · rcases h with h | h
      · left
        simp only [List.map_cons, List.mem_cons] at h
        rcases h with h | h
        · exact absurd h.symm e
        · exact h
      · right
        rw [if_neg (fun h => e h.symm), if_neg e]; exact h

theorem lookup_self {p : String × Val} : ∀ {d : Dict}, (d.map (·.1)).Nodup → p ∈ d → d.lookup p.1 = some p.2 := by
  intro d
  induction d with
  | nil => intro _ h; simp at h
  | cons q d ih =>
    obtain ⟨k, w⟩ := q
    intro hn h
    simp only [List.map_cons, List.nodup_cons] at hn
    rcases List.mem_cons.mp h with rfl | h
    · simp
    · have : p.1 ≠ k := fun e => hn.1 (e ▸ List.mem_map_of_mem h)
      simp only [List.lookup_cons]
      have e : (p.1 == k) = false := by simpa using this
      rw [e]
      exact ih hn.2 h

/-- Assigning all attributes of a class in order, to an object that has some of the first of them already. -/
theorem ordered {fields : Fields} {d : Dict} {vs : List Val} (hn : (fields.map (·.1)).Nodup) (hd : (d.map (·.1)).Nodup)
    (hp : (d.map (·.1)).filter (fun n => decide (n ∈ fields.map (·.1))) <+: fields.map (·.1)) (hl : vs.length = fields.length) :
    (instanceAttrs fields (runSets d ((fields.map (·.1)).zip vs))).map (·.2) = vs := by
  obtain ⟨ns, hns⟩ : ∃ ns, ns = fields.map (·.1) := ⟨_, rfl⟩
  have hl' : vs.length = ns.length := by rw [hns]; simpa using hl
  simp only [instanceAttrs]
  rw [← hns] at hn hp ⊢
  have hk := keys_zip ns vs d hn hl'
  obtain ⟨t, ht⟩ := hp
  have hmem : ∀ n ∈ t, n ∉ d.map (·.1) := by
    intro n h1 h2
    rw [← ht] at hn
    have h3 : n ∈ ns := by rw [← ht]; simp [h1]
    exact (List.nodup_append.mp hn).2.2 n (List.mem_filter.mpr ⟨h2, by simpa using h3⟩) n h1 rfl
  have hfil : ns.filter (fun n => decide (n ∉ d.map (·.1))) = t := by
    conv => lhs; rw [← ht]
    rw [List.filter_append, List.filter_eq_nil_iff.mpr, List.nil_append, List.filter_eq_self.mpr]
    · intro a ha; simpa using hmem a ha
    · intro a ha; have := (List.mem_filter.mp ha).1; simpa using this
  rw [hfil] at hk
  obtain ⟨D, hD⟩ : ∃ D, D = runSets d (ns.zip vs) := ⟨_, rfl⟩
  rw [← hD] at hk ⊢
  have hkn : (D.map (·.1)).Nodup := by
    rw [hk]
    refine List.nodup_append.mpr ⟨hd, ?_, fun a ha b hb e => hmem b hb (e ▸ ha)⟩
    rw [← ht] at hn; exact (List.nodup_append.mp hn).2.1
  have hf : (D.filter fun p => decide (p.1 ∈ ns)).map (·.1) = ns := by
    have : (D.filter fun p => decide (p.1 ∈ ns)).map (·.1) = (D.map (·.1)).filter (fun n => decide (n ∈ ns)) := by
      rw [List.filter_map]; rfl
    rw [this, hk, List.filter_append]
    have ht' : t.filter (fun n => decide (n ∈ ns)) = t := List.filter_eq_self.mpr fun a ha => by
      have : a ∈ ns := by rw [← ht]; simp [ha]
      simpa using this
    rw [ht', ht]
  have hv : ∀ p ∈ D.filter (fun p => decide (p.1 ∈ ns)), p.2 = lastAssigned p.1 .none (ns.zip vs) := by
    intro p hp
    have h1 := lookup_self hkn (List.mem_filter.mp hp).1
    have h2 : p.1 ∈ (ns.zip vs).map (·.1) := by
      rw [List.map_fst_zip (by omega)]; simpa using (List.mem_filter.mp hp).2
    rw [hD, lookup_runSets .none _ _ (.inl h2)] at h1
    exact (Option.some.inj h1).symm
  calc (D.filter fun p => decide (p.1 ∈ ns)).map (·.2)
      = (D.filter fun p => decide (p.1 ∈ ns)).map (fun p => lastAssigned p.1 .none (ns.zip vs)) := List.map_congr_left hv
    _ = ((D.filter fun p => decide (p.1 ∈ ns)).map (·.1)).map (fun n => lastAssigned n .none (ns.zip vs)) := by rw [List.map_map]; rfl
    _ = vs := by rw [hf]; exact lastAssigned_zip (fun _ => .none) hn hl'

theorem keepIn_sets (n : Option String) (v : Val) (d : Dict) : keepIn n v d = runSets d (n.toList.map fun k => (k, v)) := by
  cases n <;> rfl

theorem loopAs_ok {junk : Val} {s : Sub} {buff : Bytes} {off : Nat} {vs : List Val} {e : Nat} (d : Dict)
    (h : unpackAttrs s.fields buff off = .ok (vs, e)) :
    loopAs junk s buff off d = (.ok (), ⟨s, runSets d ((s.fields.map (·.1)).zip vs)⟩) := by
  simp only [loopAs, loop_ok d h]; rfl

theorem loopAs_error {junk : Val} {s : Sub} {buff : Bytes} {off : Nat} {x : Err} (d : Dict)
    (h : unpackAttrs s.fields buff off = .error x) : ∃ ops, loopAs junk s buff off d = (.error x, ⟨s, runSets d ops⟩) := by
  obtain ⟨ops, -, hl⟩ := loop_error (junk := junk) d h
  exact ⟨ops, by simp only [loopAs, hl]; rfl⟩

/-- Decoding never removes or reorders what the dictionary has: it is a sequence of assignments. -/
theorem family_sets (F : Family) (junk : Val) (buff : Bytes) (off : Nat) (o : Obj) :
    ∃ ops, (F.unpackInto junk buff off o).2.dict = runSets o.dict ops := by
  have hl : ∀ (s : Sub) (b : Bytes) (d : Dict), ∃ ops, (loopAs junk s b off d).2.dict = runSets d ops := by
    intro s b d
    obtain ⟨ops, -, h⟩ := sets_loop (junk := junk) (self_names s.fields) d (buff := b) (b := off)
    exact ⟨ops, h⟩
  unfold Family.unpackInto
  simp only [keepIn_sets, ← runSets_append]
  split
  · exact ⟨_, rfl⟩
  split
  · exact ⟨_, rfl⟩
  split
  · split
    · exact ⟨_, rfl⟩
    · obtain ⟨ops, h⟩ := hl ‹Sub› _ _
      exact ⟨_, h.trans (runSets_append _ _ _).symm⟩
  · obtain ⟨ops, h⟩ := hl ‹Sub› _ _
    exact ⟨_, h.trans (runSets_append _ _ _).symm⟩

/-- The class chosen for a new object and for this one agree: same outcome. -/
theorem family_same (F : Family) (junk : Val) (buff : Bytes) (off : Nat) (o : Obj) (pick : Nat → Res Sub)
    (hp : ∀ t, ubUnpack 2 F.ref buff off = .ok t → F.pick o.cls (gotNum t) = pick (gotNum t)) :
    (F.unpackInto junk buff off o).1 = (variantUnpack F.ref F.trunc pick buff off).map (fun _ => ()) ∧
    ∀ u, variantUnpack F.ref F.trunc pick buff off = .ok u → ∃ t s vs, ubUnpack 2 F.ref buff off = .ok t ∧ pick (gotNum t) = .ok s ∧
      u = .obj s.name vs ∧ vs.length = s.fields.length ∧ ∃ t n, (F.unpackInto junk buff off o).2 = ⟨s, runSets o.dict
        ((F.typeAttr.toList.map fun k => (k, t)) ++ (if F.trunc then F.lenAttr.toList.map fun k => (k, n) else []) ++
          (s.fields.map (·.1)).zip vs)⟩ := by
  unfold Family.unpackInto variantUnpack
  cases ht : ubUnpack 2 F.ref buff off with
  | error e => exact ⟨rfl, nofun⟩
  | ok t =>
  simp only [hp t ht]
  cases hs : pick (gotNum t) with
  | error e => exact ⟨rfl, nofun⟩
  | ok s =>
  by_cases htr : F.trunc = true
  · simp only [htr, if_true]
    cases hn : ubUnpack 2 .none buff (off + 2) with
    | error e => exact ⟨rfl, nofun⟩
    | ok n =>
    simp only
    cases hu : unpackAttrs s.fields (buff.take (off + gotNum n)) off with
    | error e =>
      obtain ⟨ops, h⟩ := loopAs_error (junk := junk) (keepIn F.lenAttr n (keepIn F.typeAttr t o.dict)) hu
      rw [h]; exact ⟨rfl, nofun⟩
    | ok q =>
      obtain ⟨vs, e⟩ := q
      rw [loopAs_ok _ hu]
      refine ⟨rfl, fun u h => ?_⟩
      cases h
      exact ⟨t, s, vs, rfl, hs, rfl, unpackAttrs_length hu, t, n, by simp only [keepIn_sets, runSets_append]⟩
  · simp only [htr, Bool.false_eq_true, if_false]
    cases hu : unpackAttrs s.fields buff off with
    | error e =>
      obtain ⟨ops, h⟩ := loopAs_error (junk := junk) (keepIn F.typeAttr t o.dict) hu
      rw [h]; exact ⟨rfl, nofun⟩
    | ok q =>
      obtain ⟨vs, e⟩ := q
      rw [loopAs_ok _ hu]
      refine ⟨rfl, fun u h => ?_⟩
      cases h
      exact ⟨t, s, vs, rfl, hs, rfl, unpackAttrs_length hu, t, .none, by simp only [keepIn_sets, runSets_append, List.append_nil]⟩

/-- What the theorems need to know about a family: `a` decodes new objects of the class `base`, `subs` are the other classes. -/
structure FamOk (F : Family) (a : Attr) (base : Sub) (subs : List Sub) : Prop where
  new : a.unpack = variantUnpack F.ref F.trunc (F.pick base)
  named : ∀ s ∈ subs, subOf subs s.name = some s
  other : ∀ s ∈ subs, s.name ≠ base.name
  chosen : ∀ t s, F.pick base t = .ok s → s = base ∨ s ∈ subs ∧ ∀ c, F.pick c t = .ok s
  nodup : ∀ s ∈ base :: subs, (s.fields.map (·.1)).Nodup
  head : ∀ s ∈ base :: subs, base.fields.map (·.1) <+: s.fields.map (·.1)
  attrs : ∀ n ∈ F.typeAttr.toList ++ F.lenAttr.toList, n ∈ base.fields.map (·.1)

theorem pick_find {l : List (List Nat × Sub)} {c : Sub} {t : Nat} {s : Sub}
    (h : (match l.find? (fun p => p.1.contains t) with | some p => (.ok p.2 : Res Sub) | none => .ok c) = .ok s) :
    s = c ∨ s ∈ l.map (·.2) ∧ ∀ c' : Sub, (match l.find? (fun p => p.1.contains t) with | some p => (.ok p.2 : Res Sub) | none => .ok c') = .ok s := by
  cases hf : l.find? (fun p => p.1.contains t) with
  | none => rw [hf] at h; cases h; exact .inl rfl
  | some p => rw [hf] at h; cases h; exact .inr ⟨List.mem_map_of_mem (List.mem_of_find?_eq_some hf), fun _ => rfl⟩

end Pyof
