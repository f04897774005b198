import Verif.Spec.WatchPack
import Verif.Model.Struct
/-!
# A thread that packs does what a thread does that reads the attributes
-/
namespace Pyof.Decode
open Pyof

variable {σ : Type}

/-- What is done with every attribute that is read, one after the other. -/
abbrev Items (σ : Type) := List (String × (σ → Val → Res σ))

/-- `packing`, `sizing` and `messagePacking`: every attribute adds to what there is. -/
def gather (o : Nat) (fin : σ → List Val) : σ → Items σ → Steps (List Val)
  | s, [] => .ret (.ok (fin s))
  | s, (n, f) :: fs => .look o n fun a => .read a fun v =>
    match f s v with
    | .error e => .ret (.error e)
    | .ok s' => gather o fin s' fs

/-- The same on values. -/
def foldItems : σ → Items σ → List Val → Res σ
  | s, (_, f) :: fs, v :: vs =>
    match f s v with
    | .error e => .error e
    | .ok s' => foldItems s' fs vs
  | s, _, _ => .ok s

def outcome (fin : σ → List Val) : Res σ → Res (List Val)
  | .ok s => .ok (fin s)
  | .error e => .error e

theorem fold_append (fs : Items σ) (vs : List Val) : ∀ (dn : Items σ) (got : List Val) (s : σ), dn.length = got.length →
    foldItems s (dn ++ fs) (got ++ vs) =
      match foldItems s dn got with
      | .error e => .error e
      | .ok s' => foldItems s' fs vs
  | [], [], s, _ => rfl
  | (_, f) :: dn, v :: got, s, h => by
    simp only [List.cons_append, foldItems]
    cases f s v with
    | error e => rfl
    | ok s' => exact fold_append fs vs dn got s' (by simpa using h)

def packItem (c : Attr) (m : Bytes) (v : Val) : Res Bytes :=
  match c.pack v with
  | .error e => .error e
  | .ok b => .ok (m ++ b)

def sizeItem (c : Attr) (k : Nat) (v : Val) : Res Nat :=
  match c.size v with
  | .error e => .error e
  | .ok n => .ok (k + n)

def packItems (fs : Fields) : Items Bytes := fs.map fun p => (p.1, packItem p.2)
def sizeItems (fs : Fields) : Items Nat := fs.map fun p => (p.1, sizeItem p.2)

theorem packItems_names (fs : Fields) : (packItems fs).map (·.1) = fs.map (·.1) := by simp [packItems, Function.comp_def]
theorem sizeItems_names (fs : Fields) : (sizeItems fs).map (·.1) = fs.map (·.1) := by simp [sizeItems, Function.comp_def]

theorem packing_gather (o : Nat) : ∀ (fs : Fields) (m : Bytes), packing o m fs = gather o (fun b => [.bin (.bytes b)]) m (packItems fs)
  | [], m => rfl
  | (n, c) :: fs, m => by
    simp only [packing, gather, packItems, List.map_cons, packItem]
    congr; funext a; congr; funext v
    cases c.pack v with
    | error e => rfl
    | ok b => exact packing_gather o fs _

theorem sizing_gather (o : Nat) : ∀ (fs : Fields) (k : Nat), sizing o k fs = gather o (fun k => [.int (k : Nat)]) k (sizeItems fs)
  | [], k => rfl
  | (n, c) :: fs, k => by
    simp only [sizing, gather, sizeItems, List.map_cons, sizeItem]
    congr; funext a; congr; funext v
    cases c.size v with
    | error e => rfl
    | ok b => exact sizing_gather o fs _

theorem pack_fold : ∀ (fs : Fields) (vs : List Val) (m : Bytes), foldItems m (packItems fs) vs =
    match packAttrs fs vs with
    | .error e => .error e
    | .ok b => .ok (m ++ b)
  | [], vs, m => by simp [foldItems, packAttrs, packItems]
  | (n, c) :: fs, [], m => by simp [foldItems, packAttrs, packItems]
  | (n, c) :: fs, v :: vs, m => by
    simp only [foldItems, packAttrs, packItems, List.map_cons, packItem]
    cases c.pack v with
    | error e => rfl
    | ok b =>
      simp only
      have := pack_fold fs vs (m ++ b)
      rw [packItems] at this
      rw [this]
      cases packAttrs fs vs with
      | error e => rfl
      | ok r => simp

theorem size_fold : ∀ (fs : Fields) (vs : List Val) (k : Nat), foldItems k (sizeItems fs) vs =
    match sizeAttrs fs vs with
    | .error e => .error e
    | .ok n => .ok (k + n)
  | [], vs, m => by simp [foldItems, sizeAttrs, sizeItems]
  | (n, c) :: fs, [], m => by simp [foldItems, sizeAttrs, sizeItems]
  | (n, c) :: fs, v :: vs, m => by
    simp only [foldItems, sizeAttrs, sizeItems, List.map_cons, sizeItem]
    cases c.size v with
    | error e => rfl
    | ok b =>
      simp only
      have := size_fold fs vs (m + b)
      rw [sizeItems] at this
      rw [this]
      cases sizeAttrs fs vs with
      | error e => rfl
      | ok r => simp [Nat.add_assoc]

theorem packed_fold (fs : Fields) (vs : List Val) : outcome (fun b => [.bin (.bytes b)]) (foldItems [] (packItems fs) vs) = packed (packAttrs fs vs) := by
  rw [pack_fold]
  cases packAttrs fs vs <;> rfl

theorem measured_fold (fs : Fields) (vs : List Val) : outcome (fun k => [.int (k : Nat)]) (foldItems 0 (sizeItems fs) vs) = measured (sizeAttrs fs vs) := by
  rw [size_fold]
  cases sizeAttrs fs vs with
  | error e => rfl
  | ok n => simp [outcome, measured]

/-! ## Messages: first the size, then the header, then the other attributes -/

def liftSize (f : Nat → Val → Res Nat) (s : Nat × Bytes) (v : Val) : Res (Nat × Bytes) :=
  match f s.1 v with
  | .error e => .error e
  | .ok k => .ok (k, s.2)

def liftPack (f : Bytes → Val → Res Bytes) (s : Nat × Bytes) (v : Val) : Res (Nat × Bytes) :=
  match f s.2 v with
  | .error e => .error e
  | .ok b => .ok (s.1, b)

def headItem (m : MsgCls) (s : Nat × Bytes) (h : Val) : Res (Nat × Bytes) :=
  match setLength s.1 h with
  | .error e => .error e
  | .ok h' =>
    match (headerAttr m.ver m.types m.code).pack h' with
    | .error e => .error e
    | .ok b => .ok (s.1, b)

def upto (m : MsgCls) : Items (Nat × Bytes) := m.fields.map fun p => (p.1, liftSize (sizeItem p.2))
def onwards (m : MsgCls) : Items (Nat × Bytes) := ("header", headItem m) :: m.body.map fun p => (p.1, liftPack (packItem p.2))

theorem fold_upto (fs : Fields) : ∀ (vs : List Val) (s : Nat × Bytes), foldItems s (fs.map fun p => (p.1, liftSize (sizeItem p.2))) vs =
    match foldItems s.1 (sizeItems fs) vs with
    | .error e => .error e
    | .ok k => .ok (k, s.2) := by
  induction fs with
  | nil => intro vs s; simp [foldItems, sizeItems]
  | cons p fs ih =>
    intro vs s
    cases vs with
    | nil => simp [foldItems, sizeItems]
    | cons v vs =>
      simp only [foldItems, List.map_cons, sizeItems, liftSize]
      cases sizeItem p.2 s.1 v with
      | error e => rfl
      | ok k => exact ih vs (k, s.2)

theorem fold_body (fs : Fields) : ∀ (vs : List Val) (s : Nat × Bytes), foldItems s (fs.map fun p => (p.1, liftPack (packItem p.2))) vs =
    match foldItems s.2 (packItems fs) vs with
    | .error e => .error e
    | .ok b => .ok (s.1, b) := by
  induction fs with
  | nil => intro vs s; simp [foldItems, packItems]
  | cons p fs ih =>
    intro vs s
    cases vs with
    | nil => simp [foldItems, packItems]
    | cons v vs =>
      simp only [foldItems, List.map_cons, packItems, liftPack]
      cases packItem p.2 s.2 v with
      | error e => rfl
      | ok k => exact ih vs (s.1, k)

theorem gather_body (o : Nat) : ∀ (fs : Fields) (s : Nat × Bytes), packing o s.2 fs =
    gather o (fun s => [.bin (.bytes s.2)]) s (fs.map fun p => (p.1, liftPack (packItem p.2)))
  | [], s => rfl
  | (n, c) :: fs, s => by
    simp only [packing, gather, List.map_cons, packItem, liftPack]
    congr; funext a; congr; funext v
    cases c.pack v with
    | error e => rfl
    | ok b => exact gather_body o fs (s.1, s.2 ++ b)

theorem message_head (o : Nat) (m : MsgCls) (k : Nat) : headed o m k = gather o (fun s => [.bin (.bytes s.2)]) (k, []) (onwards m) := by
  simp only [headed, onwards, gather, headItem]
  congr; funext a; congr; funext h
  cases setLength k h with
  | error e => rfl
  | ok h' =>
    simp only
    cases (headerAttr m.ver m.types m.code).pack h' with
    | error e => rfl
    | ok b => exact gather_body o m.body (k, b)

theorem message_upto (o : Nat) (m : MsgCls) : ∀ (fs : Fields) (k : Nat), measuring o (headed o m) k fs =
    gather o (fun s => [.bin (.bytes s.2)]) (k, []) ((fs.map fun p => (p.1, liftSize (sizeItem p.2))) ++ onwards m)
  | [], k => message_head o m k
  | (n, c) :: fs, k => by
    simp only [measuring, gather, List.map_cons, List.cons_append, sizeItem, liftSize]
    congr; funext a; congr; funext v
    cases c.size v with
    | error e => rfl
    | ok b => exact message_upto o m fs (k + b)

theorem message_gather (o : Nat) (m : MsgCls) : messagePacking o m = gather o (fun s => [.bin (.bytes s.2)]) (0, []) (upto m ++ onwards m) :=
  message_upto o m m.fields 0

theorem message_names (m : MsgCls) : (upto m ++ onwards m).map (·.1) = m.fields.map (·.1) ++ m.fields.map (·.1) := by
  simp [upto, onwards, MsgCls.fields, Function.comp_def]

theorem message_fold (m : MsgCls) {us : List Val} (hu : us.length = m.fields.length) (h : Val) (vs : List Val) :
    outcome (fun s => [.bin (.bytes s.2)]) (foldItems (0, []) (upto m ++ onwards m) (us ++ h :: vs)) = packed (packTwice m us h vs) := by
  rw [fold_append _ _ _ _ _ (by simp [upto, hu]), upto, fold_upto, size_fold]
  simp only [packTwice]
  cases sizeAttrs m.fields us with
  | error e => rfl
  | ok n =>
    simp only [onwards, foldItems, headItem, Nat.zero_add]
    cases setLength n h with
    | error e => rfl
    | ok h' =>
      simp only [MsgCls.fields, packAttrs]
      cases (headerAttr m.ver m.types m.code).pack h' with
      | error e => rfl
      | ok b =>
        simp only
        rw [fold_body, pack_fold]
        cases packAttrs m.body vs <;> rfl

/-! ## ARP: first the check -/

def checkItem (w : Val) (m : Bytes) (v : Val) : Res Bytes :=
  match pyEq v w with
  | .error e => .error e
  | .ok false => .error .validation
  | .ok true => .ok m

def arpItems : Items Bytes := ("htype", checkItem (.int 1)) :: ("ptype", checkItem (.enum 0x0800)) :: packItems Net.arpFields

theorem arp_gather (o : Nat) : arpPacking o = gather o (fun b => [.bin (.bytes b)]) [] arpItems := by
  simp only [arpPacking, gather, arpItems, ifEq, checkItem]
  congr; funext a; congr; funext h
  match pyEq h (.int 1) with
  | .error e => rfl
  | .ok false => rfl
  | .ok true =>
    simp only
    congr; funext a; congr; funext p
    match pyEq p (.enum 0x0800) with
    | .error e => rfl
    | .ok false => rfl
    | .ok true => exact packing_gather o _ _

theorem arp_names : arpItems.map (·.1) = ["htype", "ptype"] ++ Net.arpFields.map (·.1) := by
  simp only [arpItems, List.map_cons, packItems_names]; rfl

theorem arp_fold (h p : Val) (vs : List Val) : outcome (fun b => [.bin (.bytes b)]) (foldItems [] arpItems (h :: p :: vs)) = packed (packChecked h p vs) := by
  simp only [arpItems, foldItems, checkItem, packChecked, Net.arpIsValid]
  match pyEq h (.int 1) with
  | .error e => rfl
  | .ok false => rfl
  | .ok true =>
    simp only
    match pyEq p (.enum 0x0800) with
    | .error e => rfl
    | .ok false => rfl
    | .ok true => exact packed_fold _ _

/-- The thread that gathers and the one that only reads are at the same place. -/
def Beside (o : Nat) (fin : σ → List Val) (s0 : σ) (fs0 : Items σ) (t t' : Steps (List Val)) : Prop :=
  (∃ dn got fs, fs0 = dn ++ fs ∧ dn.length = got.length ∧
    ((∃ s, foldItems s0 dn got = .ok s ∧
      ((t = gather o fin s fs ∧ t' = readAll o got (fs.map (·.1))) ∨
       ∃ n c fs' a, fs = (n, c) :: fs' ∧ t' = (.read a fun v => readAll o (got ++ [v]) (fs'.map (·.1))) ∧
         t = .read a fun v => match c s v with
           | .error e => .ret (.error e)
           | .ok s' => gather o fin s' fs')) ∨
     ∃ e, foldItems s0 dn got = .error e ∧ t = .ret (.error e) ∧ t' = readAll o got (fs.map (·.1)))) ∨
  (∃ e, t = .ret (.error e) ∧ t' = .ret (.error e))

theorem Beside.start (o : Nat) (fin : σ → List Val) (s0 : σ) (fs : Items σ) :
    Beside o fin s0 fs (gather o fin s0 fs) (readAll o [] (fs.map (·.1))) :=
  .inl ⟨[], [], fs, rfl, rfl, .inl ⟨s0, rfl, .inl ⟨rfl, rfl⟩⟩⟩

/-- A step of the one is a step of the other. -/
theorem Beside.step {o : Nat} {fin : σ → List Val} {s0 : σ} {fs0 : Items σ} {t t' u : Steps (List Val)} {w w' : Mem}
    (h : Beside o fin s0 fs0 t t') (hs : Step (t, w) (u, w')) : ∃ u', Step (t', w) (u', w') ∧ Beside o fin s0 fs0 u u' := by
  rcases h with ⟨dn, got, fs, e, hl, ⟨s, hf, ⟨rfl, rfl⟩ | ⟨n, c, fs', a, rfl, rfl, rfl⟩⟩ | ⟨e', _, rfl, _⟩⟩ | ⟨e, rfl, _⟩
  · match fs, e with
    | [], e => cases hs
    | (n, c) :: fs, e =>
      cases hs with
      | look h1 h2 => exact ⟨_, .look h1 h2, .inl ⟨dn, got, _, e, hl, .inl ⟨s, hf, .inr ⟨n, c, fs, _, rfl, rfl, rfl⟩⟩⟩⟩
      | missing h1 h2 => exact ⟨_, .missing h1 h2, .inr ⟨_, rfl, rfl⟩⟩
  · cases hs with
    | @read _ v _ _ hv =>
      refine ⟨_, .read hv, .inl ⟨dn ++ [(n, c)], got ++ [v], fs', by simpa using e, by simp [hl], ?_⟩⟩
      rw [fold_append _ _ dn got s0 hl, hf]
      simp only [foldItems]
      cases hc : c s v with
      | error e => refine .inr ⟨e, ?_, ?_, ?_⟩ <;> first | rfl | trivial
      | ok s' => refine .inl ⟨s', ?_, .inl ⟨?_, ?_⟩⟩ <;> first | rfl | trivial
  · cases hs
  · cases hs

/-- The other way round: if the reader can go on, so can the one that gathers, unless it has raised an exception. -/
theorem Beside.goes {o : Nat} {fin : σ → List Val} {s : σ} {n : String} {c : σ → Val → Res σ} {fs : Items σ} {got : List Val}
    {u : Steps (List Val)} {w w' : Mem} (hs : Step (readAll o got (((n, c) :: fs).map (·.1)), w) (u, w')) :
    ∃ u' w', Step (gather o fin s ((n, c) :: fs), w) (u', w') := by
  cases hs with
  | look h1 h2 => exact ⟨_, _, .look h1 h2⟩
  | missing h1 h2 => exact ⟨_, _, .missing h1 h2⟩

/-- A thread beside the watcher: it only reads. -/
def Watcher.reader : Watcher → Steps (List Val)
  | .pack o fs | .size o fs => readAll o [] (fs.map (·.1))
  | .message o m => readAll o [] (m.fields.map (·.1) ++ m.fields.map (·.1))
  | .arp o => readAll o [] (["htype", "ptype"] ++ Net.arpFields.map (·.1))
  | .other t => t

def Watcher.Beside : Watcher → Steps (List Val) → Steps (List Val) → Prop
  | .pack o fs => Decode.Beside o (fun b => [.bin (.bytes b)]) [] (packItems fs)
  | .size o fs => Decode.Beside o (fun k => [.int (k : Nat)]) 0 (sizeItems fs)
  | .message o m => Decode.Beside o (fun s => [.bin (.bytes s.2)]) (0, []) (upto m ++ onwards m)
  | .arp o => Decode.Beside o (fun b => [.bin (.bytes b)]) [] arpItems
  | .other _ => Eq

theorem Watcher.beside_start : ∀ x : Watcher, x.Beside x.steps x.reader
  | .pack o fs => by simp only [Watcher.steps, Watcher.reader, packing_gather, ← packItems_names]; exact .start ..
  | .size o fs => by simp only [Watcher.steps, Watcher.reader, sizing_gather, ← sizeItems_names]; exact .start ..
  | .message o m => by simp only [Watcher.steps, Watcher.reader, message_gather, ← message_names]; exact .start ..
  | .arp o => by simp only [Watcher.steps, Watcher.reader, arp_gather, ← arp_names]; exact .start ..
  | .other t => rfl

theorem Watcher.beside_step {x : Watcher} {t t' u : Steps (List Val)} {w w' : Mem} (h : x.Beside t t') (hs : Step (t, w) (u, w')) :
    ∃ u', Step (t', w) (u', w') ∧ x.Beside u u' := by
  cases x with
  | pack o fs => exact Decode.Beside.step h hs
  | size o fs => exact Decode.Beside.step h hs
  | message o m => exact Decode.Beside.step h hs
  | arp o => exact Decode.Beside.step h hs
  | other t => cases h; exact ⟨_, hs, rfl⟩

/-- Threads that pack or measure, and the same ones only reading. -/
def Pairs (xs : List Watcher) (ts ts' : List (Steps (List Val))) : Prop :=
  ts.length = xs.length ∧ ts'.length = xs.length ∧ ∀ (i : Nat) x t t', xs[i]? = some x → ts[i]? = some t → ts'[i]? = some t' → x.Beside t t'

theorem Pairs.start (xs : List Watcher) : Pairs xs (xs.map (·.steps)) (xs.map (·.reader)) := by
  refine ⟨by simp, by simp, ?_⟩
  intro i x t t' hx ht ht'
  simp only [List.getElem?_map, hx, Option.map_some, Option.some.injEq] at ht ht'
  subst ht ht'
  exact x.beside_start

theorem Pairs.runs {xs : List Watcher} {ts0 ts0' : List (Steps (List Val))} {w0 : Mem} (h0 : Pairs xs ts0 ts0') {c : List (Steps (List Val)) × Mem}
    (hr : Runs (ts0, w0) c) : ∃ ts', Runs (ts0', w0) (ts', c.2) ∧ Pairs xs c.1 ts' := by
  generalize hc : (ts0, w0) = c0 at hr
  induction hr with
  | refl => subst hc; exact ⟨ts0', .refl _, h0⟩
  | step _ hs ih =>
    obtain ⟨ts', h1, hl, hl', h2⟩ := ih
    cases hs with
    | @mk ts i t u w w' hi hs =>
      have hlt : i < ts.length := (List.getElem?_eq_some_iff.1 hi).1
      have hx : xs[i]? = some (xs[i]'(hl ▸ hlt)) := List.getElem?_eq_getElem _
      have hy : ts'[i]? = some (ts'[i]'(by simp only at hl hl'; omega)) := List.getElem?_eq_getElem _
      obtain ⟨u', hs', hb⟩ := Watcher.beside_step (h2 _ _ _ _ hx hi hy) hs
      refine ⟨ts'.set i u', .step h1 (.mk hy hs'), by simpa using hl, by simpa using hl', ?_⟩
      intro j x t1 t2 hjx hj1 hj2
      simp only [List.getElem?_set] at hj1 hj2
      by_cases hij : i = j
      · subst hij
        rw [hx] at hjx
        cases hjx
        have hlt' : i < ts'.length := (List.getElem?_eq_some_iff.1 hy).1
        simp only [if_true, hlt, hlt', Option.some.injEq] at hj1 hj2
        subst hj1 hj2
        exact hb
      · rw [if_neg hij] at hj1 hj2
        exact h2 j x t1 t2 hjx hj1 hj2

/-- A reader that goes on whenever it has not returned gets to the end. -/
theorem reader_ends {o : Nat} {c0 : List (Steps (List Val)) × Mem} {k : Nat} {G : List Val → Prop}
    (hM : ∀ ts w t, Runs c0 (ts, w) → ts[k]? = some t → (∃ t' w', Step (t, w) (t', w')) ∨ ∃ vs, t = .ret (.ok vs) ∧ G vs) :
    ∀ (ns : List String) (got : List Val) ts w, Runs c0 (ts, w) → ts[k]? = some (readAll o got ns) → ∃ more, G (got ++ more)
  | [], got, ts, w, hr, hk => by
    rcases hM ts w _ hr hk with ⟨_, _, hs⟩ | ⟨vs, e, hg⟩
    · cases hs
    · cases e; exact ⟨[], by simpa using hg⟩
  | n :: ns, got, ts, w, hr, hk => by
    rcases hM ts w _ hr hk with ⟨t', w', hs⟩ | ⟨vs, e, hg⟩
    · have hlt : k < ts.length := (List.getElem?_eq_some_iff.1 hk).1
      have hr' := Runs.step hr (.mk hk hs)
      have hk' : (ts.set k t')[k]? = some t' := by simp [List.getElem?_set, hlt]
      cases hs with
      | missing h1 h2 =>
        rcases hM _ _ _ hr' hk' with ⟨_, _, hs⟩ | ⟨vs, e, hg⟩
        · cases hs
        · cases e
      | look h1 h2 =>
        rcases hM _ _ _ hr' hk' with ⟨t2, w2, hs⟩ | ⟨vs, e, hg⟩
        · have hr2 := Runs.step hr' (.mk hk' hs)
          cases hs with
          | @read _ v _ _ hv =>
            obtain ⟨more, hg⟩ := reader_ends hM ns (got ++ [v]) _ _ hr2 (List.getElem?_set_self (by simpa using hlt))
            exact ⟨v :: more, by simpa using hg⟩
        · cases e
    · cases e

/-- What a thread that gathers returns is what the values add up to that a reader may get. -/
theorem gather_result {o : Nat} {fin : σ → List Val} {s0 : σ} {fs0 : Items σ} {c0 : List (Steps (List Val)) × Mem} {k : Nat}
    {G : List Val → Prop}
    (hM : ∀ ts w t, Runs c0 (ts, w) → ts[k]? = some t → (∃ t' w', Step (t, w) (t', w')) ∨ ∃ vs, t = .ret (.ok vs) ∧ G vs)
    {ts' : List (Steps (List Val))} {w : Mem} (hr : Runs c0 (ts', w)) {t t' : Steps (List Val)} (ht' : ts'[k]? = some t')
    (h : Beside o fin s0 fs0 t t') :
    (∃ u w', Step (t, w) (u, w')) ∨ ∃ vs, t = .ret (outcome fin (foldItems s0 fs0 vs)) ∧ G vs := by
  rcases h with ⟨dn, got, fs, e, hl, ⟨s, hf, ⟨rfl, rfl⟩ | ⟨n, c, fs', a, rfl, rfl, rfl⟩⟩ | ⟨e', hf, rfl, rfl⟩⟩ | ⟨e, rfl, rfl⟩
  · match fs, e with
    | [], e =>
      obtain ⟨more, hg⟩ := reader_ends hM [] got _ _ hr ht'
      refine .inr ⟨got ++ more, ?_, hg⟩
      rw [e, fold_append _ _ dn got s0 hl, hf]
      simp [foldItems, outcome, gather]
    | (n, c) :: fs, e =>
      rcases hM _ _ _ hr ht' with ⟨u, w', hs⟩ | ⟨vs, e, hg⟩
      · exact .inl (Beside.goes hs)
      · cases e
  · rcases hM _ _ _ hr ht' with ⟨u, w', hs⟩ | ⟨vs, e, hg⟩
    · cases hs with
      | read hv => exact .inl ⟨_, _, .read hv⟩
    · cases e
  · obtain ⟨more, hg⟩ := reader_ends hM _ got _ _ hr ht'
    refine .inr ⟨got ++ more, ?_, hg⟩
    rw [e, fold_append _ _ dn got s0 hl, hf]
    rfl
  · rcases hM _ _ _ hr ht' with ⟨u, w', hs⟩ | ⟨vs, e, hg⟩
    · cases hs
    · cases e

end Pyof.Decode
