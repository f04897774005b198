import Verif.Model.Libs
/-!
# `pack()` step by step

The rest of the model treats `pack()` as one step.  Here it is the sequence of attribute reads and assignments it makes, so that it can be
interrupted between any two of them, by an exception or by another thread that packs the same message.

A message is the tree of its attributes: an attribute of an object and an item of a list are reached by their position.  Simplifications:

* no object occurs at two places in the tree, and the instances held by class attributes (used for an attribute that is `None`) are not part of it;
* an attribute in whose value `pack()` assigns nothing (numbers, strings, ports, the actions of v0x01, ...) is read in one step;
* the items of a list are collected in one step, since `pack()` never changes a list.

The messages that replace their `body` or `data` while packing (StatsRequest, StatsReply, ErrorMsg of v0x01, MultipartRequest,
MultipartReply) are in a table of their own; the objects in their bodies are packed in one step.
-/
namespace Pyof.Threads

/-- Where an attribute or item is: positions from the message downwards. -/
abbrev Path := List Nat

/-- What is found there. -/
def at? : Val → Path → Option Val
  | v, [] => some v
  | .obj _ vs, i :: p => match vs[i]? with | some v => at? v p | none => none
  | .list _ xs, i :: p => match xs[i]? with | some v => at? v p | none => none
  | _, _ :: _ => none

/-- The tree after an assignment there. -/
def put : Val → Path → Val → Val
  | _, [], x => x
  | .obj c vs, i :: p, x => .obj c (vs.modify i fun v => put v p x)
  | .list f xs, i :: p, x => .list f (xs.modify i fun v => put v p x)
  | v, _ :: _, _ => v

/-- Assignments: what is stored where. -/
abbrev Done := Path → Option Val

mutual
/-- The tree after all these assignments. -/
def over : Val → Done → Val
  | .obj c vs, D => (match D [] with | some x => x | none => .obj c (overs vs D 0))
  | .list f xs, D => (match D [] with | some x => x | none => .list f (overs xs D 0))
  | v, D => (match D [] with | some x => x | none => v)
def overs : List Val → Done → Nat → List Val
  | [], _, _ => []
  | v :: vs, D, i => over v (fun p => D (i :: p)) :: overs vs D (i + 1)
end

/-- A thread: it has a result, or reads an attribute and goes on, or assigns an attribute and goes on. -/
inductive Prog (α : Type)
  | ret (a : α)
  | get (p : Path) (k : Val → Prog α)
  | set (p : Path) (x : Val) (k : Prog α)

/-- One after the other. -/
def Prog.bind {α β : Type} : Prog α → (α → Prog β) → Prog β
  | .ret a, f => f a
  | .get p k, f => .get p fun v => (k v).bind f
  | .set p x k, f => .set p x (k.bind f)

/-- One after the other, unless the first one raises. -/
def Prog.andThen {α β : Type} (m : Prog (Res α)) (f : α → Prog (Res β)) : Prog (Res β) :=
  m.bind fun
    | .ok a => f a
    | .error e => .ret (.error e)

/-- One step of a thread. -/
inductive Step {α : Type} : Prog α × Val → Prog α × Val → Prop
  | get {p : Path} {k : Val → Prog α} {w v : Val} : at? w p = some v → Step (.get p k, w) (k v, w)
  | set {p : Path} {x : Val} {k : Prog α} {w : Val} : Step (.set p x k, w) (k, put w p x)

/-- One step of one of several threads that share a message. -/
inductive StepAny {α : Type} : List (Prog α) × Val → List (Prog α) × Val → Prop
  | mk {ts : List (Prog α)} {i : Nat} {t t' : Prog α} {w w' : Val} :
      ts[i]? = some t → Step (t, w) (t', w') → StepAny (ts, w) (ts.set i t', w')

/-- Any number of steps, in any order. -/
inductive Runs {α : Type} : List (Prog α) × Val → List (Prog α) × Val → Prop
  | refl (c : List (Prog α) × Val) : Runs c c
  | step {a b c : List (Prog α) × Val} : Runs a b → StepAny b c → Runs a c

/-! ## Class attributes -/

/-- A class attribute.  `attr` is its sequential model; `packP p` and `sizeP p` are the steps of `attr.pack(value)` and
`attr.get_size(value)` for the value at `p`.  `writes v q x` says that packing the value `v` may assign `x` at `q`; it is only used in
proofs. -/
structure PAttr where
  attr : Attr
  packP : Path → Prog (Res Bytes)
  sizeP : Path → Prog (Res Nat)
  writes : Val → Path → Val → Prop := fun _ _ _ => False

abbrev PFields := List (String × PAttr)

def PFields.fields (fs : PFields) : Fields := fs.map fun p => (p.1, p.2.attr)

/-- A class attribute in whose value nothing is assigned: it is read, the rest is computed without looking at the message. -/
def leafP (a : Attr) : PAttr where
  attr := a
  packP := fun p => .get p fun v => .ret (a.pack v)
  sizeP := fun p => .get p fun v => .ret (a.size v)

def leaves (fs : Fields) : PFields := fs.map fun f => (f.1, leafP f.2)

/-- The class attributes `fs`, of which those named in `special` are not such. -/
def leavesBut (special : List (String × PAttr)) (fs : Fields) : PFields :=
  fs.map fun f => (f.1, match special.lookup f.1 with | some a => a | none => leafP f.2)

/-- The loop of GenericStruct.pack (base.py:704-714) over the `n` attributes of the object at `p`, from attribute `j` on. -/
def packFields (p : Path) : PFields → Nat → Nat → Prog (Res Bytes)
  | (_, c) :: fs, j, n + 1 =>
    (c.packP (p ++ [j])).andThen fun b => (packFields p fs (j + 1) n).andThen fun r => .ret (.ok (b ++ r))
  | _, _, _ => .ret (.ok [])

/-- The sum of GenericStruct.get_size (base.py:677-679). -/
def sizeFields (p : Path) : PFields → Nat → Nat → Prog (Res Nat)
  | (_, c) :: fs, j, n + 1 =>
    (c.sizeP (p ++ [j])).andThen fun a => (sizeFields p fs (j + 1) n).andThen fun r => .ret (.ok (a + r))
  | _, _, _ => .ret (.ok 0)

/-- What packing the attributes one by one may assign. -/
def fieldWrites (fs : PFields) (vs : List Val) : Path → Val → Prop
  | [], _ => False
  | j :: q, x => ∃ f v, fs[j]? = some f ∧ vs[j]? = some v ∧ f.2.writes v q x

/-- A class of structures: its sequential model, and the steps of `pack()` and `get_size()` of the object at `p`, which has `n` attributes. -/
structure PCls where
  name : String
  pack : List Val → Res Bytes
  size : List Val → Res Nat
  packP : Path → Nat → Prog (Res Bytes)
  sizeP : Path → Nat → Prog (Res Nat)
  writes : List Val → Path → Val → Prop

/-- A class that overrides neither. -/
def plainCls (name : String) (fs : PFields) : PCls where
  name := name
  pack := packAttrs fs.fields
  size := sizeAttrs fs.fields
  packP := fun p n => packFields p fs 0 n
  sizeP := fun p n => sizeFields p fs 0 n
  writes := fieldWrites fs

/-- A class that first stores its size in attribute `i` (`self.length = self.get_size()`): instructions, hello elements. -/
def autoCls (name : String) (fs : PFields) (i : Nat) : PCls where
  name := name
  pack := autoPack fs.fields i
  size := sizeAttrs fs.fields
  packP := fun p n => (sizeFields p fs 0 n).andThen fun k => .set (p ++ [i]) (.int k) (packFields p fs 0 n)
  sizeP := fun p n => sizeFields p fs 0 n
  writes := fun vs q x => (q = [i] ∧ ∃ k : Nat, sizeAttrs fs.fields vs = .ok k ∧ x = .int k) ∨ fieldWrites fs vs q x

/-- `x.pack(value)` where `value` may be an object of one of the classes `cs`; everything else is settled by looking at its class. -/
def oneOf (a : Attr) (cs : List PCls) : PAttr where
  attr := a
  packP := fun p => .get p fun v =>
    match v with
    | .obj c vs => (match cs.find? (fun k => k.name == c) with | some k => k.packP p vs.length | none => .ret (a.pack (.obj c vs)))
    | v => .ret (a.pack v)
  sizeP := fun p => .get p fun v =>
    match v with
    | .obj c vs => (match cs.find? (fun k => k.name == c) with | some k => k.sizeP p vs.length | none => .ret (a.size (.obj c vs)))
    | v => .ret (a.size v)
  writes := fun v q x =>
    match v with
    | .obj c vs => (match cs.find? (fun k => k.name == c) with | some k => k.writes vs q x | none => False)
    | _ => False

/-! ## Lists -/

mutual
/-- Where the items of a list are; a list in a list is taken apart (basic_types.py:647-659, 757-775). -/
def itemPath (isItem : Val → Bool) : Val → Path → Res (List Path)
  | .list _ xs, p => itemPaths isItem xs p 0
  | v, p => if isItem v then .ok [p] else .error .wrongItem
def itemPaths (isItem : Val → Bool) : List Val → Path → Nat → Res (List Path)
  | [], _, _ => .ok []
  | x :: xs, p, j =>
    match itemPath isItem x (p ++ [j]) with
    | .error e => .error e
    | .ok a =>
      match itemPaths isItem xs p (j + 1) with
      | .error e => .error e
      | .ok r => .ok (a ++ r)
end

/-- The loop of TypeList.pack (basic_types.py:678-685). -/
def itemsPack (it : PAttr) : List Path → Prog (Res Bytes)
  | [] => .ret (.ok [])
  | p :: ps => (it.packP p).andThen fun b => (itemsPack it ps).andThen fun r => .ret (.ok (b ++ r))

/-- The sum of TypeList.get_size (basic_types.py:727-728). -/
def itemsSize (it : PAttr) : List Path → Prog (Res Nat)
  | [] => .ret (.ok 0)
  | p :: ps => (it.sizeP p).andThen fun a => (itemsSize it ps).andThen fun r => .ret (.ok (a + r))

/-- What packing the items of a list may assign. -/
def listWrites (it : PAttr) : Path → Val → Val → Prop
  | j :: q, .list _ xs, x => ∃ y, xs[j]? = some y ∧ listWrites it q y x
  | [], .list _ _, _ => False
  | q, v, x => it.writes v q x

/-- A `ListOf...` class attribute (`listAttr`). -/
def listP (isItem : Val → Bool) (it : PAttr) : PAttr where
  attr := listAttr isItem it.attr
  packP := fun p => .get p fun v =>
    match v with
    | .list _ xs => (match itemPaths isItem xs p 0 with | .ok ps => itemsPack it ps | .error e => .ret (.error e))
    | v => .ret ((listAttr isItem it.attr).pack v)
  sizeP := fun p => .get p fun v =>
    match v with
    | .list _ xs => (match itemPaths isItem xs p 0 with | .ok ps => itemsSize it ps | .error e => .ret (.error e))
    | .obj c vs => if isItem (.obj c vs) then it.sizeP p else .ret ((listAttr isItem it.attr).size (.obj c vs))
    | v => .ret ((listAttr isItem it.attr).size v)
  writes := fun v q x => listWrites it q v x

/-- The places of the `n` items of the list at `p`. -/
def places (p : Path) (n : Nat) : List Path := (List.range n).map fun j => p ++ [j]

/-- A bare `FixedTypeList(X)` (`bareListAttr`). -/
def bareListP (isItem : Val → Bool) (it : PAttr) : PAttr where
  attr := bareListAttr isItem it.attr
  packP := fun p => .get p fun v =>
    match v with
    | .list true xs => itemsPack it (places p xs.length)
    | v => .ret ((bareListAttr isItem it.attr).pack v)
  sizeP := fun p => .get p fun v => .ret ((bareListAttr isItem it.attr).size v)
  writes := fun v q x =>
    match v, q with
    | .list true xs, j :: q => ∃ y, xs[j]? = some y ∧ it.writes y q x
    | _, _ => False

/-! ## Matches of v0x04 (v0x04/common/flow_match.py) -/

/-- OxmTLV.pack (lines 263-281, 254-261): `oxm_field_and_mask` from the class, the field and the mask flag, `oxm_length` from the value, then
the attributes. -/
def oxmCls : PCls where
  name := "04.OxmTLV"
  pack := V04.oxmPack
  size := sizeAttrs V04.oxmFields
  packP := fun p n =>
    if n = 6 then
      .get (p ++ [0]) fun c => .get (p ++ [4]) fun f =>
        match V04.oxmFieldInt c f with
        | .error e => .ret (.error e)
        | .ok i =>
          .get (p ++ [5]) fun m =>
            match cmpNum m with
            | none => .ret (.error .type)
            | some k =>
              .set (p ++ [1]) (.int (i * 2 + k % 2)) (.get (p ++ [3]) fun v =>
                match (binAttr).pack v with
                | .error e => .ret (.error e)
                | .ok payload => .set (p ++ [2]) (.int payload.length) (packFields p (leaves V04.oxmFields) 0 n))
    else .ret (.error .unmodelled)
  sizeP := fun p n => sizeFields p (leaves V04.oxmFields) 0 n
  writes := fun vs q x =>
    match vs with
    | [c, _, _, v, f, m] =>
      (q = [1] ∧ ∃ i k, V04.oxmFieldInt c f = .ok i ∧ cmpNum m = some k ∧ x = .int (i * 2 + k % 2)) ∨
      (q = [2] ∧ ∃ payload, (binAttr).pack v = .ok payload ∧ x = .int payload.length)
    | _ => False

def oxmP : PAttr := oneOf V04.oxm [oxmCls]

def oxmsP : PAttr := listP (isObj "04.OxmTLV") oxmP

def matchFieldsP : PFields := leavesBut [("oxm_match_fields", oxmsP)] V04.matchFields

/-- Match.pack (lines 364-376) and Match.get_size (lines 382-384). -/
def matchCls : PCls where
  name := "04.Match"
  pack := V04.matchPack
  size := V04.matchSize
  packP := fun p n =>
    (sizeFields p matchFieldsP 0 n).andThen fun k => .set (p ++ [1]) (.int k)
      ((packFields p matchFieldsP 0 n).andThen fun b => (sizeFields p matchFieldsP 0 n).andThen fun s => .ret (.ok (fill (ceil8 s) b)))
  sizeP := fun p n => (sizeFields p matchFieldsP 0 n).andThen fun s => .ret (.ok (ceil8 s))
  writes := (autoCls "04.Match" matchFieldsP 1).writes

def matchP : PAttr := oneOf V04.match [matchCls]

/-! ## Actions and instructions of v0x04 -/

/-- An action that overrides nothing but `get_size` (v0x04/common/action.py:111-118). -/
def actionCls (s : Sub) : PCls where
  name := s.name
  pack := packAttrs s.fields
  size := V04.actionSize s.fields
  packP := fun p n => packFields p (leaves s.fields) 0 n
  sizeP := fun p n => (sizeFields p (leaves s.fields) 0 n).andThen fun k => .ret (.ok (ceil8 k))
  writes := fun _ _ _ => False

def setFieldFieldsP : PFields := leavesBut [("field", oxmP)] V04.setFieldFields

/-- ActionSetField.pack (v0x04/common/action.py:398-418).  `_update_length` (lines 404-410) assigns `self.length` twice if the length is not a
multiple of 8: without the padding, then with it.  `pack` reads it again to fill up. -/
def setFieldCls : PCls where
  name := "04.ActionSetField"
  pack := V04.setFieldPack
  size := V04.actionSize V04.setFieldFields
  packP := fun p n =>
    if n = 3 then
      .get (p ++ [2]) fun f =>
        match f with
        | .obj _ _ =>
          (oxmP.packP (p ++ [2])).andThen fun b =>
            let rest : Prog (Res Bytes) :=
              (packFields p setFieldFieldsP 0 n).andThen fun r => .get (p ++ [1]) fun l =>
                match l with
                | .int k => .ret (.ok (fill k.toNat r))
                | _ => .ret (.error .unmodelled)
            .set (p ++ [1]) (.int (4 + b.length : Nat))
              (if (4 + b.length) % 8 = 0 then rest else .set (p ++ [1]) (.int (ceil8 (4 + b.length))) rest)
        | _ => .ret (.error .unmodelled)
    else .ret (.error .unmodelled)
  sizeP := fun p n => (sizeFields p setFieldFieldsP 0 n).andThen fun k => .ret (.ok (ceil8 k))
  writes := fun vs q x =>
    match vs with
    | [_, _, f] =>
      (q = [1] ∧ ∃ b, V04.oxm.pack f = .ok b ∧ (x = .int (4 + b.length : Nat) ∨ x = .int (ceil8 (4 + b.length)))) ∨
      fieldWrites setFieldFieldsP vs q x
    | _ => False

def actionClss : List PCls :=
  V04.actionSubs.map fun s => if s.name = "04.ActionSetField" then setFieldCls else actionCls s

def actionP : PAttr := oneOf V04.action actionClss

def actionsP : PAttr := listP (isSub V04.actionSubs) actionP

/-- v0x04/common/flow_instructions.py:76-96. -/
def instructionClss : List PCls :=
  V04.instructionSubs.map fun s => autoCls s.name (leavesBut [("actions", actionsP)] s.fields) 1

def instructionsP : PAttr := listP (isSub V04.instructionSubs) (oneOf V04.instruction instructionClss)

/-! ## Buckets and hello elements of v0x04 -/

def bucketFieldsP : PFields := leavesBut [("actions", bareListP (isSub V04.actionSubs) actionP)] V04.bucketFields

/-- Bucket (v0x04/controller2switch/common.py:193-249): `get_size` looks at `length`. -/
def bucketCls : PCls where
  name := "04.Bucket"
  pack := packAttrs V04.bucketFields
  size := V04.bucketSize
  packP := fun p n => packFields p bucketFieldsP 0 n
  sizeP := fun p n =>
    match n with
    | 0 => .ret (.error .unmodelled)
    | n + 1 => .get (p ++ [0]) fun l =>
      match l with
      | .none => sizeFields p bucketFieldsP 0 (n + 1)
      | l =>
        match cmpNum l with
        | some i => .ret (if 0 ≤ i then .ok i.toNat else .error .unmodelled)
        | none => .ret (.error .type)
  writes := fieldWrites bucketFieldsP

def bucketsP : PAttr := listP (isObj "04.Bucket") (oneOf V04.bucket [bucketCls])

/-- HelloElemHeader.pack (v0x04/symmetric/hello.py:49-69). -/
def helloElemCls : PCls := autoCls "04.HelloElemHeader" (leaves V04.helloElemFields) 1

def helloElemsP : PAttr := listP (isObj "04.HelloElemHeader") (oneOf V04.helloElem [helloElemCls])

/-! ## Messages -/

/-- The header of a message. -/
def headerP (m : MsgCls) : PAttr :=
  oneOf (headerAttr m.ver m.types m.code) [plainCls (hdrName m.ver) (leaves (headerFields m.ver m.types))]

/-- GenericMessage.pack (base.py:800-826, 846-852) of an object with `n` attributes after the header: `self.header.length = self.get_size()`,
then the validation, then the attributes. -/
def genericP (m : MsgCls) (body : PFields) (valid : Prog (Res Unit)) (n : Nat) : Prog (Res Bytes) :=
  (sizeFields [] (("header", headerP m) :: body) 0 (n + 1)).andThen fun k =>
    .get [0] fun h =>
      match h with
      | .obj _ [_, _, _, _] =>
        .set [0, 2] (.int k) (valid.andThen fun _ => packFields [] (("header", headerP m) :: body) 0 (n + 1))
      | _ => .ret (.error .attribute)

/-- A message class: `pre n` is what its own `pack` does before that, `valid` its validation. -/
structure PMsg where
  cls : MsgCls
  body : PFields
  pre : Nat → Prog (Res Unit) := fun _ => .ret (.ok ())
  valid : Prog (Res Unit) := .ret (.ok ())

/-- `message.pack()` -/
def PMsg.steps (m : PMsg) : Prog (Res Bytes) :=
  .get [] fun v =>
    match v with
    | .obj _ (_ :: vs) => (m.pre vs.length).andThen fun _ => genericP m.cls m.body m.valid vs.length
    | _ => .ret (.error .unmodelled)

/-- A class without own methods. -/
def plainMsg (special : List (String × PAttr)) (m : MsgCls) : PMsg where
  cls := m
  body := leavesBut special m.body

/-- PacketOut: `_update_actions_len` stores the size of the actions (attribute `i` after the header, out of `n`) in attribute 2; the validation
looks at `in_port`.  v0x01/controller2switch/packet_out.py:53-75, 105-129, v0x04/controller2switch/packet_out.py:62-85, 115-127. -/
def packetOutMsg (m : MsgCls) (acts : PAttr) (i n : Nat) : PMsg where
  cls := m
  body := leavesBut [("actions", acts)] m.body
  pre := fun k =>
    if k = n then (acts.sizeP [i + 1]).andThen fun s => .set [3] (.int s) (.ret (.ok ())) else .ret (.error .unmodelled)
  valid := .get [2] fun port => .ret (m.valid [.none, port])

/-- The messages that keep their attributes while packing. -/
def messages : List PMsg :=
  [plainMsg [] V01.hello, plainMsg [] V01.echoRequest, plainMsg [] V01.echoReply, plainMsg [] V01.vendorHeader,
   plainMsg [] V01.featuresRequest, plainMsg [] V01.featuresReply, plainMsg [] V01.getConfigRequest, plainMsg [] V01.getConfigReply,
   plainMsg [] V01.setConfig, plainMsg [] V01.packetIn, plainMsg [] V01.flowRemoved, plainMsg [] V01.portStatus,
   packetOutMsg V01.packetOut (leafP V01.actions) 3 5, plainMsg [] V01.flowMod, plainMsg [] V01.portMod, plainMsg [] V01.barrierRequest,
   plainMsg [] V01.barrierReply, plainMsg [] V01.queueGetConfigRequest, plainMsg [] V01.queueGetConfigReply,
   plainMsg [("elements", helloElemsP)] V04.hello, plainMsg [] V04.errorMsg, plainMsg [] V04.echoRequest, plainMsg [] V04.echoReply,
   plainMsg [] V04.experimenter, plainMsg [] V04.featuresRequest, plainMsg [] V04.featuresReply, plainMsg [] V04.getConfigRequest,
   plainMsg [] V04.getConfigReply, plainMsg [] V04.setConfig, plainMsg [("match", matchP)] V04.packetIn,
   plainMsg [("match", matchP)] V04.flowRemoved, plainMsg [] V04.portStatus, packetOutMsg V04.packetOut actionsP 4 6,
   plainMsg [("match", matchP), ("instructions", instructionsP)] V04.flowMod, plainMsg [("buckets", bucketsP)] V04.groupMod,
   plainMsg [] V04.portMod, plainMsg [] V04.tableMod, plainMsg [] V04.barrierRequest, plainMsg [] V04.barrierReply,
   plainMsg [] V04.queueGetConfigRequest, plainMsg [] V04.queueGetConfigReply, plainMsg [] V04.roleRequest, plainMsg [] V04.roleReply,
   plainMsg [] V04.getAsyncRequest, plainMsg [] V04.getAsyncReply, plainMsg [] V04.setAsync, plainMsg [] V04.meterMod]

/-! ## Messages that replace their body -/

/-- GenericMessage.pack of a message with `n` attributes after the header, in none of which anything is assigned. -/
def superP (m : MsgCls) (n : Nat) : Prog (Res Bytes) := genericP m (leaves m.body) (.ret (.ok ())) n

/-- A message whose `pack` puts the packed body in place of the body, calls `GenericMessage.pack` and puts the body back.  `place` is where
the body is, `replaced` says which bodies are replaced. -/
structure RMsg where
  cls : MsgCls
  place : Nat
  replaced : Val → Bool

/-- `message.pack()`: the body is read for the backup, then again for packing (stats_request.py:45-57, stats_reply.py:44-55,
multipart_request.py:88-104, multipart_reply.py:98-114).  It is put back only if `super().pack()` returns.  That the type of the body is looked
at is part of the same step. -/
def RMsg.steps (m : RMsg) : Prog (Res Bytes) :=
  .get [m.place] fun backup => .get [] fun v =>
    match v with
    | .obj _ (_ :: vs) =>
      match m.cls.prep vs with
      | .error e => .ret (.error e)
      | .ok ws =>
        let rest : Prog (Res Bytes) := (superP m.cls vs.length).andThen fun b => .set [m.place] backup (.ret (.ok b))
        if m.replaced (vs[m.place - 1]?.getD .none) then .set [m.place] (ws[m.place - 1]?.getD .none) rest else rest
    | _ => .ret (.error .unmodelled)

/-- StatsRequest replaces everything that has a `pack` method, the others only what counts as true. -/
def replacing : List RMsg :=
  [⟨V01.statsRequest, 3, fun b => (selfPack V01.statsClasses b).isSome⟩,
   ⟨V01.statsReply, 3, fun b => pyTrue b && (selfPack V01.statsClasses b).isSome⟩,
   ⟨V04.multipartRequest, 4, pyTrue⟩, ⟨V04.multipartReply, 4, pyTrue⟩]

/-- ErrorMsg.pack of v0x01 (asynchronous/error_msg.py:216-225): `data` is read four times, to see that it is not `None`, to see that it is not
`bytes`, for the backup, and to be packed. -/
def errorSteps : Prog (Res Bytes) :=
  .get [3] fun a =>
    if a = .none then superP V01.errorMsg 3 else
      .get [3] fun b =>
        if isBytes b then superP V01.errorMsg 3 else
          .get [3] fun backup => .get [3] fun d =>
            match selfPack [] d with
            | none => .ret (.error .attribute)
            | some (.error e) => .ret (.error e)
            | some (.ok x) => .set [3] (.bytes x) ((superP V01.errorMsg 3).andThen fun p =>
                if backup = .none then .ret (.ok p) else .set [3] backup (.ret (.ok p)))
where
  isBytes : Val → Bool
    | .bytes _ => true
    | _ => false

end Pyof.Threads
