import Verif.Model.Struct
/-!
# The mutating operations of `FixedTypeList` and `ConstantTypeList` (`pyof/foundation/basic_types.py`)

Each operation returns the list afterwards and the exception raised, if any: a failing operation may
already have added some items.
-/
namespace Pyof

/-- `list.insert(self, index, item)`: negative indices count from the end, out-of-range ones are clamped. -/
def pyInsert (xs : List Val) (index : Int) (x : Val) : List Val :=
  let i := if index < 0 then (index + xs.length).toNat else index.toNat
  xs.take i ++ x :: xs.drop i

mutual
/-- FixedTypeList.append (lines 757-775). `isItem x` is `issubclass(x.__class__, self._pyof_class)`. -/
def fixAppend (isItem : Val → Bool) (st : List Val) : Val → List Val × Option Err
  | .list _ xs => fixExtend isItem st xs
  | v => if isItem v then (st ++ [v], none) else (st, some .wrongItem)
/-- TypeList.extend (lines 647-659): stops at the first item that raises. -/
def fixExtend (isItem : Val → Bool) (st : List Val) : List Val → List Val × Option Err
  | [] => (st, none)
  | x :: xs =>
    match fixAppend isItem st x with
    | (st, none) => fixExtend isItem st xs
    | (st, some e) => (st, some e)
end

/-- FixedTypeList.insert (lines 777-794): unlike append, a list argument is not flattened. -/
def fixInsert (isItem : Val → Bool) (st : List Val) (index : Int) (v : Val) : List Val × Option Err :=
  if isItem v then (pyInsert st index v, none) else (st, some .wrongItem)

/-- FixedTypeList.unpack / TypeList.unpack (lines 688-703, 796-807) on a list that may already hold
items; each decoded item goes through `append`.  A decoded item of size 0 would repeat forever. -/
def fixUnpack (isItem : Val → Bool) (it : Attr) (buff : Bytes) (begin : Nat) (st : List Val) :
    List Val × Option Err :=
  if begin < buff.length then
    match it.unpack buff begin with
    | .error e => (st, some e)
    | .ok u =>
      match fixAppend isItem st u with
      | (st, some e) => (st, some e)
      | (st, none) =>
        match it.usize u with
        | .error e => (st, some e)
        | .ok n =>
          if n = 0 then (st, some .diverges)
          else fixUnpack isItem it buff (begin + n) st
  else (st, none)
termination_by buff.length - begin
decreasing_by omega

/-- TypeList.__init__ (lines 635-645) of a `FixedTypeList`: the list held by the new object; an exception
means there is no object. -/
def fixInit (isItem : Val → Bool) (items : Val) : List Val × Option Err :=
  match items with
  | .list _ xs => fixExtend isItem [] xs
  | v => if pyTrue v then fixAppend isItem [] v else ([], none)

/-- The checked mutations of a `FixedTypeList`. -/
inductive ListOp
  | append (v : Val)
  | extend (vs : List Val)
  | insert (index : Int) (v : Val)
  | unpack (buff : Bytes) (offset : Nat)

def fixStep (isItem : Val → Bool) (it : Attr) (st : List Val) : ListOp → List Val × Option Err
  | .append v => fixAppend isItem st v
  | .extend vs => fixExtend isItem st vs
  | .insert i v => fixInsert isItem st i v
  | .unpack buff off => fixUnpack isItem it buff off st

/-- A program that performs the operations one after the other, catching every exception. -/
def fixRun (isItem : Val → Bool) (it : Attr) (st : List Val) (ops : List ListOp) : List Val :=
  ops.foldl (fun st op => (fixStep isItem it st op).1) st

/-- `l[i] = v`: inherited from `list`, not checked. -/
def listSetItem (st : List Val) (i : Nat) (v : Val) : List Val := st.set i v

/-! ## `ConstantTypeList` (lines 815-881) -/

mutual
/-- ConstantTypeList.append (lines 837-856); `cls x` is `x.__class__`. -/
def constAppend {κ : Type} [DecidableEq κ] (cls : Val → κ) (st : List Val) : Val → List Val × Option Err
  | .list _ xs => constExtend cls st xs
  | v =>
    match st with
    | [] => ([v], none)
    | h :: _ => if cls v = cls h then (st ++ [v], none) else (st, some .wrongItem)
/-- TypeList.extend (lines 647-659). -/
def constExtend {κ : Type} [DecidableEq κ] (cls : Val → κ) (st : List Val) : List Val → List Val × Option Err
  | [] => (st, none)
  | x :: xs =>
    match constAppend cls st x with
    | (st, none) => constExtend cls st xs
    | (st, some e) => (st, some e)
end

/-- ConstantTypeList.insert (lines 858-876). -/
def constInsert {κ : Type} [DecidableEq κ] (cls : Val → κ) (st : List Val) (index : Int) (v : Val) :
    List Val × Option Err :=
  match st with
  | [] => ([v], none)
  | h :: _ => if cls v = cls h then (pyInsert st index v, none) else (st, some .wrongItem)

inductive ConstOp
  | append (v : Val)
  | extend (vs : List Val)
  | insert (index : Int) (v : Val)

def constStep {κ : Type} [DecidableEq κ] (cls : Val → κ) (st : List Val) : ConstOp → List Val × Option Err
  | .append v => constAppend cls st v
  | .extend vs => constExtend cls st vs
  | .insert i v => constInsert cls st i v

def constRun {κ : Type} [DecidableEq κ] (cls : Val → κ) (st : List Val) (ops : List ConstOp) : List Val :=
  ops.foldl (fun st op => (constStep cls st op).1) st

end Pyof
