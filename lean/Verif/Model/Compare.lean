import Verif.Model.Basic
/-!
# Operators of `GenericType` (`pyof/foundation/base.py:71-130`) and `is_valid` (lines 228-241)

Binary operators follow Python's protocol: the method of the left operand is tried first; a built-in left operand returns
`NotImplemented` when the right one is a `GenericType`, and then the reflected method of the right operand is called.

Simplifications: `enum i` is an `IntEnum` member (60 of the 63 enumerations of the library), so it compares as its number; a
`GenericType` holding another `GenericType`, and operands that are structs or lists, are not modelled; neither are the orderings and the
concatenation of strings and bytes.
-/
namespace Pyof

/-- The class of a `GenericType` instance (the `UBInt` classes are told apart by their width). -/
inductive GClass
  | ub (w : Nat) | hw | ip | ip6 | dpid | chr | bin | pad
deriving DecidableEq, Repr

def gclass : Val → Option GClass
  | .ub w _ => some (.ub w)
  | .hw _ => some .hw
  | .ip _ _ => some .ip
  | .ip6 _ _ => some .ip6
  | .dpid _ => some .dpid
  | .chr _ _ => some .chr
  | .bin _ => some .bin
  | .pad _ => some .pad
  | _ => none

/-- `x._value` -/
def graw : Val → Val
  | .ub _ x | .hw x | .ip x _ | .ip6 x _ | .dpid x | .chr x _ | .bin x => x
  | _ => .none

/-- `x.value` (base.py:132-146). -/
def gval (x : Val) : Val := unwrap (graw x)

/-- `x.pack()` -/
def gpack : Val → Res Bytes
  | .ub w x => ubPack w x .none
  | .hw x => hwPackRaw x
  | .ip x _ => ipPackRaw x
  | .ip6 x _ => ip6PackRaw x
  | .dpid x => dpidPackRaw x
  | .chr x n => charPackRaw n x
  | .bin x => binPackRaw x
  | .pad n => .ok (List.replicate n 0)
  | _ => .error .unmodelled

/-- Numbers among the built-in values. -/
def builtinNum : Val → Option Int
  | .int i | .enum i => some i
  | _ => none

/-- `a == b` for built-in values. A `GenericBitMask` has no `__eq__`: it is only equal to itself, so comparing two of them is not
modelled. -/
def builtinEq (a b : Val) : Res Bool :=
  match builtinNum a, builtinNum b with
  | some i, some j => .ok (i == j)
  | _, _ =>
    match a, b with
    | .mask _, .mask _ => .error .unmodelled
    | .str s, .str t => .ok (s == t)
    | .bytes s, .bytes t => .ok (s == t)
    | .none, .none => .ok true
    | .obj _ _, _ | _, .obj _ _ | .list _ _, _ | _, .list _ _ | .foreign _ _, _ | _, .foreign _ _ => .error .unmodelled
    | a, b => if (gclass a).isSome || (gclass b).isSome then .error .unmodelled else .ok false

/-- `x.__eq__(other)` for a `GenericType` x (lines 71-76). -/
def genericEq (x other : Val) : Res Bool :=
  if gclass other = gclass x then
    match gpack x with
    | .error e => .error e
    | .ok p =>
      match gpack other with
      | .error e => .error e
      | .ok q => .ok (p == q)
  else if (gclass other).isSome then builtinEq (gval x) (gval other)
  else builtinEq (gval x) other

/-- `a == b` -/
def pyEq (a b : Val) : Res Bool :=
  if (gclass a).isSome then genericEq a b
  else if (gclass b).isSome then genericEq b a
  else builtinEq a b

def notRes : Res Bool → Res Bool
  | .ok b => .ok (!b)
  | .error e => .error e

/-- `a != b` (lines 78-79: `self._value != other`). -/
def pyNe (a b : Val) : Res Bool :=
  if (gclass a).isSome then
    if (gclass b).isSome then notRes (builtinEq (graw b) (graw a)) else notRes (builtinEq (graw a) b)
  else if (gclass b).isSome then notRes (builtinEq (graw b) a)
  else notRes (builtinEq a b)

/-- The orderings `<`, `<=`, `>`, `>=`. -/
inductive Ord4 | lt | le | gt | ge
deriving DecidableEq, Repr

def Ord4.swap : Ord4 → Ord4
  | .lt => .gt | .le => .ge | .gt => .lt | .ge => .le

def Ord4.on : Ord4 → Int → Int → Bool
  | .lt, i, j => decide (i < j)
  | .le, i, j => decide (i ≤ j)
  | .gt, i, j => decide (j < i)
  | .ge, i, j => decide (j ≤ i)

/-- Ordering of built-in values; ordering strings or bytes is not modelled, other mixtures are a `TypeError`. -/
def builtinOrd (o : Ord4) (a b : Val) : Res Bool :=
  match builtinNum a, builtinNum b with
  | some i, some j => .ok (o.on i j)
  | _, _ =>
    match a, b with
    | .str _, .str _ | .bytes _, .bytes _ => .error .unmodelled
    | _, _ => .error .type

/-- `a < b` etc. (lines 81-91: `self._value < other`, and the mirrored method of the right operand). -/
def pyOrd (o : Ord4) (a b : Val) : Res Bool :=
  if (gclass a).isSome then
    if (gclass b).isSome then builtinOrd o.swap (graw b) (graw a) else builtinOrd o (graw a) b
  else if (gclass b).isSome then builtinOrd o.swap (graw b) a
  else builtinOrd o a b

/-- The arithmetic operators with a reflected version. -/
inductive Arith | add | sub | or | and | xor
deriving DecidableEq, Repr

/-- The bits of `n` that are not in `m`. -/
def Nat.without (n m : Nat) : Nat := n ^^^ (n &&& m)

/-- Python's operators on ints: a negative int `-(n+1)` has all the bits that `n` does not have. -/
def Arith.on : Arith → Int → Int → Int
  | .add, i, j => i + j
  | .sub, i, j => i - j
  | .or, .ofNat i, .ofNat j => .ofNat (i ||| j)
  | .or, .ofNat i, .negSucc j => .negSucc (Nat.without j i)
  | .or, .negSucc i, .ofNat j => .negSucc (Nat.without i j)
  | .or, .negSucc i, .negSucc j => .negSucc (i &&& j)
  | .and, .ofNat i, .ofNat j => .ofNat (i &&& j)
  | .and, .ofNat i, .negSucc j => .ofNat (Nat.without i j)
  | .and, .negSucc i, .ofNat j => .ofNat (Nat.without j i)
  | .and, .negSucc i, .negSucc j => .negSucc (i ||| j)
  | .xor, .ofNat i, .ofNat j => .ofNat (i ^^^ j)
  | .xor, .ofNat i, .negSucc j => .negSucc (i ^^^ j)
  | .xor, .negSucc i, .ofNat j => .negSucc (i ^^^ j)
  | .xor, .negSucc i, .negSucc j => .ofNat (i ^^^ j)

/-- The operators on built-in values; concatenation of strings or bytes is not modelled, other mixtures are a `TypeError`. -/
def builtinArith (o : Arith) (a b : Val) : Res Int :=
  match builtinNum a, builtinNum b with
  | some i, some j => .ok (o.on i j)
  | _, _ =>
    match o, a, b with
    | .add, .str _, .str _ | .add, .bytes _, .bytes _ => .error .unmodelled
    | _, _, _ => .error .type

/-- `a + b` etc. (lines 93-121).  The reflected methods compute `self.value op other`, with the operands in that order. -/
def pyArith (o : Arith) (a b : Val) : Res Int :=
  if (gclass a).isSome then
    if (gclass b).isSome then builtinArith o (gval b) (gval a) else builtinArith o (gval a) b
  else if (gclass b).isSome then builtinArith o (gval b) a
  else builtinArith o a b

/-- `a << b` and `a >> b` (lines 123-127): there is no reflected method, so a `GenericType` on the right is a `TypeError`. -/
def pyShift (left : Bool) (a b : Val) : Res Int :=
  if (gclass b).isSome then .error .type
  else
    match builtinNum (if (gclass a).isSome then gval a else a), builtinNum b with
    | some i, some j =>
      if j < 0 then .error .value
      else if left then .ok (i * 2 ^ j.toNat) else .ok (i / 2 ^ j.toNat)
    | _, _ => .error .type

/-- `x.is_valid()` (lines 228-241): `BadValueException` is caught, other exceptions escape. -/
def genericIsValid (x : Val) : Res Bool :=
  match gpack x with
  | .ok _ => .ok true
  | .error .badValue => .ok false
  | .error e => .error e

end Pyof
