import Verif.Model.Py
/-!
# Specification: contents and wire formats

`Data` is what a user sees in an attribute, independent of how it was assigned (an int, an enum member
and a `UBInt` holding the number all have content `num n`).  A `Fmt` says, for one kind of attribute,
how to read the content of a Python value (`den`), which bytes stand for a content (`enc`, `none` when it
cannot be represented) and which contents a decoder accepts (`ok`: enum membership).

This file does not mention the model of the library: only Python values and byte strings.
-/
namespace Pyof.Spec

inductive Data
  | unit
  | num (n : Nat)
  | raw (b : Bytes)
  | text (s : Str)
  | record (ds : List Data)
  | arr (ds : List Data)
  | tag (c : String) (d : Data)
deriving Repr

structure Fmt where
  den : Val → Option Data
  enc : Data → Option Bytes
  ok : Data → Prop

/-! ## Leaves -/

/-- The number a value stands for. -/
def numOf : Val → Option Nat
  | .int i => if 0 ≤ i then some i.toNat else none
  | .enum i => if 0 ≤ i then some i.toNat else none
  | .ub _ (.int i) => if 0 ≤ i then some i.toNat else none
  | .ub _ (.enum i) => if 0 ≤ i then some i.toNat else none
  | .ub _ (.mask i) => if 0 ≤ i then some i.toNat else none
  | _ => none

/-- An unsigned number on `w` bytes, big-endian.  `dflt` is the content of an attribute left at `None`;
`members` restricts what a decoder accepts. -/
def uint (w : Nat) (members : Option (List Nat) := none) (dflt : Option Nat := none) : Fmt where
  den := fun v =>
    match v with
    | .none => dflt.map .num
    | v => (numOf v).map .num
  enc := fun d =>
    match d with
    | .num n => if n < 256 ^ w then some (be w n) else none
    | _ => none
  ok := fun d =>
    match d with
    | .num n => ∀ ms, members = some ms → n ∈ ms
    | _ => False

/-- `n` zero bytes. -/
def pad (n : Nat) : Fmt where
  den := fun _ => some .unit
  enc := fun d => match d with | .unit => some (List.replicate n 0) | _ => none
  ok := fun _ => True

/-- Numbers separated by `sep` in base `base`, each fitting in `w` bytes, exactly `k` of them. -/
def groups (sep : Char) (base w k : Nat) (s : Str) : Option Bytes :=
  match optMap (pyInt base) (splitC sep s) with
  | some xs =>
    if xs.length = k ∧ ∀ x ∈ xs, 0 ≤ x ∧ x < (256 : Int) ^ w then
      some (xs.flatMap fun x => be w x.toNat)
    else none
  | none => none

/-- A string of exactly `n` bytes (an address) as wire format. -/
def rawEnc (n : Nat) : Data → Option Bytes
  | .raw b => if b.length = n then some b else none
  | _ => none

/-- A MAC address: six hexadecimal numbers separated by colons; the number 0 stands for the zero address. -/
def hwRead : Val → Option Bytes
  | .str s => groups ':' 16 1 6 s
  | .int i => if i = 0 then some [0, 0, 0, 0, 0, 0] else none
  | _ => none

def hw (dflt : Option Bytes := some [0, 0, 0, 0, 0, 0]) : Fmt where
  den := fun v =>
    match v with
    | .none => dflt.map .raw
    | .hw x => (hwRead x).map .raw
    | v => (hwRead v).map .raw
  enc := rawEnc 6
  ok := fun _ => True

/-- An IPv4 address in dotted decimal, optionally followed by `/prefix`. -/
def ipRead : Val → Option Bytes
  | .str s => groups '.' 10 1 4 (s.takeWhile (· ≠ '/'))
  | _ => none

def ip (dflt : Option Bytes := some [0, 0, 0, 0]) : Fmt where
  den := fun v =>
    match v with
    | .none => dflt.map .raw
    | .ip x _ => (ipRead x).map .raw
    | v => (ipRead v).map .raw
  enc := rawEnc 4
  ok := fun _ => True

/-- An IPv6 address written with all eight groups. -/
def ip6Read : Val → Option Bytes
  | .str s => groups ':' 16 2 8 (s.takeWhile (· ≠ '/'))
  | _ => none

def ip6 (dflt : Option Bytes := some (List.replicate 16 0)) : Fmt where
  den := fun v =>
    match v with
    | .none => dflt.map .raw
    | .ip6 x _ => (ip6Read x).map .raw
    | v => (ip6Read v).map .raw
  enc := rawEnc 16
  ok := fun _ => True

/-- A datapath id: eight hexadecimal numbers separated by colons. -/
def dpidRead : Val → Option Bytes
  | .str s => groups ':' 16 1 8 s
  | _ => none

def dpid : Fmt where
  den := fun v =>
    match v with
    | .dpid x => (dpidRead x).map .raw
    | v => (dpidRead v).map .raw
  enc := rawEnc 8
  ok := fun _ => True

/-- ASCII text in a field of `n > 0` bytes: at most `n - 1` characters are kept and trailing NULs are not
distinguishable from padding. -/
def clip (n : Nat) (s : Str) : Str := rstripNul (s.take (n - 1))

def text (n : Nat) : Fmt where
  den := fun v =>
    match v with
    | .str s => if ∀ c ∈ s, c.toNat < 128 then some (.text (clip n s)) else none
    | .chr (.str s) m => if m = n ∧ ∀ c ∈ s, c.toNat < 128 then some (.text (clip n s)) else none
    | _ => none
  enc := fun d =>
    match d with
    | .text s =>
      if s.length < n ∧ (∀ c ∈ s, c.toNat < 128) ∧ rstripNul s = s then
        some (s.map (fun c => UInt8.ofNat c.toNat) ++ List.replicate (n - s.length) 0)
      else none
    | _ => none
  ok := fun _ => True

/-- Uninterpreted bytes up to the end of the enclosing buffer. -/
def rest : Fmt where
  den := fun v =>
    match v with
    | .none => some (.raw [])
    | .bytes b => some (.raw b)
    | .bin .none => some (.raw [])
    | .bin (.bytes b) => some (.raw b)
    | .foreign b n => if n = b.length then some (.raw b) else none
    | .bin (.foreign b n) => if n = b.length then some (.raw b) else none
    | _ => none
  enc := fun d => match d with | .raw b => some b | _ => none
  ok := fun _ => True

/-! ## Structs and lists -/

abbrev FieldFmts := List (String × Fmt)

def denAll : FieldFmts → List Val → Option (List Data)
  | [], [] => some []
  | (_, f) :: fs, v :: vs =>
    match f.den v, denAll fs vs with
    | some d, some ds => some (d :: ds)
    | _, _ => none
  | _, _ => none

def encAll : FieldFmts → List Data → Option Bytes
  | [], [] => some []
  | (_, f) :: fs, d :: ds =>
    match f.enc d, encAll fs ds with
    | some b, some r => some (b ++ r)
    | _, _ => none
  | _, _ => none

def okAll : FieldFmts → List Data → Prop
  | (_, f) :: fs, d :: ds => f.ok d ∧ okAll fs ds
  | _, _ => True

/-- An object of class `cls`: its fields one after the other. -/
def struct (cls : String) (fs : FieldFmts) : Fmt where
  den := fun v =>
    match v with
    | .obj c vs => if c = cls then (denAll fs vs).map .record else none
    | _ => none
  enc := fun d => match d with | .record ds => encAll fs ds | _ => none
  ok := fun d => match d with | .record ds => okAll fs ds | _ => False

/-- Concatenation of the encodings of a list of contents. -/
def encList (f : Fmt) : List Data → Option Bytes
  | [] => some []
  | d :: ds =>
    match f.enc d, encList f ds with
    | some b, some r => some (b ++ r)
    | _, _ => none

/-- A list of items of one format, one after the other, to the end of the enclosing buffer. -/
def list (f : Fmt) : Fmt where
  den := fun v =>
    match v with
    | .none => some (.arr [])
    | .list _ xs => (optMap f.den xs).map .arr
    | _ => none
  enc := fun d => match d with | .arr ds => encList f ds | _ => none
  ok := fun d => match d with | .arr ds => ∀ x ∈ ds, f.ok x | _ => False

end Pyof.Spec
