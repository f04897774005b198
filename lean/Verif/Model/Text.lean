import Verif.Model.Misc
/-!
# `str(x)` of the basic types and of the 1.0 header
-/
namespace Pyof

/-- `str(i)` of an int. -/
def intStr : Int → Str
  | .ofNat n => decStr n
  | .negSucc n => '-' :: decStr (n + 1)

/-- How Python shows one byte of a `bytes` object between quotes `q`. -/
def byteStr (q : Char) (x : UInt8) : Str :=
  if Char.ofNat x.toNat = q ∨ x = 92 then ['\\', Char.ofNat x.toNat]
  else if x = 9 then ['\\', 't']
  else if x = 10 then ['\\', 'n']
  else if x = 13 then ['\\', 'r']
  else if 32 ≤ x.toNat ∧ x.toNat < 127 then [Char.ofNat x.toNat]
  else ['\\', 'x'] ++ hexFix 2 x.toNat

/-- The quotes Python takes for a `bytes` object: double ones if it contains a single but no double quote. -/
def quoteOf (b : Bytes) : Char := if 39 ∈ b ∧ 34 ∉ b then '"' else '\''

/-- `str(b)` of a `bytes` object. -/
def bytesStr (b : Bytes) : Str := 'b' :: quoteOf b :: b.flatMap (byteStr (quoteOf b)) ++ [quoteOf b]

/-- `str(x)` of an attribute or of its `_value`.

* GenericType.__str__ (base.py:68-69): the text of `_value`; for HWAddress, IPAddress, IPv6Address, Char, BinaryData and the UBInts;
* Pad.__str__ (basic_types.py:33-34);
* DPID.__str__ (basic_types.py:138-139) returns `_value`: `TypeError` if that is no `str`;
* GenericBitMask.__str__ (base.py:902-903).

`member` is the text of the members of enumerations, which depends on the version of Python: `Type.OFPT_HELLO`, from 3.11 on the number.  The texts of
lists and of structs, which contain the addresses of objects in memory, are not modelled. -/
def strOf (member : Int → Str) : Val → Res Str
  | .none => .ok ['N', 'o', 'n', 'e']
  | .int i => .ok (intStr i)
  | .enum i => .ok (member i)
  | .mask i => .ok (intStr i)
  | .str s => .ok s
  | .bytes b => .ok (bytesStr b)
  | .ub _ x => strOf member x
  | .hw x => strOf member x
  | .ip x _ => strOf member x
  | .ip6 x _ => strOf member x
  | .dpid (.str s) => .ok s
  | .dpid _ => .error .type
  | .chr x _ => strOf member x
  | .bin x => strOf member x
  | .pad n => .ok (List.replicate n '0')
  | .obj _ _ => .error .unmodelled
  | .list _ _ => .error .unmodelled
  | .foreign _ _ => .error .unmodelled

/-- `str(header)` of a 1.0 header, `self.message_type.name` (v0x01/common/header.py:87-89).  Only members of enumerations have a `name`: a number and
the `UBInt8` that `unpack` puts there have none.  Simplification: a member of another enumeration than `Type` is taken for the one of `Type` with
its number. -/
def V01.headerStr : Val → Res Str
  | .obj _ [_, t, _, _] =>
    match t with
    | .enum i =>
      match V01.typeNames.find? (fun p => p.2 == i.toNat) with
      | some p => .ok p.1.toList
      | none => .error .attribute
    | _ => .error .attribute
  | _ => .error .unmodelled

end Pyof
