import Verif.Spec.Contract
import Verif.Model.Message
/-!
# Specification: OpenFlow packets

The wire form of a message does not depend on the library: one byte version, one byte type, two bytes total
length, four bytes transaction id, then the body.
-/
namespace Pyof.Spec

def packet (ver code xid : Nat) (body : Bytes) : Bytes :=
  [UInt8.ofNat ver, UInt8.ofNat code] ++ be 2 (8 + body.length) ++ be 4 xid ++ body

/-- What the specification says about a message class: its name, the version and type number in its packets, the
name of the header class, and the format of the body (read off the object without its header). -/
structure MsgFmt where
  name : String
  ver : Nat
  code : Nat
  hdr : String
  fmt : Fmt

/-- The transaction id of a header whose class, version and type are the given ones.  The length attribute may
hold anything. -/
def hdrDen (hdr : String) (ver code : Nat) : Val → Option Nat
  | .obj c [a, t, _, x] =>
    if c = hdr ∧ (a = .none ∨ numOf a = some ver) ∧ numOf t = some code then numOf x else none
  | _ => none

/-- Transaction id and body content of a message of class `s`. -/
def msgDen (s : MsgFmt) : Val → Option (Nat × Data)
  | .obj c (h :: vs) =>
    if c = s.name then
      match hdrDen s.hdr s.ver s.code h, s.fmt.den (.obj c vs) with
      | some x, some d => some (x, d)
      | _, _ => none
    else none
  | _ => none

/-- The number in the length attribute of a message's header. -/
def msgLength : Val → Option Nat
  | .obj _ (.obj _ [_, _, l, _] :: _) => numOf l
  | _ => none

/-- The outcome `r` of packing a message with transaction id `x` and content `d`: the packet, when the body can be
encoded and the length and transaction id fit in their fields; `PackException` when only these two do not. -/
structure PackOk (s : MsgFmt) (x : Nat) (d : Data) (r : Res Bytes) : Prop where
  ok : ∀ p, r = .ok p ↔
    ∃ body, s.fmt.enc d = some body ∧ 8 + body.length < 65536 ∧ x < 4294967296 ∧ p = packet s.ver s.code x body
  refuse : ∀ body, s.fmt.enc d = some body → ¬ (8 + body.length < 65536 ∧ x < 4294967296) → r = .error .pack

/-- A message class implements its format: `pack` yields the packet and fails when there is none, and decoding the
body of a packet gives back the content. -/
structure MsgOk (m : MsgCls) (s : MsgFmt) : Prop where
  name : m.name = s.name
  ver : m.ver = s.ver
  code : m.code = s.code
  hdr : s.hdr = hdrName s.ver
  pack : ∀ v x d, msgDen s v = some (x, d) → PackOk s x d (m.pack v)
  unpack : ∀ d body, s.fmt.enc d = some body → s.fmt.ok d →
    ∃ vs, m.unpack body = .ok vs ∧ s.fmt.den (.obj s.name vs) = some d

/-- Every class of the specification is found under its name and its type number and implements its format. -/
structure LibOk (l : Lib) (specs : List MsgFmt) : Prop where
  ver : ∀ s ∈ specs, s.ver = l.ver ∧ s.code < 256 ∧ s.code ∈ l.types
  cls : ∀ s ∈ specs, ∃ m, l.find s.code = some m ∧ l.named s.name = some m ∧ MsgOk m s

end Pyof.Spec
