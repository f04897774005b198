import Verif.Model.Message
/-!
# Helpers for messages whose body is itself a packable object
-/
namespace Pyof

/-- Objects of exactly the class `c`. -/
def isObj (c : String) : Val → Bool
  | .obj c' _ => c' == c
  | _ => false

/-- `x.pack()` for a value with a `pack` method; `none` when it has none.  A `FixedTypeList` packs its items
(basic_types.py:678-685). -/
def selfPack (classes : List (String × Attr)) : Val → Option (Res Bytes)
  | .obj c vs =>
    match classes.lookup c with
    | some a => some (a.pack (.obj c vs))
    | none => some (.error .unmodelled)
  | .list true xs => some (packAll xs)
  | .bin x => some (binPackRaw x)
  | .foreign b _ => some (.ok b)
  | .ub _ _ | .hw _ | .ip _ _ | .ip6 _ _ | .dpid _ | .chr _ _ | .pad _ => some (.error .unmodelled)
  | _ => none
where
  packAll : List Val → Res Bytes
    | [] => .ok []
    | .obj c vs :: r =>
      match classes.lookup c with
      | some a =>
        match a.pack (.obj c vs) with
        | .error e => .error e
        | .ok b =>
          match packAll r with
          | .error e => .error e
          | .ok bs => .ok (b ++ bs)
      | none => .error .unmodelled
    | _ :: _ => .error .unmodelled

/-- `BinaryData.get_size(value)` (basic_types.py:607-625) for a body: an object with a `get_size` method is asked for its
size, and a `FixedTypeList` adds up the sizes of its items (lines 719-728). -/
def bodySize (classes : List (String × Attr)) : Val → Res Nat
  | .obj c vs =>
    match classes.lookup c with
    | some a => a.usize (.obj c vs)
    | none => .error .unmodelled
  | .list true xs => sizeAll xs
  | v => (binAttr).size v
where
  sizeAll : List Val → Res Nat
    | [] => .ok 0
    | .obj c vs :: r =>
      match classes.lookup c with
      | some a =>
        match a.usize (.obj c vs) with
        | .error e => .error e
        | .ok n =>
          match sizeAll r with
          | .error e => .error e
          | .ok k => .ok (n + k)
      | none => .error .unmodelled
    | _ :: _ => .error .unmodelled

/-- `get_size()` of the attributes of a message whose last attribute is such a body. -/
def sizeWithBody (classes : List (String × Attr)) (fields : Fields) (vs : List Val) : Res Nat :=
  match vs.getLast? with
  | none => .error .unmodelled
  | some body =>
    match sizeAttrs fields.dropLast vs.dropLast with
    | .error e => .error e
    | .ok n =>
      match bodySize classes body with
      | .error e => .error e
      | .ok k => .ok (n + k)

/-- `x > 0` and `x <= OFPP_MAX` compare numbers; comparing anything else is a `TypeError`. -/
def cmpNum : Val → Option Int
  | .int i => some i
  | .enum i => some i
  | .ub _ x => (match unwrap x with | .int i => some i | _ => none)
  | _ => none

/-- The bytes of the just unpacked `body` attribute (`self.body.value`). -/
def rawBody : Val → Bytes
  | .bin (.bytes b) => b
  | _ => []

end Pyof
