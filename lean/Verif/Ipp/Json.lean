import Verif.Ipp.Msg
import Verif.Core.Text

/-!
# Model of attributes as JSON (lib/ippattr.cpp 15-92, 160-268, 330-348)

json11 values are an inductive type; numbers are integers (the code only makes integer numbers, and reads with
`int_value()`); objects are `std::map`s.
-/

namespace Verif.Ipp

open Raster (i32ToNat natToI32)

/-- `json11::Json` -/
inductive Json where
  | null
  | str (s : Bytes)
  | num (i : Int)
  | bool (b : Bool)
  | arr (l : List Json)
  | obj (m : List (Bytes × Json))

/-- json11 `int_value()`: 0 for other types. -/
def Json.intValue : Json → Int
  | .num i => i
  | _ => 0

/-- json11 `object_items()`: empty for other types. -/
def Json.objectItems : Json → KMap Json
  | .obj m => m
  | _ => []

/-- A number with leading zeroes, `std::setw(n)` with `std::setfill('0')`. -/
def padded (n : Nat) (v : Nat) : Bytes := List.replicate (n - (dec v).length) 48 ++ dec v

/-- `IppDateTime::toStr`, ippattr.cpp 70-81 -/
def DateTime.toStr (d : DateTime) : Bytes :=
  padded 4 d.year.toNat ++ ascii "-" ++ padded 2 d.month.toNat ++ ascii "-" ++ padded 2 d.day.toNat ++ ascii "T" ++
    padded 2 d.hour.toNat ++ ascii ":" ++ padded 2 d.minutes.toNat ++ ascii ":" ++ padded 2 d.seconds.toNat ++ ascii "." ++
    padded 3 (d.deciSeconds.toNat * 100) ++ ascii " GMT" ++ [d.plusMinus] ++ padded 2 d.utcHOffset.toNat ++
    padded 2 d.utcMOffset.toNat

/-- `IppIntRange::toJSON`, ippattr.cpp 27-30 -/
def rangeToJson (low high : Int) : KMap Json := [(ascii "high", .num high), (ascii "low", .num low)]

/-- `IppResolution::toJSON`, ippattr.cpp 51-54: `(int)x` of a `uint32_t` -/
def resToJson (x y : UInt32) (units : UInt8) : KMap Json :=
  [(ascii "units", .num units.toNat), (ascii "x", .num (natToI32 x.toNat)), (ascii "y", .num (natToI32 y.toNat))]

mutual
/-- `IppAttr::valueToJSON`, ippattr.cpp 221-268 -/
def valueToJson : Value → Json
  | .str s => .str s
  | .int i => .num i
  | .bool b => .bool b
  | .range l h => .obj (rangeToJson l h)
  | .res x y u => .obj (resToJson x y u)
  | .date d => .str d.toStr
  | .set l => .arr (valuesToJson l)
  | .coll m => .obj (membersToJson m [])
/-- The loop at ippattr.cpp 252-255. -/
def valuesToJson : List Value → List Json
  | [] => []
  | v :: r => valueToJson v :: valuesToJson r
/-- The loops at ippattr.cpp 261-264 and 343-346, with `IppAttr::toJSON`, 166-169. -/
def membersToJson : List (Bytes × (UInt8 × Value)) → KMap Json → KMap Json
  | [], obj => obj
  | (k, (tag, v)) :: r, obj =>
    membersToJson r (KMap.assign obj k (.obj [(ascii "tag", .num tag.toNat), (ascii "value", valueToJson v)]))
end

/-- `IppAttr::toJSON`, ippattr.cpp 166-169 -/
def attrToJson (a : Attr) : Json := .obj [(ascii "tag", .num a.1.toNat), (ascii "value", valueToJson a.2)]

/-- `IppAttrs::toJSON`, ippattr.cpp 340-348 -/
def attrsToJson (a : Attrs) : Json := .obj (membersToJson a [])

/-- `json.at(key).int_value()` -/
def intAt (m : KMap Json) (key : Bytes) : Outcome Int :=
  match KMap.get? m key with
  | some j => .ok j.intValue
  | none => .throws .outOfRange

/-- `IppIntRange::fromJSON`, ippattr.cpp 22-25 -/
def rangeFromJson (m : KMap Json) : Outcome Value := do
  let l ← intAt m (ascii "low")
  let h ← intAt m (ascii "high")
  return .range l h

/-- `IppResolution::fromJSON`, ippattr.cpp 44-49 -/
def resFromJson (m : KMap Json) : Outcome Value := do
  let x ← intAt m (ascii "x")
  let y ← intAt m (ascii "y")
  let u ← intAt m (ascii "units")
  return .res (.ofNat (i32ToNat x)) (.ofNat (i32ToNat y)) (.ofNat (i32ToNat u))

mutual
/-- `IppAttr::valuefromJSON`, ippattr.cpp 171-219 -/
def valueFromJson (tag : UInt8) : Json → Outcome Value
  | .str s => .ok (.str s)
  | .num i => .ok (.int i)
  | .bool b => .ok (.bool b)
  | .arr l => do
    let vs ← valuesFromJson tag l
    return .set vs
  | .obj m =>
    if tag = tIntegerRange then rangeFromJson m
    else if tag = tResolution then resFromJson m
    else if tag = tDateTime then .ok (.date {})
    else if tag = tBeginCollection then do
      let c ← membersFromJson m []
      return .coll c
    else .throws .logicError
  | .null => .throws .logicError
/-- The loop at ippattr.cpp 188-191. -/
def valuesFromJson (tag : UInt8) : List Json → Outcome (List Value)
  | [] => .ok []
  | j :: r => do
    let v ← valueFromJson tag j
    let vs ← valuesFromJson tag r
    return v :: vs
/-- The loops at ippattr.cpp 209-212 and 333-336, with `IppAttr::fromJSON`, 160-164. -/
def membersFromJson : List (Bytes × Json) → Attrs → Outcome Attrs
  | [], acc => .ok acc
  | (k, j) :: r, acc => do
    let a ← attrFromJson j
    membersFromJson r (KMap.assign acc k a)
/-- `IppAttr::fromJSON`, ippattr.cpp 160-164 -/
def attrFromJson : Json → Outcome Attr
  | .obj m => do
    let t ← intAt m (ascii "tag")
    let v ← valueAt (UInt8.ofNat (i32ToNat t)) m
    return (UInt8.ofNat (i32ToNat t), v)
  | _ => .throws .outOfRange
/-- `valuefromJSON(tag, json.at("value"))`, ippattr.cpp 163 -/
def valueAt (tag : UInt8) : List (Bytes × Json) → Outcome Value
  | [] => .throws .outOfRange
  | (k, j) :: r => if k = ascii "value" then valueFromJson tag j else valueAt tag r
end

/-- `IppAttrs::fromJSON`, ippattr.cpp 330-338 -/
def attrsFromJson (j : Json) : Outcome Attrs := membersFromJson j.objectItems []

end Verif.Ipp
